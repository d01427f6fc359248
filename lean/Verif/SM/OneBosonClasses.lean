import Verif.SM.OneBosonRows

/-! The classes for four fermions where one boson is exchanged, one by one. -/

namespace Spinas
open Spec Spec.Scattering Props Matrix

namespace SM.Row
variable [FPEnv]

/-- The Feynman rules give the formula `f` under the condition `ok` on the constants. -/
def Formula (R : Row) (ok : Constants → Prop) (f : Constants → (Nat → V4 ℝ) → ℝ) : Prop := ∀ (c : Constants) (p : Nat → V4 ℝ) (u : Fin 4 → Fin 2 → Spinor),
  c.Physical → ok c → (none ∈ R.pars → c.WZ = 0) → (∀ i : Fin 4, OnShell (p i) (c.mass (R.scat.leg i).flavour)) → Balanced p → R.scat.Regular c p → (∀ i, R.scat.Complete c p i (u i)) →
  R.scat.squared c p u = f c p

variable {R : Row}

theorem nonneg {c : Constants} (hc : c.Physical) (f : Flavour) : 0 ≤ c.mass f := by
  by_cases hf : f.kind = .neutrino
  · have := hc.neutrino f.gen
    rw [← hf] at this
    exact this.ge
  · exact (hc.massive f hf).le

/-! ### gluons -/

theorem gluon_pair {f g : Flavour} (he : R.scat.ends = [1, 2]) (hs : R.scat.starts = [0, 3]) (ha : ∀ i, (R.scat.leg i).anti = ![false, true, false, true] i)
    (hf : ∀ i, (R.scat.leg i).flavour = ![f, f, g, g] i) (hq : ∀ n, (R.scat.leg n).flavour.quark = true) (ht : R.scat.theory = .standard) (hn : R.scat.neutral 1 0 2 3) (hn' : ¬ R.scat.neutral 1 3 2 0)
    (hS : R.scat.states * R.scat.symmetry = 36) :
    R.Formula (fun c => c.e = 0) fun c p => 2 / 9 * c.gs ^ 4 * throughVector (c.mass f) (c.mass g) (mandelstamS p) (mandelstamT p) (mandelstamU p) := by
  intro c p u hc h0 hw hp hb hr hu
  have hm := nonneg hc
  rw [strong_one he hs hp hm (flows_annihilation _ ha hb) hq colours_annihilation (by decide) h0 ht hu (transfer_pair ha hb).1 hn hn']
  rw [pair_sum (m := c.mass f) (M := c.mass g) hp hm hb ha (fun i => by show c.mass _ = _; rw [hf]; fin_cases i <;> rfl)]
  have : ((R.scat.states : ℝ) * R.scat.symmetry) = 36 := by exact_mod_cast hS
  rw [this]
  simp only [throughVector]
  ring

theorem gluon_scatter {f g : Flavour} (he : R.scat.ends = [2, 3]) (hs : R.scat.starts = [0, 1]) (ha : ∀ i, (R.scat.leg i).anti = false)
    (hf : ∀ i, (R.scat.leg i).flavour = ![f, g, f, g] i) (hq : ∀ n, (R.scat.leg n).flavour.quark = true) (ht : R.scat.theory = .standard) (hn : R.scat.neutral 2 0 3 1) (hn' : ¬ R.scat.neutral 2 1 3 0)
    (hS : R.scat.states * R.scat.symmetry = 36) :
    R.Formula (fun c => c.e = 0) fun c p => 2 / 9 * c.gs ^ 4 * throughVector (c.mass f) (c.mass g) (mandelstamT p) (mandelstamS p) (mandelstamU p) := by
  intro c p u hc h0 hw hp hb hr hu
  have hm := nonneg hc
  rw [strong_one he hs hp hm (flows_scattering _ ha hb) hq colours_scattering (by decide) h0 ht hu (transfer_scatter ha hb).1 hn hn']
  rw [scatter_sum (m := c.mass f) (M := c.mass g) hp hm hb ha (fun i => by show c.mass _ = _; rw [hf]; fin_cases i <;> rfl)]
  have : ((R.scat.states : ℝ) * R.scat.symmetry) = 36 := by exact_mod_cast hS
  rw [this]
  simp only [throughVector]
  ring

theorem gluon_bhabha {f : Flavour} (he : R.scat.ends = [1, 2]) (hs : R.scat.starts = [0, 3]) (ha : ∀ i, (R.scat.leg i).anti = ![false, true, false, true] i)
    (hf : ∀ i, (R.scat.leg i).flavour = f) (hq : ∀ n, (R.scat.leg n).flavour.quark = true) (ht : R.scat.theory = .standard) (hS : R.scat.states * R.scat.symmetry = 36) :
    R.Formula (fun c => c.e = 0) fun c p => 2 / 9 * c.gs ^ 4 * bhabha (-1 / 3) (c.mass f) (mandelstamS p) (mandelstamT p) (mandelstamU p) := by
  intro c p u hc h0 hw hp hb hr hu
  have hm := nonneg hc
  have hl : ∀ i, R.scat.legMass c i = ![c.mass f, c.mass f, c.mass f, c.mass f] i := fun i => by show c.mass _ = _; rw [hf]; fin_cases i <;> rfl
  rw [strong_two he hs hp hm (flows_annihilation _ ha hb) hq colours_annihilation (by decide) h0 ht hu (transfer_pair ha hb).1 ⟨by rw [hf, hf], by rw [hf, hf]⟩ ⟨by rw [hf, hf], by rw [hf, hf]⟩ (transfer_pair ha hb).2,
    bhabha_sum hp hm hb ha hl, bhabha_sum hp hm hb ha hl, bhabha_sum hp hm hb ha hl]
  have : ((R.scat.states : ℝ) * R.scat.symmetry) = 36 := by exact_mod_cast hS
  rw [this]
  simp only [bhabha, throughVector]
  ring

theorem gluon_moller {f : Flavour} (he : R.scat.ends = [2, 3]) (hs : R.scat.starts = [0, 1]) (ha : ∀ i, (R.scat.leg i).anti = false)
    (hf : ∀ i, (R.scat.leg i).flavour = f) (hq : ∀ n, (R.scat.leg n).flavour.quark = true) (ht : R.scat.theory = .standard) (hS : R.scat.states * R.scat.symmetry = 72) :
    R.Formula (fun c => c.e = 0) fun c p => 1 / 9 * c.gs ^ 4 * moller (-1 / 3) (c.mass f) (mandelstamS p) (mandelstamT p) (mandelstamU p) := by
  intro c p u hc h0 hw hp hb hr hu
  have hm := nonneg hc
  have hl : ∀ i, R.scat.legMass c i = ![c.mass f, c.mass f, c.mass f, c.mass f] i := fun i => by show c.mass _ = _; rw [hf]; fin_cases i <;> rfl
  rw [strong_two he hs hp hm (flows_scattering _ ha hb) hq colours_scattering (by decide) h0 ht hu (transfer_scatter ha hb).1 ⟨by rw [hf, hf], by rw [hf, hf]⟩ ⟨by rw [hf, hf], by rw [hf, hf]⟩ (transfer_scatter ha hb).2,
    moller_sum hp hm hb ha hl, moller_sum hp hm hb ha hl, moller_sum hp hm hb ha hl]
  have : ((R.scat.states : ℝ) * R.scat.symmetry) = 72 := by exact_mod_cast hS
  rw [this]
  simp only [moller, bhabha, throughVector]
  ring

/-! ### photons -/

theorem photon_pair {f g : Flavour} (he : R.scat.ends = [1, 2]) (hs : R.scat.starts = [0, 3]) (ha : ∀ i, (R.scat.leg i).anti = ![false, true, false, true] i)
    (hf : ∀ i, (R.scat.leg i).flavour = ![f, f, g, g] i) (hq : ∀ n, (R.scat.leg n).flavour.quark = false) (ht : R.scat.theory = .qed) (hn : R.scat.neutral 1 0 2 3) (hn' : ¬ R.scat.neutral 1 3 2 0)
    (hS : R.scat.states * R.scat.symmetry = 4) :
    R.Formula (fun _ => True) fun c p => (c.e ^ 2 * f.charge * g.charge) ^ 2 * throughVector (c.mass f) (c.mass g) (mandelstamS p) (mandelstamT p) (mandelstamU p) := by
  intro c p u hc _ hw hp hb hr hu
  have hm := nonneg hc
  have f1 : (R.scat.leg 1).flavour = f := hf 1
  have f2 : (R.scat.leg 2).flavour = g := hf 2
  rw [squared_leptons _ he hs hp hm (flows_annihilation _ ha hb) hu hq]
  simp only [ewC_qed_none hn' ht, ewC_photon hn ht f1 f2 rfl rfl rfl rfl (transfer_pair ha hb).1, sub_zero, norm_mul, norm_div, Complex.norm_real, Real.norm_eq_abs, mul_pow, div_pow, sq_abs]
  rw [← Finset.mul_sum, ← Finset.sum_div]
  have e := pair_sum (m := c.mass f) (M := c.mass g) hp hm hb ha (fun i => by show c.mass _ = _; rw [hf]; fin_cases i <;> rfl)
  unfold exch at e
  rw [e]
  have : ((R.scat.states : ℝ) * R.scat.symmetry) = 4 := by exact_mod_cast hS
  rw [this]
  simp only [throughVector]
  ring

theorem photon_bhabha {f : Flavour} (he : R.scat.ends = [1, 2]) (hs : R.scat.starts = [0, 3]) (ha : ∀ i, (R.scat.leg i).anti = ![false, true, false, true] i)
    (hf : ∀ i, (R.scat.leg i).flavour = f) (hq : ∀ n, (R.scat.leg n).flavour.quark = false) (ht : R.scat.theory = .qed) (hS : R.scat.states * R.scat.symmetry = 4) :
    R.Formula (fun _ => True) fun c p => (c.e * f.charge) ^ 4 * bhabha 1 (c.mass f) (mandelstamS p) (mandelstamT p) (mandelstamU p) := by
  intro c p u hc _ hw hp hb hr hu
  have hm := nonneg hc
  have hl : ∀ i, R.scat.legMass c i = ![c.mass f, c.mass f, c.mass f, c.mass f] i := fun i => by show c.mass _ = _; rw [hf]; fin_cases i <;> rfl
  have n1 : R.scat.neutral 1 0 2 3 := ⟨by rw [hf, hf], by rw [hf, hf]⟩
  have n2 : R.scat.neutral 1 3 2 0 := ⟨by rw [hf, hf], by rw [hf, hf]⟩
  rw [squared_leptons _ he hs hp hm (flows_annihilation _ ha hb) hu hq]
  simp only [ewC_photon n1 ht (hf 1) (hf 2) rfl rfl rfl rfl (transfer_pair ha hb).1, ewC_photon n2 ht (hf 1) (hf 2) rfl rfl rfl rfl (transfer_pair ha hb).2]
  have e := bhabha_sum hp hm hb ha hl (c.e ^ 2 * f.charge * f.charge / mandelstamS p) (-(c.e ^ 2 * f.charge * f.charge / mandelstamT p))
  unfold exch at e
  have k : ∀ x y : ℂ, ((c.e ^ 2 * f.charge * f.charge : ℝ) : ℂ) * (x / (mandelstamS p : ℂ)) - ((c.e ^ 2 * f.charge * f.charge : ℝ) : ℂ) * (y / (mandelstamT p : ℂ)) =
      ((c.e ^ 2 * f.charge * f.charge / mandelstamS p : ℝ) : ℂ) * x + ((-(c.e ^ 2 * f.charge * f.charge / mandelstamT p) : ℝ) : ℂ) * y := fun x y => by push_cast; ring
  simp only [k]
  rw [e]
  have : ((R.scat.states : ℝ) * R.scat.symmetry) = 4 := by exact_mod_cast hS
  rw [this]
  simp only [bhabha, throughVector]
  ring

/-! ### neutrinos -/

section
variable {S : Scattering} {c : Constants} {p : Nat → V4 ℝ} {i j k l : Fin 4}

theorem neutrino_couplings (hc : c.Physical) {g : Flavour} (hg : g.kind = .neutrino) : c.mass g = 0 ∧ g.charge = 0 ∧ c.gL g = 1 / 2 ∧ c.gR g = 0 := by
  have := hc.neutrino g.gen
  rw [← hg] at this
  refine ⟨this, ?_, ?_, ?_⟩ <;> simp [Constants.gL, Constants.gR, Flavour.charge, Flavour.isospin, hg]

theorem pole_real {m w : ℝ} (hw : w = 0) (q : V4 ℝ) : ‖pole m w q‖ ^ 2 = (msq q - m ^ 2) ^ 2 := by
  rw [pole, norm_star, breitWigner, ← Complex.normSq_eq_norm_sq, Complex.normSq_apply, hw]
  simp
  ring

theorem ewC_second (hc : c.Physical) (ht : S.theory = .standard) (hn : S.neutral i j k l) (hn' : ¬ S.charged i j k l) (hw : c.WZ = 0) {f g : Flavour} (hf : (S.leg i).flavour = f) (hg : (S.leg k).flavour = g)
    (hk : g.kind = .neutrino) {q : ℝ} (hq : msq (S.transfer p i j) = q) (s : Fin 4 → Fin 2) :
    ‖S.ewC c p (S.angs c p s) (S.sqrs c p s) i j k l‖ ^ 2 = (c.e ^ 2 / (c.SW ^ 2 * c.CW ^ 2)) ^ 2 / (q - c.MZ ^ 2) ^ 2 * ‖S.exch c p s i j k l (c.gL f) (c.gR f) (1 / 2) 0‖ ^ 2 := by
  obtain ⟨h1, h2, h3, h4⟩ := neutrino_couplings hc hk
  have e := ewC_neutral (c := c) (A := S.angs c p s) (Q := S.sqrs c p s) hn hn' ht hf hg rfl rfl rfl rfl hq rfl rfl
  rw [h1, h2, h3, h4] at e
  rw [e]
  simp only [exch, mul_zero, zero_mul, sub_self, Complex.ofReal_zero, ln, zero_div, add_zero, zero_add, sub_zero, norm_mul, norm_div, mul_pow, div_pow, Complex.norm_real, Real.norm_eq_abs, sq_abs, pole_real hw, hq]
  ring

theorem ewC_first (hc : c.Physical) (ht : S.theory = .standard) (hn : S.neutral i j k l) (hn' : ¬ S.charged i j k l) (hw : c.WZ = 0) {f g : Flavour} (hf : (S.leg i).flavour = f) (hg : (S.leg k).flavour = g)
    (hk : f.kind = .neutrino) {q : ℝ} (hq : msq (S.transfer p i j) = q) (s : Fin 4 → Fin 2) :
    ‖S.ewC c p (S.angs c p s) (S.sqrs c p s) i j k l‖ ^ 2 = (c.e ^ 2 / (c.SW ^ 2 * c.CW ^ 2)) ^ 2 / (q - c.MZ ^ 2) ^ 2 * ‖S.exch c p s i j k l (1 / 2) 0 (c.gL g) (c.gR g)‖ ^ 2 := by
  obtain ⟨h1, h2, h3, h4⟩ := neutrino_couplings hc hk
  have e := ewC_neutral (c := c) (A := S.angs c p s) (Q := S.sqrs c p s) hn hn' ht hf hg rfl rfl rfl rfl hq rfl rfl
  rw [h1, h2, h3, h4] at e
  rw [e]
  simp only [exch, mul_zero, zero_mul, sub_self, Complex.ofReal_zero, ln, zero_div, add_zero, zero_add, sub_zero, norm_mul, norm_div, mul_pow, div_pow, Complex.norm_real, Real.norm_eq_abs, sq_abs, pole_real hw, hq]
  ring
end

theorem lepton_pair {f g : Flavour} (he : R.scat.ends = [1, 2]) (hs : R.scat.starts = [0, 3]) (ha : ∀ i, (R.scat.leg i).anti = ![false, true, false, true] i)
    (hf : ∀ i, (R.scat.leg i).flavour = ![f, f, g, g] i) (hg : g.kind = .neutrino) (hq : ∀ n, (R.scat.leg n).flavour.quark = false) (ht : R.scat.theory = .standard)
    (hn : R.scat.neutral 1 0 2 3) (hn' : ¬ R.scat.neutral 1 3 2 0) (hc1 : ¬ R.scat.charged 1 0 2 3) (hc2 : ¬ R.scat.charged 1 3 2 0) (hz : none ∈ R.pars) :
    R.Formula (fun _ => True) fun c p => zSquared c (mandelstamS p) * neutrinoScattering (c.gL f) (c.gR f) (c.mass f) (mandelstamU p) (mandelstamS p) (mandelstamT p) / (R.scat.states * R.scat.symmetry) := by
  intro c p u hc _ hw hp hb hr hu
  have hm := nonneg hc
  rw [squared_leptons _ he hs hp hm (flows_annihilation _ ha hb) hu hq]
  simp only [ewC_none hn' hc2, sub_zero, ewC_second hc ht hn hc1 (hw hz) (hf 1) (hf 2) hg (transfer_pair ha hb).1]
  rw [← Finset.mul_sum]
  have e := pair_neutrinos (m := c.mass f) hp hm hb ha (fun i => by
    show c.mass _ = _
    rw [hf]
    fin_cases i
    · rfl
    · rfl
    · exact (neutrino_couplings hc hg).1
    · exact (neutrino_couplings hc hg).1) (c.gL f) (c.gR f)
  erw [e]
  rfl

theorem lepton_scatter {f g : Flavour} (he : R.scat.ends = [2, 3]) (hs : R.scat.starts = [0, 1]) (ha : ∀ i, (R.scat.leg i).anti = false)
    (hf : ∀ i, (R.scat.leg i).flavour = ![f, g, f, g] i) (hg : g.kind = .neutrino) (hq : ∀ n, (R.scat.leg n).flavour.quark = false) (ht : R.scat.theory = .standard)
    (hn : R.scat.neutral 2 0 3 1) (hn' : ¬ R.scat.neutral 2 1 3 0) (hc1 : ¬ R.scat.charged 2 0 3 1) (hc2 : ¬ R.scat.charged 2 1 3 0) (hz : none ∈ R.pars) :
    R.Formula (fun _ => True) fun c p => zSquared c (mandelstamT p) * neutrinoScattering (c.gL f) (c.gR f) (c.mass f) (mandelstamS p) (mandelstamT p) (mandelstamU p) / (R.scat.states * R.scat.symmetry) := by
  intro c p u hc _ hw hp hb hr hu
  have hm := nonneg hc
  rw [squared_leptons _ he hs hp hm (flows_scattering _ ha hb) hu hq]
  simp only [ewC_none hn' hc2, sub_zero, ewC_second hc ht hn hc1 (hw hz) (hf 2) (hf 3) hg (transfer_scatter ha hb).1]
  rw [← Finset.mul_sum]
  have e := scatter_neutrino (m := c.mass f) hp hm hb ha (fun i => by
    show c.mass _ = _
    rw [hf]
    fin_cases i
    · rfl
    · exact (neutrino_couplings hc hg).1
    · rfl
    · exact (neutrino_couplings hc hg).1) (c.gL f) (c.gR f)
  erw [e]
  rfl

theorem quark_pair {f g : Flavour} (he : R.scat.ends = [1, 2]) (hs : R.scat.starts = [0, 3]) (ha : ∀ i, (R.scat.leg i).anti = ![false, true, false, true] i)
    (hf : ∀ i, (R.scat.leg i).flavour = ![f, f, g, g] i) (hg : g.kind = .neutrino) (hq : ∀ n, (R.scat.leg n).flavour.quark = decide (n = 0 ∨ n = 1)) (ht : R.scat.theory = .standard)
    (hn : R.scat.neutral 1 0 2 3) (hn' : ¬ R.scat.neutral 1 3 2 0) (hc1 : ¬ R.scat.charged 1 0 2 3) (hc2 : ¬ R.scat.charged 1 3 2 0) (hz : none ∈ R.pars) :
    R.Formula (fun _ => True) fun c p => 3 * (zSquared c (mandelstamS p) * neutrinoScattering (c.gL f) (c.gR f) (c.mass f) (mandelstamU p) (mandelstamS p) (mandelstamT p)) / (R.scat.states * R.scat.symmetry) := by
  intro c p u hc _ hw hp hb hr hu
  have hm := nonneg hc
  rw [squared_mixed_annihilation _ he hs hp hm hu true hq hn' hc2]
  have k := fun s => (connected_conj _ he hs hp hm (flows_annihilation _ ha hb) s).1
  simp only [k, norm_star, ewC_second hc ht hn hc1 (hw hz) (hf 1) (hf 2) hg (transfer_pair ha hb).1]
  rw [← Finset.mul_sum, ← Finset.mul_sum]
  have e := pair_neutrinos (m := c.mass f) hp hm hb ha (fun i => by
    show c.mass _ = _
    rw [hf]
    fin_cases i
    · rfl
    · rfl
    · exact (neutrino_couplings hc hg).1
    · exact (neutrino_couplings hc hg).1) (c.gL f) (c.gR f)
  erw [e]
  rfl

theorem quark_cross {f g : Flavour} (he : R.scat.ends = [2, 3]) (hs : R.scat.starts = [0, 1]) (ha : ∀ i, (R.scat.leg i).anti = false)
    (hf : ∀ i, (R.scat.leg i).flavour = ![f, g, g, f] i) (hg : g.kind = .neutrino) (hq : ∀ n, (R.scat.leg n).flavour.quark = decide (n = 0 ∨ n = 3)) (ht : R.scat.theory = .standard)
    (hn : R.scat.neutral 2 1 3 0) (hn' : ¬ R.scat.neutral 2 0 3 1) (hc1 : ¬ R.scat.charged 2 1 3 0) (hc2 : ¬ R.scat.charged 2 0 3 1) (hz : none ∈ R.pars) :
    R.Formula (fun _ => True) fun c p => 3 * (zSquared c (mandelstamU p) * neutrinoScattering (c.gL f) (c.gR f) (c.mass f) (mandelstamS p) (mandelstamU p) (mandelstamT p)) / (R.scat.states * R.scat.symmetry) := by
  intro c p u hc _ hw hp hb hr hu
  have hm := nonneg hc
  rw [squared_mixed_scattering _ he hs hp hm hu true hq hn' hc2]
  have k := fun s => (connected_conj _ he hs hp hm (flows_scattering _ ha hb) s).2.1
  simp only [k, norm_star, ewC_first hc ht hn hc1 (hw hz) (hf 2) (hf 3) hg (transfer_scatter ha hb).2]
  rw [← Finset.mul_sum, ← Finset.mul_sum]
  have e := cross_neutrino (m := c.mass f) hp hm hb ha (fun i => by
    show c.mass _ = _
    rw [hf]
    fin_cases i
    · rfl
    · exact (neutrino_couplings hc hg).1
    · exact (neutrino_couplings hc hg).1
    · rfl) (c.gL f) (c.gR f)
  erw [e]
  rfl

end SM.Row
end Spinas
