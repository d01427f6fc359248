import Verif.Exact.Polar

/-! Ward identities: amplitudes with one fermion line vanish if the polarisation vector of a photon or gluon is replaced by its momentum. -/

namespace Spinas
open Spec Matrix

theorem slashV_four (k : V4 ℝ) : slashV (four k) = slash k := rfl
theorem slash_plus (k l : V4 ℝ) : slash (plus k l) = slash k + slash l := by
  simp only [slash, ← Finset.sum_add_distrib, ← add_smul]
  refine Finset.sum_congr rfl fun μ _ => ?_
  congr 1
  fin_cases μ <;> simp [four, plus, metric] <;> ring
theorem four_plus (k l : V4 ℝ) : four (plus k l) = four k + four l := by
  ext μ; fin_cases μ <;> simp [four, plus]
theorem plus_comm (k l : V4 ℝ) : plus k l = plus l k := by simp only [plus, V4.mk.injEq]; refine ⟨?_, ?_, ?_, ?_⟩ <;> ring
theorem contract_swap (u v : Vec) : contract u v = contract v u := by
  simp only [contract]; exact Finset.sum_congr rfl fun μ _ => by ring

/-! ### amplitudes are symmetric in the bosons -/

theorem higgs2_comm (c : Constants) (a b : Boson) : higgs2 c a b = higgs2 c b a := by cases a <;> cases b <;> rfl
theorem gauge3_swap (c : Constants) (a b d : Boson) : gauge3 c b a d = -gauge3 c a b d := by
  cases a <;> cases b <;> cases d <;> simp [gauge3]
theorem yangMills_swap (k₁ k₂ : V4 ℝ) (ε₁ ε₂ : Vec) : yangMills k₂ ε₂ k₁ ε₁ = -yangMills k₁ ε₁ k₂ ε₂ := by
  ext μ
  simp only [yangMills, Pi.neg_apply, contract_swap ε₂ ε₁]
  rw [add_comm (four k₂) (2 * four k₁), add_comm (2 * four k₂) (four k₁)]
  ring
theorem toHiggs_comm (c : Constants) (a b : Line) : toHiggs c a b = toHiggs c b a := by
  unfold toHiggs
  rw [higgs2_comm, contract_swap]
  simp only [and_comm]
theorem toVector_comm (c : Constants) (a b : Line) (x : Boson) : toVector c a b x = toVector c b a x := by
  unfold toVector
  by_cases ha : a.boson = .higgs
  · by_cases hb : b.boson = .higgs
    · simp only [ha, hb, if_true, higgs2_higgs_left]; simp
    · simp only [ha, hb, if_true, if_false]
  · by_cases hb : b.boson = .higgs
    · simp only [ha, hb, if_true, if_false]
    · simp only [ha, hb, if_false]
      rw [gauge3_swap c a.boson, yangMills_swap a.k]
      push_cast
      rw [neg_smul, smul_neg, neg_neg]
theorem annihilation_comm (c : Constants) (f g : Flavour) (w w' : Spinor) (a b : Line) : annihilation c f g w w' a b = annihilation c f g w w' b a := by
  unfold annihilation
  rw [toHiggs_comm, plus_comm]
  simp only [toVector_comm c a b]
theorem gluonFusion_swap (c : Constants) (f g : Flavour) (w w' : Spinor) (a b : Line) : gluonFusion c f g w w' b a = -gluonFusion c f g w w' a b := by
  unfold gluonFusion
  simp only [and_comm (a := b.boson = .gluon)]
  split_ifs
  · rw [plus_comm, yangMills_swap, smul_neg, (propagate_lin c .gluon _).map_neg, (vertex_lin c f g w w' (x := .gluon) (by simp)).map_neg]
  · simp
theorem joined_swap (c : Constants) (f g : Flavour) (l : V4 ℝ) (w w' : Spinor) (x y z t : ℂ) (A B : Line) : Reaction.joined c f g l w w' x y z t A B = Reaction.joined c f g l w w' y x z (-t) B A := by
  unfold Reaction.joined
  rw [annihilation_comm c f g w w' A B, gluonFusion_swap c f g w w' A B]
  ring

/-! ### the fermion line -/

/-- coupling of a photon or gluon -/
noncomputable def Spec.Constants.kappa (c : Constants) (f : Flavour) : Boson → ℝ
  | .photon => c.e * f.charge
  | .gluon => c.gs
  | _ => 0

theorem absorb_light (c : Constants) (f : Flavour) (ε : Vec) {a : Boson} (ha : a.massive = false) : absorb c f ε a = ((c.kappa f a : ℝ) : ℂ) • slashV ε := by
  cases a <;> first | rfl | cases ha

section
variable (c : Constants) {f g : Flavour} {l k : V4 ℝ} {w w' : Spinor} {a : Boson} (ha : a.massive = false) (B : Line)
include ha

/-- absorbed first -/
theorem ward_first (hf : Spec.after a f = some f) (hB : Spec.after B.boson f = some g) (hw : Dirac l (c.mass f) w) (hD : msq (plus l k) - c.mass f ^ 2 ≠ 0) :
    compton c f g l w w' ⟨a, k, four k⟩ B = c.kappa f a * vertex c f g w w' B.ε B.boson := by
  obtain ⟨b, k', ε⟩ := B
  have e : (slash (plus l k) + (c.mass f : ℂ) • 1) *ᵥ (slash k *ᵥ w) = ((msq (plus l k) - c.mass f ^ 2 : ℝ) : ℂ) • w := by
    have h1 : slash k *ᵥ w = slash (plus l k) *ᵥ w - (c.mass f : ℂ) • w := by
      rw [slash_plus, Matrix.add_mulVec, show slash l *ᵥ w = (c.mass f : ℂ) • w from hw]; abel
    rw [h1, Matrix.mulVec_sub, Matrix.mulVec_smul, Matrix.add_mulVec, Matrix.add_mulVec, Matrix.mulVec_mulVec, slash_sq]
    simp only [Matrix.smul_mulVec, Matrix.one_mulVec, smul_smul, smul_add, Complex.ofReal_sub, Complex.ofReal_pow, Complex.ofReal_mul, sub_smul, pow_two]
    abel
  rw [compton_some c l k k' _ _ _ _ hf hB, vertex, if_pos hB, absorb_light c f _ ha, slashV_four, ← Matrix.mulVec_mulVec, ← Matrix.mulVec_mulVec, Matrix.smul_mulVec, Matrix.mulVec_smul, e, smul_smul, Matrix.mulVec_smul,
    dotProduct_smul, smul_eq_mul]
  have hD' : ((msq (plus l k) - c.mass f ^ 2 : ℝ) : ℂ) ≠ 0 := by exact_mod_cast hD
  field_simp

/-- absorbed last -/
theorem ward_last (hg : Spec.after a g = some g) (hB : Spec.after B.boson f = some g) (hw : Dirac (plus (plus l B.k) k) (c.mass g) w') (hD : msq (plus l B.k) - c.mass g ^ 2 ≠ 0) :
    compton c f g l w w' B ⟨a, k, four k⟩ = -(c.kappa g a * vertex c f g w w' B.ε B.boson) := by
  obtain ⟨b, k', ε⟩ := B
  have e : bar w' ᵥ* (slash k * (slash (plus l k') + (c.mass g : ℂ) • 1)) = -((msq (plus l k') - c.mass g ^ 2 : ℝ) : ℂ) • bar w' := by
    have h0 : bar w' ᵥ* slash (plus (plus l k') k) = (c.mass g : ℂ) • bar w' := by rw [bar_slash, show slash (plus (plus l k') k) *ᵥ w' = (c.mass g : ℂ) • w' from hw, bar_smul]
    have h1 : bar w' ᵥ* slash k = (c.mass g : ℂ) • bar w' - bar w' ᵥ* slash (plus l k') := by
      rw [← h0, slash_plus (plus l k') k, Matrix.vecMul_add]; abel
    rw [← Matrix.vecMul_vecMul, h1, Matrix.vecMul_add, Matrix.sub_vecMul, Matrix.sub_vecMul, Matrix.vecMul_vecMul, slash_sq]
    simp only [Matrix.smul_vecMul, Matrix.vecMul_smul, Matrix.vecMul_one, smul_smul, neg_smul, Complex.ofReal_sub, Complex.ofReal_pow, Complex.ofReal_mul, sub_smul, pow_two, smul_sub]
    abel
  rw [compton_some c l k' k _ _ _ _ hB hg, vertex, if_pos hB, absorb_light c g _ ha, slashV_four, Matrix.smul_mul, Matrix.smul_mul, Matrix.smul_mulVec, dotProduct_smul, ← Matrix.mulVec_mulVec, Matrix.dotProduct_mulVec, e,
    smul_dotProduct, smul_eq_mul, smul_eq_mul]
  have hD' : ((msq (plus l k') - c.mass g ^ 2 : ℝ) : ℂ) ≠ 0 := by exact_mod_cast hD
  field_simp
end

/-! ### annihilation -/

/-- the vertex with two on-shell bosons, one with its momentum as polarisation vector -/
theorem yangMills_ward {k k' : V4 ℝ} {ε : Vec} (hk : msq k = 0) (hε : contract (four k') ε = 0) :
    yangMills k (four k) k' ε = ((2 * dot k k' : ℝ) : ℂ) • ε - contract (four k) ε • four (plus k k') := by
  have h1 : contract (four k + 2 * four k') (four k) = ((2 * dot k k' : ℝ) : ℂ) := by
    have e : contract (four k + 2 * four k') (four k) = contract (four k) (four k) + 2 * contract (four k) (four k') := by
      simp only [contract, Fin.sum_univ_four, Pi.add_apply, Pi.mul_apply, Pi.ofNat_apply]; ring
    rw [e, contract_four_four, contract_four_four, show dot k k = msq k from by simp only [dot, msq]; ring, hk]
    push_cast; ring
  have h2 : contract (2 * four k + four k') ε = 2 * contract (four k) ε := by
    have e : contract (2 * four k + four k') ε = 2 * contract (four k) ε + contract (four k') ε := by
      simp only [contract, Fin.sum_univ_four, Pi.add_apply, Pi.mul_apply, Pi.ofNat_apply]; ring
    rw [e, hε, add_zero]
  ext μ
  simp only [yangMills, h1, h2, four_plus, Pi.sub_apply, Pi.smul_apply, Pi.add_apply, smul_eq_mul]
  ring

theorem msq_plus (k l : V4 ℝ) : msq (plus k l) = msq k + msq l + 2 * dot k l := by simp only [msq, plus, dot]; ring

theorem contract_ward {k k' : V4 ℝ} {ε : Vec} (hk : msq k = 0) (hε : contract (four k') ε = 0) :
    contract (four (plus k k')) (yangMills k (four k) k' ε) = -(contract (four k) ε * (msq k' : ℝ)) := by
  rw [yangMills_ward hk hε]
  have e : contract (four (plus k k')) (((2 * dot k k' : ℝ) : ℂ) • ε - contract (four k) ε • four (plus k k')) =
      (2 * dot k k' : ℝ) * (contract (four k) ε + contract (four k') ε) - contract (four k) ε * contract (four (plus k k')) (four (plus k k')) := by
    rw [four_plus]
    simp only [contract, Fin.sum_univ_four, Pi.add_apply, Pi.sub_apply, Pi.smul_apply, smul_eq_mul]; ring
  rw [e, hε, contract_four_four, show dot (plus k k') (plus k k') = msq (plus k k') from by simp only [dot, msq]; ring, msq_plus, hk]
  push_cast; ring

theorem propagate_w (c : Constants) {k k' : V4 ℝ} {ε : Vec} {x : Boson} (hx : x = .wPlus ∨ x = .wMinus) (hM : c.MW ≠ 0) (hW : c.WW = 0) (hk : msq k = 0) (hk' : msq k' = c.MW ^ 2) (hε : contract (four k') ε = 0)
    (hD : denominator c x (plus k k') ≠ 0) : propagate c x (plus k k') (yangMills k (four k) k' ε) = -ε := by
  have hm : x.massive = true := by rcases hx with rfl | rfl <;> rfl
  have hb : c.bosonMass x = c.MW := by rcases hx with rfl | rfl <;> rfl
  have hw : c.bosonWidth x = 0 := by rcases hx with rfl | rfl <;> exact hW
  have e : denominator c x (plus k k') = ((2 * dot k k' : ℝ) : ℂ) := by
    rw [denominator, breitWigner, hb, hw, msq_plus, hk, hk']
    apply Complex.ext <;> simp
  rw [propagate, if_pos hm, contract_ward hk hε, yangMills_ward hk hε, hb, hk', e]
  rw [e] at hD
  have hM' : ((c.MW ^ 2 : ℝ) : ℂ) ≠ 0 := by exact_mod_cast pow_ne_zero 2 hM
  rw [neg_div, mul_div_assoc, div_self hM', mul_one, neg_smul, neg_sub, sub_eq_add_neg, add_right_comm, add_neg_cancel, zero_add, smul_neg, smul_smul, inv_mul_cancel₀ hD, one_smul]

theorem annihilation_w (c : Constants) {f g : Flavour} (w w' : Spinor) {k k' : V4 ℝ} {ε : Vec} {b : Boson} (hx : b = .wPlus ∨ b = .wMinus) (hB : Spec.after b f = some g) (hM : c.MW ≠ 0) (hW : c.WW = 0) (hk : msq k = 0) (hk' : msq k' = c.MW ^ 2)
    (hε : contract (four k') ε = 0) (hD : denominator c b (plus k k') ≠ 0) :
    annihilation c f g w w' ⟨.photon, k, four k⟩ ⟨b, k', ε⟩ = (c.kappa g .photon - c.kappa f .photon) * vertex c f g w w' ε b := by
  have key : ∀ t : ℂ, propagate c b (plus k k') (t • yangMills k (four k) k' ε) = (-t) • ε := fun t => by
    rw [(propagate_lin c b _).map_smul, propagate_w c hx hM hW hk hk' hε hD, smul_neg, neg_smul]
  have z : ∀ x, propagate c x (plus k k') 0 = 0 := fun x => (propagate_lin c x _).map_zero
  have vs : ∀ (t : ℂ), vertex c f g w w' (t • ε) b = t * vertex c f g w w' ε b := fun t => by
    rw [(vertex_lin c f g w w' (x := b) (by rcases hx with rfl | rfl <;> simp)).map_smul]; rfl
  have v0 : ∀ x : Boson, x ≠ .higgs → vertex c f g w w' 0 x = 0 := fun x hx => (vertex_lin c f g w w' hx).map_zero
  unfold annihilation
  rw [show toHiggs c ⟨.photon, k, four k⟩ ⟨b, k', ε⟩ = 0 by simp [toHiggs, higgs2]]
  rcases hx with rfl | rfl
  · have q : g.charge = f.charge + 1 := by
      obtain ⟨kf, n⟩ := f
      cases kf <;> simp only [Spec.after] at hB <;> cases hB <;> norm_num [Flavour.charge]
    simp only [carriers, List.map_cons, List.map_nil, List.sum_cons, List.sum_nil, toVector, Boson.anti, gauge3, reduceCtorEq, if_false, Complex.ofReal_zero, zero_smul, z]
    rw [key, vs, v0 .photon (by simp), v0 .z (by simp), v0 .wMinus (by simp)]
    simp only [Constants.kappa, q]
    push_cast; ring
  · have q : g.charge = f.charge - 1 := by
      obtain ⟨kf, n⟩ := f
      cases kf <;> simp only [Spec.after] at hB <;> cases hB <;> norm_num [Flavour.charge]
    simp only [carriers, List.map_cons, List.map_nil, List.sum_cons, List.sum_nil, toVector, Boson.anti, gauge3, reduceCtorEq, if_false, Complex.ofReal_zero, zero_smul, z]
    rw [key, vs, v0 .photon (by simp), v0 .z (by simp), v0 .wPlus (by simp)]
    simp only [Constants.kappa, q]
    push_cast; ring

theorem annihilation_none (c : Constants) {f g : Flavour} (w w' : Spinor) {a b : Line} (ha : a.boson.massive = false) (h : a.boson = .photon → b.boson ≠ .wPlus ∧ b.boson ≠ .wMinus) : annihilation c f g w w' a b = 0 := by
  obtain ⟨x, k, ε⟩ := a
  obtain ⟨y, k', ε'⟩ := b
  have z : ∀ x, propagate c x (plus k k') 0 = 0 := fun x => (propagate_lin c x _).map_zero
  have v0 : ∀ x : Boson, x ≠ .higgs → vertex c f g w w' 0 x = 0 := fun x hx => (vertex_lin c f g w w' hx).map_zero
  unfold annihilation
  cases x <;> simp only [Boson.massive, reduceCtorEq] at ha
  · cases y <;> simp at h <;> simp [toHiggs, toVector, higgs2, gauge3, carriers, z, v0, Boson.anti]
  · cases y <;> simp [toHiggs, toVector, higgs2, gauge3, carriers, z, v0, Boson.anti]

theorem propagate_gluon (c : Constants) {k k' : V4 ℝ} {ε : Vec} (hk : msq k = 0) (hk' : msq k' = 0) (hε : contract (four k') ε = 0)
    (hD : denominator c .gluon (plus k k') ≠ 0) : ∃ t : ℂ, propagate c .gluon (plus k k') (yangMills k (four k) k' ε) = -ε + t • four (plus k k') := by
  have e : denominator c .gluon (plus k k') = ((2 * dot k k' : ℝ) : ℂ) := by
    rw [denominator, breitWigner, msq_plus, hk, hk']
    apply Complex.ext <;> simp [Constants.bosonMass]
  rw [propagate, yangMills_ward hk hε, e]
  rw [e] at hD
  refine ⟨((2 * dot k k' : ℝ) : ℂ)⁻¹ * contract (four k) ε, ?_⟩
  simp only [Boson.massive, Bool.false_eq_true, if_false, add_zero, neg_sub, smul_sub, smul_smul, inv_mul_cancel₀ hD, one_smul]
  abel

/-- The current of the line is conserved. -/
theorem vertex_conserved (c : Constants) {f : Flavour} {l q : V4 ℝ} {w w' : Spinor} (hw : Dirac l (c.mass f) w) (hw' : Dirac (plus l q) (c.mass f) w') : vertex c f f w w' (four q) .gluon = 0 := by
  unfold vertex
  split_ifs with h
  · rw [absorb_light c f _ rfl, slashV_four, Matrix.smul_mulVec, dotProduct_smul]
    have h1 : slash q *ᵥ w = slash (plus l q) *ᵥ w - (c.mass f : ℂ) • w := by
      rw [slash_plus, Matrix.add_mulVec, show slash l *ᵥ w = (c.mass f : ℂ) • w from hw]; abel
    rw [h1, dotProduct_sub, Matrix.dotProduct_mulVec, bar_slash, show slash (plus l q) *ᵥ w' = (c.mass f : ℂ) • w' from hw', bar_smul, smul_dotProduct, dotProduct_smul, sub_self, smul_zero]
  · rfl

theorem gluonFusion_ward (c : Constants) {f : Flavour} {l k k' : V4 ℝ} {w w' : Spinor} {ε : Vec} (hw : Dirac l (c.mass f) w) (hw' : Dirac (plus l (plus k k')) (c.mass f) w') (hk : msq k = 0) (hk' : msq k' = 0) (hε : contract (four k') ε = 0)
    (hD : denominator c .gluon (plus k k') ≠ 0) : gluonFusion c f f w w' ⟨.gluon, k, four k⟩ ⟨.gluon, k', ε⟩ = -(c.gs * vertex c f f w w' ε .gluon) := by
  obtain ⟨t, ht⟩ := propagate_gluon c hk hk' hε hD
  have L := vertex_lin c f f w w' (x := .gluon) (by simp)
  unfold gluonFusion
  rw [if_pos ⟨rfl, rfl⟩, (propagate_lin c .gluon _).map_smul, ht, L.map_smul, L.map_add, L.map_neg, L.map_smul, vertex_conserved c hw hw']
  simp only [smul_zero, add_zero, smul_eq_mul]
  ring

/-! ### both diagrams -/

theorem after_light {a b : Boson} {f g : Flavour} (ha : a.massive = false) (hf : Spec.after a f = some f) (hB : Spec.after b f = some g) : Spec.after a g = some g := by
  cases a <;> simp only [Boson.massive, reduceCtorEq] at ha
  · rfl
  · obtain ⟨kf, n⟩ := f
    cases b <;> cases kf <;> simp [Spec.after, Flavour.quark] at hf hB ⊢ <;> simp [← hB]

theorem after_neutral {b : Boson} {f g : Flavour} (hb : b ≠ .wPlus ∧ b ≠ .wMinus) (hB : Spec.after b f = some g) : f = g := by
  cases b <;> simp [Spec.after] at hb hB <;> first | exact hB | exact hB.2

/-- A photon or gluon with its momentum as polarisation vector decouples; the colour factors `x`, `y`, `z` and `t` are those of the reaction. -/
theorem joined_ward (c : Constants) {f g : Flavour} {l k : V4 ℝ} {w w' : Spinor} {a : Boson} {B : Line} {x y z t : ℂ} (ha : a.massive = false) (hf : Spec.after a f = some f) (hB : Spec.after B.boson f = some g)
    (hw : Dirac l (c.mass f) w) (hw' : Dirac (plus (plus l B.k) k) (c.mass g) w') (hk : msq k = 0) (hk' : msq B.k = c.bosonMass B.boson ^ 2) (hε : B.boson ≠ .higgs → contract (four B.k) B.ε = 0)
    (hD : msq (plus l k) - c.mass f ^ 2 ≠ 0) (hD' : msq (plus l B.k) - c.mass g ^ 2 ≠ 0)
    (hx : ¬(a = .gluon ∧ B.boson = .gluon) → x = y) (hz : a ≠ .gluon → B.boson ≠ .gluon → x = z) (ht : t = x - y)
    (hA : (B.boson = .wPlus ∨ B.boson = .wMinus) → a = .photon → c.MW ≠ 0 ∧ c.WW = 0 ∧ denominator c B.boson (plus k B.k) ≠ 0) (hG : a = .gluon → B.boson = .gluon → denominator c .gluon (plus k B.k) ≠ 0) :
    Reaction.joined c f g l w w' x y z t ⟨a, k, four k⟩ B = 0 := by
  have hg := after_light ha hf hB
  unfold Reaction.joined
  rw [ward_first c ha B hf hB hw hD, ward_last c ha B hg hB hw' hD']
  obtain ⟨b, k', ε⟩ := B
  simp only at hB hk' hε hx hz hA hG hw' ⊢
  by_cases hgg : a = .gluon ∧ b = .gluon
  · obtain ⟨rfl, rfl⟩ := hgg
    have hfg : f = g := after_neutral (by simp) hB
    subst hfg
    rw [annihilation_none c w w' rfl (by simp), gluonFusion_ward c hw (by rw [plus_comm k k', ← show plus (plus l k') k = plus l (plus k' k) by simp only [plus, V4.mk.injEq]; refine ⟨?_, ?_, ?_, ?_⟩ <;> ring]; exact hw') hk (by rw [hk']; simp [Constants.bosonMass]) (hε (by simp)) (hG rfl rfl), ht]
    simp only [Constants.kappa]; ring
  · have hxy := hx hgg
    subst hxy
    rw [sub_self] at ht
    subst ht
    by_cases hW : (b = .wPlus ∨ b = .wMinus) ∧ a = .photon
    · obtain ⟨hW, rfl⟩ := hW
      have hxz : x = z := hz (by simp) (by rcases hW with rfl | rfl <;> simp)
      subst hxz
      obtain ⟨h1, h2, h3⟩ := hA hW rfl
      have hb : b ≠ .higgs := by rcases hW with rfl | rfl <;> simp
      rw [annihilation_w c w w' hW hB h1 h2 hk (by rw [hk']; rcases hW with rfl | rfl <;> rfl) (hε hb) h3]
      ring
    · rw [annihilation_none c w w' ha (fun h => ⟨fun e => hW ⟨.inl e, h⟩, fun e => hW ⟨.inr e, h⟩⟩)]
      have hκ : c.kappa f a = c.kappa g a := by
        by_cases hb : b = .wPlus ∨ b = .wMinus
        · have : a ≠ .photon := fun e => hW ⟨hb, e⟩
          cases a <;> first | rfl | exact absurd rfl this
        · exact congrArg (fun f => c.kappa f a) (after_neutral ⟨fun e => hb (.inl e), fun e => hb (.inr e)⟩ hB)
      rw [hκ]; ring

end Spinas
