import Verif.Exact.Ward
import Verif.Spec.Collision

/-! The Feynman rules do not change if particles and antiparticles are exchanged and space is reflected (there is no mixing of generations). -/

namespace Spinas
open Spec Matrix

namespace Spec
/-- reflection of space -/
def mirror (p : V4 ℝ) : V4 ℝ := ⟨p.t, -p.x, -p.y, -p.z⟩
def mirrorV (ε : Vec) : Vec := fun μ => metric μ * ε μ
/-- the spinor of the antiparticle -/
noncomputable def conjSpinor (w : Spinor) : Spinor := gamma 2 *ᵥ bar w

/-- the antiparticle -/
def Particle.anti : Particle → Particle
  | .fermion f a => .fermion f !a
  | .boson b => .boson b.anti
/-- the reaction of the antiparticles -/
def Reaction.conj (S : Reaction) : Reaction := ⟨fun n => (S.leg n).anti⟩
/-- a boson after reflection -/
def Line.conj (a : Line) : Line := ⟨a.boson.anti, mirror a.k, mirrorV a.ε⟩
end Spec

/-! ### reflections -/

theorem metric_sq (μ : Fin 4) : metric μ * metric μ = 1 := by fin_cases μ <;> simp [metric]
theorem mirrorV_mirrorV (ε : Vec) : mirrorV (mirrorV ε) = ε := by
  ext μ; rw [mirrorV, mirrorV, ← mul_assoc, metric_sq, one_mul]
theorem mirror_mirror (p : V4 ℝ) : mirror (mirror p) = p := by simp [mirror]
theorem four_mirror (p : V4 ℝ) : four (mirror p) = mirrorV (four p) := by
  ext μ; fin_cases μ <;> simp [four, mirror, mirrorV, metric]
theorem msq_mirror (p : V4 ℝ) : msq (mirror p) = msq p := by simp [msq, mirror]
theorem plus_mirror (p q : V4 ℝ) : plus (mirror p) (mirror q) = mirror (plus p q) := by simp [plus, mirror]; ring_nf; simp
theorem backward_mirror (p : V4 ℝ) : backward (mirror p) = mirror (backward p) := by simp [backward, mirror]
theorem contract_mirror (x y : Vec) : contract (mirrorV x) (mirrorV y) = contract x y :=
  Finset.sum_congr rfl fun μ _ => by
    unfold mirrorV
    linear_combination metric μ * x μ * y μ * metric_sq μ
theorem mirrorV_smul (a : ℂ) (x : Vec) : mirrorV (a • x) = a • mirrorV x := by ext μ; simp [mirrorV]; ring
theorem mirrorV_add (x y : Vec) : mirrorV (x + y) = mirrorV x + mirrorV y := by ext μ; simp [mirrorV]; ring
theorem mirrorV_neg (x : Vec) : mirrorV (-x) = -mirrorV x := by ext μ; simp [mirrorV]
theorem mirrorV_zero : mirrorV 0 = 0 := by ext μ; simp [mirrorV]
theorem star_metric (μ : Fin 4) : star (metric μ) = metric μ := by fin_cases μ <;> simp [metric]
theorem mirrorV_star (x : Vec) : mirrorV (star x) = star (mirrorV x) := by
  ext μ
  have := star_metric μ
  simp only [mirrorV, Pi.star_apply, star_mul', this]

/-! ### spinors -/

theorem gamma2_slashV (ε : Vec) : gamma 2 * (slashV ε)ᵀ = -(slashV (mirrorV ε) * gamma 2) := by
  ext i j
  fin_cases i <;> fin_cases j <;> simp [slashV, gamma, metric, mirrorV, Fin.sum_univ_four, mul_apply] <;> ring
theorem gamma2_chiral (a b : ℂ) : gamma 2 * (chiral a b)ᵀ = chiral b a * gamma 2 := by
  ext i j
  fin_cases i <;> fin_cases j <;> simp [chiral, gamma, mul_apply, diagonal, mul_comm]
theorem slashV_chiral (ε : Vec) (a b : ℂ) : slashV ε * chiral a b = chiral b a * slashV ε := by
  ext i j
  fin_cases i <;> fin_cases j <;> simp [slashV, chiral, gamma, metric, Fin.sum_univ_four, mul_apply, diagonal] <;> ring
theorem gamma2_slash (p : V4 ℝ) : gamma 2 * (slash p)ᵀ = slash (backward (mirror p)) * gamma 2 := by
  rw [Spec.Reaction.slash_backward, ← slashV_four, ← slashV_four, four_mirror, gamma2_slashV, neg_mul]
theorem gamma2_sq : gamma 2 * gamma 2 = -1 := by
  ext i j
  fin_cases i <;> fin_cases j <;> simp [gamma, Fin.sum_univ_four, mul_apply]
theorem bar_conj (w : Spinor) : bar (conjSpinor w) = w ᵥ* gamma 2 := by
  ext i
  fin_cases i <;> simp [bar, conjSpinor, gamma, vecMul, dotProduct, Fin.sum_univ_four, vecHead, vecTail]

/-- a product of Dirac matrices between spinors -/
theorem conj_chain {M N : M4} (h : gamma 2 * Mᵀ = N * gamma 2) (w w' : Spinor) : bar (conjSpinor w) ⬝ᵥ (N *ᵥ conjSpinor w') = -(bar w' ⬝ᵥ (M *ᵥ w)) := by
  rw [bar_conj, conjSpinor, mulVec_mulVec, ← h, ← dotProduct_mulVec, mulVec_mulVec, ← Matrix.mul_assoc, gamma2_sq, neg_mul, one_mul, neg_mulVec, dotProduct_neg, mulVec_transpose, dotProduct_comm, ← dotProduct_mulVec]

/-! ### vertices -/

/-- -1 for vector bosons -/
def Spec.Boson.sign (b : Boson) : ℂ := if b = .higgs then 1 else -1
theorem sign_sq (b : Boson) : b.sign * b.sign = 1 := by unfold Boson.sign; split <;> simp

theorem anti_anti (b : Boson) : b.anti.anti = b := by cases b <;> rfl
theorem after_anti {b : Boson} {f g : Flavour} (h : Spec.after b f = some g) : Spec.after b.anti g = some f := by
  obtain ⟨k, n⟩ := f
  cases b <;> cases k <;> simp [Spec.after, Boson.anti, Flavour.quark] at h ⊢ <;> subst h <;> simp
theorem after_anti_iff {b : Boson} {f g : Flavour} : Spec.after b.anti g = some f ↔ Spec.after b f = some g :=
  ⟨fun h => by simpa [anti_anti] using after_anti h, after_anti⟩

theorem absorb_conj (c : Constants) {b : Boson} {f g : Flavour} (ε : Vec) (h : Spec.after b f = some g) :
    gamma 2 * (absorb c f ε b)ᵀ = b.sign • absorb c g (mirrorV ε) b.anti * gamma 2 := by
  have hs : ∀ a b : ℂ, gamma 2 * (slashV ε * chiral a b)ᵀ = -(slashV (mirrorV ε) * chiral a b * gamma 2) := by
    intro a b
    rw [transpose_mul, ← Matrix.mul_assoc, gamma2_chiral, Matrix.mul_assoc, gamma2_slashV, Matrix.mul_neg, slashV_chiral, Matrix.mul_assoc]
  cases b
  case wPlus | wMinus => simp [absorb, Boson.sign, Boson.anti, transpose_smul, hs, -transpose_mul]
  all_goals
    obtain rfl : f = g := by
      first
      | exact Option.some.inj h
      | (simp only [Spec.after] at h; split at h <;> first | exact Option.some.inj h | cases h)
    simp [absorb, Boson.sign, Boson.anti, transpose_smul, hs, gamma2_slashV, -transpose_mul]

variable (c : Constants)

theorem vertex_conj (f g : Flavour) (w w' : Spinor) (ε : Vec) (x : Boson) :
    vertex c g f (conjSpinor w') (conjSpinor w) (mirrorV ε) x.anti = -x.sign * vertex c f g w w' ε x := by
  unfold vertex
  by_cases h : Spec.after x f = some g
  · rw [if_pos h, if_pos (after_anti h)]
    have := conj_chain (absorb_conj c ε h) w w'
    rw [smul_mulVec, dotProduct_smul, smul_eq_mul] at this
    linear_combination x.sign * this - (bar (conjSpinor w) ⬝ᵥ (absorb c g (mirrorV ε) x.anti *ᵥ conjSpinor w')) * sign_sq x
  · rw [if_neg h, if_neg (fun e => h (after_anti_iff.1 e)), mul_zero]

theorem compton_conj (f g : Flavour) (l l' : V4 ℝ) (w w' : Spinor) (a b : Line) (hl : l' = backward (mirror (plus (plus l a.k) b.k))) :
    compton c g f l' (conjSpinor w') (conjSpinor w) b.conj a.conj = -(a.boson.sign * b.boson.sign) * compton c f g l w w' a b := by
  unfold compton
  cases h : Spec.after a.boson f with
  | none =>
    simp only [mul_zero]
    split
    · rfl
    · rename_i x hx
      rw [if_neg]
      intro e
      rw [after_anti_iff.1 e] at h
      cases h
  | some x =>
    by_cases h' : Spec.after b.boson x = some g
    · have e : Spec.after b.conj.boson g = some x := after_anti h'
      have e' : Spec.after a.conj.boson x = some f := after_anti h
      have q : plus l' b.conj.k = backward (mirror (plus l a.k)) := by
        subst hl
        simp [Line.conj, plus, backward, mirror]
      simp only [e, e', h', if_true]
      rw [q, show msq (backward (mirror (plus l a.k))) = msq (plus l a.k) by simp [msq, backward, mirror]]
      have hM : gamma 2 * (absorb c x b.ε b.boson * (slash (plus l a.k) + (c.mass x : ℂ) • 1) * absorb c f a.ε a.boson)ᵀ =
          ((a.boson.sign * b.boson.sign) • (absorb c x a.conj.ε a.conj.boson * (slash (backward (mirror (plus l a.k))) + (c.mass x : ℂ) • 1) * absorb c g b.conj.ε b.conj.boson)) * gamma 2 := by
        rw [transpose_mul, transpose_mul, ← Matrix.mul_assoc, absorb_conj c _ h, Matrix.mul_assoc, ← Matrix.mul_assoc (gamma 2), transpose_add, Matrix.mul_add, gamma2_slash, transpose_smul, transpose_one, Matrix.mul_smul, Matrix.mul_one,
          show slash (backward (mirror (plus l a.k))) * gamma 2 + (c.mass x : ℂ) • gamma 2 = (slash (backward (mirror (plus l a.k))) + (c.mass x : ℂ) • 1) * gamma 2 by
            rw [Matrix.add_mul, Matrix.smul_mul, Matrix.one_mul],
          Matrix.mul_assoc _ (gamma 2), absorb_conj c _ h']
        simp only [Matrix.smul_mul, Matrix.mul_smul, smul_smul, Matrix.mul_assoc, Line.conj, mul_comm]
      have := conj_chain hM w w'
      rw [smul_mulVec, dotProduct_smul, smul_eq_mul] at this
      have hs : (a.boson.sign * b.boson.sign) * (a.boson.sign * b.boson.sign) = 1 := by linear_combination sign_sq a.boson + a.boson.sign * a.boson.sign * sign_sq b.boson
      rw [mul_div_assoc']
      congr 1
      linear_combination (a.boson.sign * b.boson.sign) * this - (bar (conjSpinor w) ⬝ᵥ ((absorb c x a.conj.ε a.conj.boson * (slash (backward (mirror (plus l a.k))) + (c.mass x : ℂ) • 1) * absorb c g b.conj.ε b.conj.boson) *ᵥ conjSpinor w')) * hs
    · simp only [h', if_false, mul_zero]
      split
      · rfl
      · rename_i y hy
        rw [if_neg]
        intro e
        rw [after_anti_iff.1 e] at h
        cases h
        exact h' (after_anti_iff.1 hy)

/-! ### vertices of bosons -/

theorem gauge3_conj (a b x : Boson) : (gauge3 c a.anti b.anti x.anti : ℂ) = -(a.sign * b.sign) * gauge3 c a b x := by
  cases a <;> cases b <;> cases x <;> simp [gauge3, Boson.anti, Boson.sign]
theorem gauge3_sign (a b x : Boson) : (gauge3 c a b x : ℂ) = a.sign * b.sign * gauge3 c a b x := by
  cases a <;> cases b <;> simp [gauge3, Boson.sign]
theorem higgs2_conj (a b : Boson) : higgs2 c a.anti b.anti = higgs2 c a b := by cases a <;> cases b <;> rfl
theorem higgs2_sign (a b : Boson) : (higgs2 c a b : ℂ) = a.sign * b.sign * higgs2 c a b := by
  cases a <;> cases b <;> simp [higgs2, Boson.sign]
theorem anti_higgs {b : Boson} : b.anti = .higgs ↔ b = .higgs := by cases b <;> simp [Boson.anti]
theorem anti_gluon {b : Boson} : b.anti = .gluon ↔ b = .gluon := by cases b <;> simp [Boson.anti]

theorem toHiggs_conj (a b : Line) : toHiggs c a.conj b.conj = a.boson.sign * b.boson.sign * toHiggs c a b := by
  unfold toHiggs Line.conj
  simp only [anti_higgs, higgs2_conj, contract_mirror]
  by_cases h : a.boson = .higgs ∧ b.boson = .higgs
  · rw [if_pos h]
    simp [Boson.sign, h.1, h.2]
  · rw [if_neg h, ← mul_assoc, ← higgs2_sign]

theorem yangMills_mirror (k l : V4 ℝ) (x y : Vec) : yangMills (mirror k) (mirrorV x) (mirror l) (mirrorV y) = mirrorV (yangMills k x l y) := by
  have h2 : ∀ k l : V4 ℝ, four (mirror k) + 2 * four (mirror l) = mirrorV (four k + 2 * four l) := fun k l => by
    rw [four_mirror, four_mirror]; ext μ; simp [mirrorV]; ring
  have h2' : ∀ k l : V4 ℝ, 2 * four (mirror k) + four (mirror l) = mirrorV (2 * four k + four l) := fun k l => by
    rw [four_mirror, four_mirror]; ext μ; simp [mirrorV]; ring
  ext μ
  unfold yangMills
  rw [h2, h2', contract_mirror, contract_mirror, contract_mirror, four_mirror, four_mirror]
  simp only [mirrorV]
  ring

theorem toVector_conj (a b : Line) (x : Boson) : toVector c a.conj b.conj x.anti = (-(a.boson.sign * b.boson.sign)) • mirrorV (toVector c a b x) := by
  unfold toVector
  simp only [Line.conj, anti_higgs, anti_anti]
  have hh : ∀ b : Boson, higgs2 c b.anti x = higgs2 c b x.anti := fun b => by rw [← higgs2_conj, anti_anti]
  have hv : ∀ b : Boson, (higgs2 c b x.anti : ℂ) = -b.sign * higgs2 c b x.anti := fun b => by
    cases b <;> cases x <;> simp [higgs2, Boson.sign, Boson.anti]
  by_cases h : a.boson = .higgs
  · rw [if_pos h, if_pos h, mirrorV_smul, smul_smul, hh, h, show (Boson.higgs).sign = 1 from if_pos rfl, one_mul, ← hv b.boson]
  · rw [if_neg h, if_neg h]
    by_cases h' : b.boson = .higgs
    · rw [if_pos h', if_pos h', mirrorV_smul, smul_smul, hh, h', show (Boson.higgs).sign = 1 from if_pos rfl, mul_one, ← hv a.boson]
    · rw [if_neg h', if_neg h', mirrorV_smul, smul_smul, yangMills_mirror, ← gauge3_conj, anti_anti]

theorem denominator_mirror (x : Boson) (q : V4 ℝ) : denominator c x.anti (mirror q) = denominator c x q := by
  unfold denominator breitWigner
  rw [msq_mirror]
  cases x <;> rfl
theorem propagate_mirror (x : Boson) (q : V4 ℝ) (J : Vec) : propagate c x.anti (mirror q) (mirrorV J) = mirrorV (propagate c x q J) := by
  unfold propagate
  rw [denominator_mirror, four_mirror, contract_mirror, mirrorV_smul, mirrorV_add, mirrorV_neg]
  have h1 : x.anti.massive = x.massive := by cases x <;> rfl
  have h2 : c.bosonMass x.anti = c.bosonMass x := by cases x <;> rfl
  rw [h1, h2]
  split
  · rw [mirrorV_smul]
  · rw [mirrorV_zero]
theorem propagate_smul (x : Boson) (q : V4 ℝ) (a : ℂ) (J : Vec) : propagate c x q (a • J) = a • propagate c x q J := (Spec.propagate_lin c x q).map_smul a J

theorem sum_carriers (F : Boson → ℂ) : (carriers.map fun x => F x.anti).sum = (carriers.map F).sum := by
  simp [carriers, Boson.anti]
  ring

theorem vertex_smul (f g : Flavour) (w w' : Spinor) (x : Boson) (hx : x ≠ .higgs) (a : ℂ) (ε : Vec) : vertex c f g w w' (a • ε) x = a * vertex c f g w w' ε x := (Spec.vertex_lin c f g w w' hx).map_smul a ε

theorem annihilation_conj (f g : Flavour) (w w' : Spinor) (a b : Line) :
    annihilation c g f (conjSpinor w') (conjSpinor w) a.conj b.conj = -(a.boson.sign * b.boson.sign) * annihilation c f g w w' a b := by
  unfold annihilation
  rw [toHiggs_conj, show plus a.conj.k b.conj.k = mirror (plus a.k b.k) from plus_mirror _ _, ← sum_carriers]
  have hd := denominator_mirror c .higgs (plus a.k b.k)
  have hv := vertex_conj c f g w w' 0 .higgs
  rw [mirrorV_zero] at hv
  simp only [Boson.anti] at hd hv
  rw [hd, hv, mul_add, ← List.sum_map_mul_left]
  congr 1
  · simp [Boson.sign]
  · refine congrArg List.sum (List.map_congr_left fun x hx => ?_)
    have hx : x ≠ .higgs := by rintro rfl; simp [carriers] at hx
    rw [toVector_conj, propagate_smul, propagate_mirror, vertex_smul c _ _ _ _ _ (by simpa [anti_higgs] using hx), vertex_conj]
    simp [Boson.sign, hx]

theorem annihilation_gluon (f g : Flavour) (w w' : Spinor) {a b : Line} (h : a.boson = .gluon ∨ b.boson = .gluon) : annihilation c f g w w' a b = 0 := by
  have h2 : ∀ x, higgs2 c .gluon x = 0 ∧ higgs2 c x .gluon = 0 := fun x => by cases x <;> exact ⟨rfl, rfl⟩
  have h3 : ∀ x y, gauge3 c .gluon x y = 0 ∧ gauge3 c x .gluon y = 0 := fun x y => by cases x <;> cases y <;> exact ⟨rfl, rfl⟩
  have e : toHiggs c a b = 0 := by
    unfold toHiggs
    rcases h with h | h <;> simp [h, h2]
  have e' : ∀ x ∈ carriers, toVector c a b x = 0 := by
    intro x hx
    have h4 : higgs2 c .higgs x.anti = 0 := by cases x <;> rfl
    unfold toVector
    rcases h with h | h <;> simp [h, h2, h3, h4]
  unfold annihilation
  rw [e, zero_mul, zero_mul, zero_add]
  refine List.sum_eq_zero fun y hy => ?_
  obtain ⟨x, hx, rfl⟩ := List.mem_map.1 hy
  have hx' : x ≠ .higgs := by rintro rfl; simp [carriers] at hx
  rw [e' x hx, (Spec.propagate_lin c x _).map_zero, (Spec.vertex_lin c f g w w' hx').map_zero]

theorem gluonFusion_conj (f g : Flavour) (w w' : Spinor) (a b : Line) :
    gluonFusion c g f (conjSpinor w') (conjSpinor w) a.conj b.conj = a.boson.sign * b.boson.sign * gluonFusion c f g w w' a b := by
  unfold gluonFusion
  simp only [Line.conj, anti_gluon]
  split
  · rename_i h
    have := vertex_conj c f g w w' (propagate c .gluon (plus a.k b.k) ((c.gs : ℂ) • yangMills a.k a.ε b.k b.ε)) .gluon
    rw [← propagate_mirror, mirrorV_smul, ← yangMills_mirror, ← plus_mirror] at this
    simp only [Boson.anti] at this
    rw [this]
    simp [Boson.sign, h.1, h.2]
  · rw [mul_zero]

theorem mediated_conj (a b d e : Line) : mediated c a.conj b.conj d.conj e.conj = a.boson.sign * b.boson.sign * d.boson.sign * e.boson.sign * mediated c a b d e := by
  unfold mediated
  rw [toHiggs_conj, toHiggs_conj, show plus a.conj.k b.conj.k = mirror (plus a.k b.k) from plus_mirror _ _, ← sum_carriers]
  have hd := denominator_mirror c .higgs (plus a.k b.k)
  simp only [Boson.anti] at hd
  rw [hd, mul_add, ← List.sum_map_mul_left]
  congr 1
  · ring
  · refine congrArg List.sum (List.map_congr_left fun x hx => ?_)
    rw [toVector_conj, toVector_conj, propagate_smul, propagate_mirror]
    have : ∀ (r s : ℂ) (x y : Vec), contract (r • x) (s • y) = r * s * contract x y := fun r s x y => by
      simp only [contract, Finset.mul_sum, Pi.smul_apply, smul_eq_mul]
      exact Finset.sum_congr rfl fun _ _ => by ring
    rw [this, contract_mirror]
    ring

theorem seagull_conj (a b d e : Line) : seagull c a.conj b.conj d.conj e.conj = a.boson.sign * b.boson.sign * d.boson.sign * e.boson.sign * seagull c a b d e := by
  unfold seagull
  simp only [Line.conj, anti_higgs, higgs2_conj, contract_mirror]
  split
  · rename_i h
    push_cast
    rw [h.1, h.2, show (Boson.higgs).sign = 1 from if_pos rfl]
    linear_combination (c.invVev : ℂ) * contract d.ε e.ε * higgs2_sign c d.boson e.boson
  · rw [mul_zero]

theorem gauge4_conj (a b d e : Line) : gauge4 c a.conj b.conj d.conj e.conj = a.boson.sign * b.boson.sign * d.boson.sign * e.boson.sign * gauge4 c a b d e := by
  unfold gauge4
  have h : ∀ F : Boson → ℝ, (((carriers.map F).sum : ℝ) : ℂ) = (carriers.map fun x => (F x : ℂ)).sum := fun F => by simp [carriers]
  simp only [Line.conj, contract_mirror]
  rw [h, h, ← sum_carriers, ← mul_assoc, ← List.sum_map_mul_left]
  congr 2
  refine List.map_congr_left fun x _ => ?_
  push_cast
  rw [gauge3_conj, gauge3_conj]
  ring

theorem contact_conj (a b d e : Line) : contact c a.conj b.conj d.conj e.conj = a.boson.sign * b.boson.sign * d.boson.sign * e.boson.sign * contact c a b d e := by
  unfold contact
  simp only [seagull_conj, gauge4_conj]
  simp only [Line.conj, anti_higgs]
  split
  · rename_i h
    simp [Boson.sign, h.1, h.2.1, h.2.2.1, h.2.2.2]
  · ring

theorem fourBosons_conj (a b d e : Line) : fourBosons c a.conj b.conj d.conj e.conj = a.boson.sign * b.boson.sign * d.boson.sign * e.boson.sign * fourBosons c a b d e := by
  unfold fourBosons
  simp only [contact_conj, mediated_conj]
  ring

theorem gluonExchange_conj (a b d e : Line) : gluonExchange c a.conj b.conj d.conj e.conj = gluonExchange c a b d e := by
  unfold gluonExchange
  have := propagate_mirror c .gluon (plus a.k b.k) (yangMills a.k a.ε b.k b.ε)
  rw [← yangMills_mirror, ← plus_mirror] at this
  simp only [Boson.anti] at this
  simp only [Line.conj, this]
  simp only [contract_mirror, yangMills_mirror]

theorem fourGluons_conj (g₀ g₁ g₂ g₃ : Fin 8) (a b d e : Line) :
    fourGluons c g₀ g₁ g₂ g₃ a.conj b.conj d.conj e.conj = a.boson.sign * b.boson.sign * d.boson.sign * e.boson.sign * fourGluons c g₀ g₁ g₂ g₃ a b d e := by
  unfold fourGluons
  simp only [gluonExchange_conj]
  simp only [Line.conj, anti_gluon]
  split
  · rename_i h
    simp [Boson.sign, h.1, h.2.1, h.2.2.1, h.2.2.2]
  · rw [mul_zero]

/-! ### reactions -/

namespace Spec.Reaction
variable (S : Reaction)

theorem leg_conj (n : Fin 4) : S.conj.leg n = (S.leg n).anti := rfl
theorem conj_conj : S.conj.conj = S := by
  unfold conj
  congr 1
  ext n
  cases h : S.leg n <;> simp [Particle.anti, h, anti_anti]
theorem isEnd_conj (n : Fin 4) : S.conj.isEnd n = S.isStart n := by
  unfold isEnd isStart
  simp only [leg_conj]
  cases S.leg n with
  | fermion f a => cases arrives n <;> cases a <;> rfl
  | boson b => rfl
theorem isStart_conj (n : Fin 4) : S.conj.isStart n = S.isEnd n := by
  unfold isEnd isStart
  simp only [leg_conj]
  cases S.leg n with
  | fermion f a => cases arrives n <;> cases a <;> rfl
  | boson b => rfl
theorem isBoson_conj (n : Fin 4) : S.conj.isBoson n = S.isBoson n := by
  unfold isBoson
  simp only [leg_conj]
  cases S.leg n <;> rfl
theorem ends_conj : S.conj.ends = S.starts := List.filter_congr fun n _ => S.isEnd_conj n
theorem starts_conj : S.conj.starts = S.ends := List.filter_congr fun n _ => S.isStart_conj n
theorem bosons_conj : S.conj.bosons = S.bosons := List.filter_congr fun n _ => S.isBoson_conj n
theorem flavour_conj (n : Fin 4) : S.conj.flavour n = S.flavour n := by
  unfold flavour
  simp only [leg_conj]
  cases S.leg n <;> rfl
theorem boson_conj (n : Fin 4) (h : S.isBoson n) : S.conj.boson n = (S.boson n).anti := by
  unfold isBoson at h
  unfold boson
  simp only [leg_conj]
  cases hl : S.leg n <;> simp [hl] at h ⊢ <;> rfl
theorem mass_conj (n : Fin 4) : S.conj.mass c n = S.mass c n := by
  unfold mass
  simp only [leg_conj]
  cases S.leg n with
  | fermion f a => rfl
  | boson b => cases b <;> rfl
theorem gluon_conj (n : Fin 4) : S.conj.boson n = .gluon ↔ S.boson n = .gluon := by
  unfold boson
  simp only [leg_conj]
  cases S.leg n with
  | fermion f a => rfl
  | boson b => exact anti_gluon
theorem spins_conj : S.conj.spins = S.spins := by
  funext n
  unfold spins
  simp only [leg_conj]
  cases S.leg n with
  | fermion f a => rfl
  | boson b => cases b <;> rfl
theorem colours_conj : S.conj.colours = S.colours := by
  funext n
  unfold colours
  simp only [leg_conj]
  cases S.leg n <;> rfl
theorem gluons_conj : S.conj.gluons = S.gluons := by
  funext n
  simp only [gluons, gluon_conj]
theorem states_conj (n : Fin 4) : S.conj.states n = S.states n := by
  unfold states
  rw [gluons_conj]
  simp only [leg_conj]
  cases S.leg n with
  | fermion f a => rfl
  | boson b => cases b <;> rfl
theorem anti_inj {x y : Particle} : x.anti = y.anti ↔ x = y := by
  have : ∀ x : Particle, x.anti.anti = x := fun x => by cases x <;> simp [Particle.anti, anti_anti]
  exact ⟨fun h => by rw [← this x, h, this], fun h => h ▸ rfl⟩
theorem symmetry_conj : S.conj.symmetry = S.symmetry := by
  unfold symmetry
  simp only [leg_conj]
  simp only [anti_inj]

variable (p : Nat → V4 ℝ) (γ : Fin 4 → Fin 8)

theorem antifermion_conj (n : Fin 4) (h : S.isBoson n = false) : S.conj.antifermion n = !S.antifermion n := by
  unfold isBoson at h
  unfold antifermion
  simp only [leg_conj]
  cases hl : S.leg n with
  | fermion f a => rfl
  | boson b => simp [hl] at h
theorem along_conj (n : Fin 4) (h : S.isBoson n = false) : S.conj.along (fun i => mirror (p i)) n = backward (mirror (S.along p n)) := by
  unfold along
  rw [S.antifermion_conj n h]
  cases S.antifermion n <;> simp [backward, mirror]
theorem line_conj (ε : Fin 4 → Vec) (n : Fin 4) (h : S.isBoson n) : S.conj.line (fun i => mirror (p i)) (fun i => mirrorV (ε i)) n = (S.line p ε n).conj := by
  unfold line
  rw [S.boson_conj n h]
  split
  · rfl
  · simp only [Line.conj, backward_mirror, mirrorV_star]

/-- the sign of the transposed colour matrix -/
def colourSign (n : Fin 4) : ℂ := if S.boson n = .gluon then (![1, -1, 1, 1, -1, 1, -1, 1] : Fin 8 → ℂ) (γ n) else 1
theorem colourSign_norm (n : Fin 4) : ‖S.colourSign γ n‖ = 1 := by
  unfold colourSign
  split
  · generalize γ n = g
    fin_cases g <;> simp
  · simp
theorem colour_conj (n : Fin 4) : S.conj.colour γ n = S.colour γ n := by simp only [colour, gluon_conj]
theorem colour_transpose (n : Fin 4) : (S.colour γ n)ᵀ = S.colourSign γ n • S.colour γ n := by
  unfold colour colourSign
  split
  · generalize γ n = g
    rw [transpose_smul, smul_comm]
    congr 1
    ext i j
    fin_cases g <;> fin_cases i <;> fin_cases j <;> simp [gellMann]
  · simp

/-- momentum of a particle as coming in -/
def inward (n : Fin 4) : V4 ℝ := if arrives n then p n else backward (p n)
theorem line_inward (ε : Fin 4 → Vec) (n : Fin 4) : (S.line p ε n).k = inward p n := by
  unfold line inward; split <;> rfl
theorem along_start {n : Fin 4} (h : S.isStart n = true) : S.along p n = inward p n ∧ S.isBoson n = false := by
  unfold isStart at h
  unfold along inward antifermion isBoson
  cases hl : S.leg n with
  | fermion f a => simp only [hl] at h; cases a <;> simp_all
  | boson b => simp [hl] at h
theorem along_end {n : Fin 4} (h : S.isEnd n = true) : S.along p n = backward (inward p n) ∧ S.isBoson n = false := by
  unfold isEnd at h
  unfold along inward antifermion isBoson
  cases hl : S.leg n with
  | fermion f a => simp only [hl] at h; cases a <;> simp_all [backward]
  | boson b => simp [hl] at h
theorem sum_legs (f : Fin 4 → ℝ) : (S.ends.map f).sum + (S.starts.map f).sum + (S.bosons.map f).sum = f 0 + f 1 + f 2 + f 3 := by
  have h : ∀ l : List (Fin 4), ((l.filter S.isEnd).map f).sum + ((l.filter S.isStart).map f).sum + ((l.filter S.isBoson).map f).sum = (l.map f).sum := by
    intro l
    induction l with
    | nil => simp
    | cons n l ih =>
      have h3 : (S.isEnd n = true ∧ S.isStart n = false ∧ S.isBoson n = false) ∨ (S.isEnd n = false ∧ S.isStart n = true ∧ S.isBoson n = false) ∨ (S.isEnd n = false ∧ S.isStart n = false ∧ S.isBoson n = true) := by
        unfold isEnd isStart isBoson
        cases S.leg n with
        | fermion f a => cases arrives n <;> cases a <;> simp
        | boson b => simp
      rcases h3 with ⟨h1, h2, h3⟩ | ⟨h1, h2, h3⟩ | ⟨h1, h2, h3⟩ <;> simp only [List.filter_cons, h1, h2, h3, if_true, Bool.false_eq_true, if_false, List.map_cons, List.sum_cons] <;> linarith
  have := h [0, 1, 2, 3]
  simp only [List.map_cons, List.sum_cons, List.map_nil, List.sum_nil] at this
  unfold ends starts bosons
  linarith

/-- momentum is conserved along a fermion line -/
theorem along_inward {p : Nat → V4 ℝ} (hb : Balanced p) {i j a b : Fin 4} (he : S.ends = [i]) (hs : S.starts = [j]) (hB : S.bosons = [a, b]) (ε : Fin 4 → Vec) :
    plus (plus (S.along p j) (S.line p ε a).k) (S.line p ε b).k = S.along p i := by
  have hi := (S.along_end p (List.mem_filter.1 (show i ∈ S.ends by rw [he]; simp)).2).1
  have hj := (S.along_start p (List.mem_filter.1 (show j ∈ S.starts by rw [hs]; simp)).2).1
  have h := fun g : V4 ℝ → ℝ => S.sum_legs fun n => g (inward p n)
  simp only [he, hs, hB, List.map_cons, List.sum_cons, List.map_nil, List.sum_nil] at h
  rw [hi, hj, line_inward, line_inward]
  have e : inward p 0 = p 0 ∧ inward p 1 = p 1 ∧ inward p 2 = backward (p 2) ∧ inward p 3 = backward (p 3) := ⟨rfl, rfl, rfl, rfl⟩
  rw [e.1, e.2.1, e.2.2.1, e.2.2.2] at h
  have ht := h V4.t
  have hx := h V4.x
  have hy := h V4.y
  have hz := h V4.z
  simp only [backward] at ht hx hy hz
  have := hb.t
  have := hb.x
  have := hb.y
  have := hb.z
  simp only [plus, backward, V4.mk.injEq]
  refine ⟨?_, ?_, ?_, ?_⟩ <;> linarith

theorem amplitude_conj {p : Nat → V4 ℝ} (hb : Balanced p) (κ : Fin 4 → Fin 3) (w : Fin 4 → Spinor) (ε : Fin 4 → Vec) :
    ‖S.conj.amplitude c (fun i => mirror (p i)) κ γ (fun n => conjSpinor (w n)) (fun n => mirrorV (ε n))‖ = ‖S.amplitude c p κ γ w ε‖ := by
  unfold amplitude
  rw [ends_conj, starts_conj, bosons_conj]
  split
  · rename_i j i a b hs he hB
    rw [he, hs, hB]
    have hm := fun n hn => (List.mem_filter.1 (show n ∈ S.bosons by rw [hB]; exact hn)).2
    have hl := S.along_inward hb he hs hB ε
    have hl' : plus (plus (S.along p j) (S.line p ε b).k) (S.line p ε a).k = S.along p i := by
      rw [← hl]; simp only [plus]; congr 1 <;> ring
    have hi := (S.along_end p (List.mem_filter.1 (show i ∈ S.ends by rw [he]; simp)).2).2
    have hn : ∀ b : Boson, ‖b.sign‖ = 1 := fun b => by unfold Boson.sign; split <;> simp
    have ht : ∀ x y : Fin 4, ∀ k l : Fin 3, (S.colour γ x * S.colour γ y) k l = S.colourSign γ x * S.colourSign γ y * (S.colour γ y * S.colour γ x) l k := by
      intro x y k l
      rw [← transpose_apply (S.colour γ x * S.colour γ y), transpose_mul, colour_transpose, colour_transpose, Matrix.smul_mul, Matrix.mul_smul, smul_smul, Matrix.smul_apply, smul_eq_mul, mul_comm (S.colourSign γ y)]
    have hg : ∀ n, S.boson n ≠ .gluon → S.colourSign γ n = 1 := fun n h => if_neg h
    have hg' : ∀ n, S.boson n = .gluon → (S.line p ε n).boson = .gluon := fun n h => by unfold line; split <;> simp [h, Boson.anti]
    have hd : delta (κ j) (κ i) * annihilation c (S.flavour j) (S.flavour i) (w j) (w i) (S.line p ε a) (S.line p ε b) =
        S.colourSign γ a * S.colourSign γ b * delta (κ i) (κ j) * annihilation c (S.flavour j) (S.flavour i) (w j) (w i) (S.line p ε a) (S.line p ε b) := by
      by_cases ha : S.boson a = .gluon
      · rw [annihilation_gluon c _ _ _ _ (.inl (hg' a ha)), mul_zero, mul_zero]
      · by_cases hb : S.boson b = .gluon
        · rw [annihilation_gluon c _ _ _ _ (.inr (hg' b hb)), mul_zero, mul_zero]
        · rw [hg a ha, hg b hb, one_mul, one_mul, show delta (κ j) (κ i) = delta (κ i) (κ j) by unfold delta; simp only [eq_comm]]
    suffices h : S.conj.oneLine c (fun i => mirror (p i)) κ γ (fun n => conjSpinor (w n)) (fun n => mirrorV (ε n)) j i a b =
        -((S.line p ε a).boson.sign * (S.line p ε b).boson.sign * (S.colourSign γ a * S.colourSign γ b)) * S.oneLine c p κ γ w ε i j a b by
      rw [h]
      simp [hn, S.colourSign_norm]
    unfold oneLine
    simp only [flavour_conj, colour_conj]
    rw [S.line_conj p ε a (hm _ (by simp)), S.line_conj p ε b (hm _ (by simp)), S.along_conj p i hi, compton_conj c (S.flavour j) (S.flavour i) (S.along p j) _ _ _ (S.line p ε a) (S.line p ε b) (by rw [hl]),
      compton_conj c (S.flavour j) (S.flavour i) (S.along p j) _ _ _ (S.line p ε b) (S.line p ε a) (by rw [hl']), annihilation_conj, gluonFusion_conj, Matrix.sub_apply, Matrix.sub_apply, ht b a (κ j), ht a b (κ j)]
    linear_combination (-((S.line p ε a).boson.sign * (S.line p ε b).boson.sign)) * hd
  · rename_i n₀ n₁ n₂ n₃ hs he hB
    have h := fun n hn => (List.mem_filter.1 (show n ∈ S.bosons by rw [hB]; exact hn)).2
    rw [he, hs, hB, S.line_conj p ε n₀ (h _ (by simp)), S.line_conj p ε n₁ (h _ (by simp)), S.line_conj p ε n₂ (h _ (by simp)), S.line_conj p ε n₃ (h _ (by simp)), fourBosons_conj, fourGluons_conj, ← mul_add]
    have hn : ∀ b : Boson, ‖b.sign‖ = 1 := fun b => by unfold Boson.sign; split <;> simp
    simp [hn]
  · rename_i h1 h2
    split
    · rename_i i j a b he hs hB
      exact absurd hB (h1 _ _ _ _ hs he)
    · rename_i n₀ n₁ n₂ n₃ he hs hB
      exact absurd hB (h2 _ _ _ _ hs he)
    · rfl

theorem polarised_mirror {k : V4 ℝ} {b : Boson} {E : Fin 3 → Vec} (h : Polarised c k b E) : Polarised c (mirror k) b.anti (fun t => mirrorV (E t)) := by
  have hd : ∀ μ ν : Fin 4, (if μ = ν then metric μ else 0) = metric μ * metric ν * (if μ = ν then metric μ else 0) := by
    intro μ ν
    split
    · rename_i e; subst e; rw [metric_sq, one_mul]
    · rw [mul_zero]
  have hE : ∀ (t : Finset (Fin 3)) (μ ν : Fin 4), ∑ s ∈ t, mirrorV (E s) μ * star (mirrorV (E s) ν) = metric μ * metric ν * ∑ s ∈ t, E s μ * star (E s ν) := by
    intro t μ ν
    rw [Finset.mul_sum]
    refine Finset.sum_congr rfl fun s _ => ?_
    simp only [mirrorV, star_mul', star_metric]
    ring
  cases b
  case higgs => exact trivial
  case photon | gluon =>
    obtain ⟨n, h1, h2, h3⟩ := h
    refine ⟨mirror n, by rw [msq_mirror, h1], by simpa [dot, mirror] using h2, fun μ ν => ?_⟩
    rw [show dot (mirror n) (mirror k) = dot n k by simp [dot, mirror], four_mirror, four_mirror]
    refine (hE _ μ ν).trans ?_
    refine (congrArg (metric μ * metric ν * ·) (h3 μ ν)).trans ?_
    simp only [mirrorV]
    linear_combination hd μ ν
  all_goals
    intro μ ν
    rw [four_mirror]
    refine (hE _ μ ν).trans ?_
    refine (congrArg (metric μ * metric ν * ·) (h μ ν)).trans ?_
    simp only [mirrorV, Boson.anti, Constants.bosonMass]
    linear_combination hd μ ν

theorem complete_conj {p : Nat → V4 ℝ} {n : Fin 4} {u : Fin 3 → Spinor} {ε : Fin 3 → Vec} (h : S.Complete c p n u ε) :
    S.conj.Complete c (fun i => mirror (p i)) n (fun s => conjSpinor (u s)) (fun s => mirrorV (ε s)) := by
  unfold Complete at h ⊢
  simp only [leg_conj]
  cases hl : S.leg n with
  | boson b =>
    rw [hl] at h
    exact polarised_mirror c h
  | fermion f a =>
    simp only [hl] at h
    simp only [Particle.anti]
    have e : ∀ u : Spinor, vecMulVec (conjSpinor u) (bar (conjSpinor u)) = gamma 2 * (vecMulVec u (bar u))ᵀ * gamma 2 := by
      intro u
      rw [bar_conj, conjSpinor, transpose_vecMulVec, mul_vecMulVec, vecMulVec_mul]
    simp only [e]
    rw [← Finset.sum_mul, ← Finset.mul_sum, ← transpose_sum, h, transpose_add, Matrix.mul_add, gamma2_slash, transpose_smul, transpose_one, Matrix.add_mul, Matrix.mul_assoc, gamma2_sq, Matrix.mul_smul, Matrix.mul_one, Matrix.smul_mul, gamma2_sq, slash_backward]
    cases a <;> simp

/-- The squared amplitude of the reaction of the antiparticles at reflected momenta. -/
theorem squared_conj {p : Nat → V4 ℝ} (hb : Balanced p) (u : Fin 4 → Fin 3 → Spinor) (ε : Fin 4 → Fin 3 → Vec) :
    S.conj.squared c (fun i => mirror (p i)) (fun n s => conjSpinor (u n s)) (fun n s => mirrorV (ε n s)) = S.squared c p u ε := by
  unfold squared
  rw [spins_conj, colours_conj, gluons_conj, states_conj, states_conj, symmetry_conj]
  congr 1
  exact Finset.sum_congr rfl fun s _ => Finset.sum_congr rfl fun κ _ => Finset.sum_congr rfl fun γ _ => by rw [S.amplitude_conj c γ hb]

/-! ### poles -/

theorem meets_conj (a b x : Boson) : meets a.anti b.anti x.anti = meets a b x := by cases a <;> cases b <;> cases x <;> rfl
theorem line_zero_conj (n : Fin 4) (h : S.isBoson n) : S.conj.line (fun i => mirror (p i)) (fun _ => 0) n = (S.line p (fun _ => 0) n).conj := by
  rw [← S.line_conj p _ n h]; simp only [mirrorV_zero]

theorem regular_conj {p : Nat → V4 ℝ} (hb : Balanced p) (h : S.Regular c p) : S.conj.Regular c (fun i => mirror (p i)) := by
  unfold Regular at h ⊢
  rw [ends_conj, starts_conj, bosons_conj]
  split
  · rename_i j i a b hs he hB
    rw [he, hs, hB] at h
    obtain ⟨h1, h2, h3⟩ := h
    have ma : S.isBoson a := (List.mem_filter.1 (show a ∈ S.bosons by rw [hB]; simp)).2
    have mb : S.isBoson b := (List.mem_filter.1 (show b ∈ S.bosons by rw [hB]; simp)).2
    have hi := (S.along_end p (List.mem_filter.1 (show i ∈ S.ends by rw [he]; simp)).2).2
    have hl := S.along_inward hb he hs hB fun _ => 0
    have key : ∀ x y : Fin 4, S.isBoson x → S.isBoson y → plus (plus (S.along p j) (S.line p (fun _ => 0) x).k) (S.line p (fun _ => 0) y).k = S.along p i → S.Fermionic c p i j x y →
        S.conj.Fermionic c (fun i => mirror (p i)) j i y x := by
      intro x y mx my hk hf z hz hz'
      rw [S.line_zero_conj p y my] at hz ⊢
      rw [S.line_zero_conj p x mx] at hz'
      rw [flavour_conj] at hz hz'
      rw [S.along_conj p i hi, ← hk]
      have := hf z (after_anti_iff.1 hz') (after_anti_iff.1 hz)
      have e : plus (backward (mirror (plus (plus (S.along p j) (S.line p (fun _ => 0) x).k) (S.line p (fun _ => 0) y).k))) (S.line p (fun _ => 0) y).conj.k =
          backward (mirror (plus (S.along p j) (S.line p (fun _ => 0) x).k)) := by
        simp [Line.conj, plus, backward, mirror]
      rw [e, show ∀ q, msq (backward (mirror q)) = msq q from fun q => by simp [msq, backward, mirror]]
      exact this
    refine ⟨key b a mb ma ?_ h2, key a b ma mb hl h1, ?_⟩
    · rw [← hl]; simp only [plus]; congr 1 <;> ring
    · intro x hx hx'
      rw [S.line_zero_conj p a ma, S.line_zero_conj p b mb] at hx ⊢
      rw [flavour_conj, flavour_conj] at hx'
      have := h3 x.anti (by rw [← meets_conj, anti_anti]; simpa [Line.conj] using hx) (after_anti hx')
      rw [← denominator_mirror, anti_anti] at this
      simpa only [Line.conj, plus_mirror] using this
  · rename_i n₀ n₁ n₂ n₃ hs he hB
    rw [he, hs, hB] at h
    have hm := fun n hn => (List.mem_filter.1 (show n ∈ S.bosons by rw [hB]; exact hn)).2
    have key : ∀ x ∈ [n₀, n₁, n₂, n₃], ∀ y ∈ [n₀, n₁, n₂, n₃], ∀ z ∈ [n₀, n₁, n₂, n₃], ∀ t ∈ [n₀, n₁, n₂, n₃], S.Mediating c p x y z t → S.conj.Mediating c (fun i => mirror (p i)) x y z t := by
      intro x mx y my z mz t mt hf b hb1 hb2
      rw [S.line_zero_conj p x (hm x mx), S.line_zero_conj p y (hm y my)] at hb1 ⊢
      rw [S.line_zero_conj p z (hm z mz), S.line_zero_conj p t (hm t mt)] at hb2
      have := hf b.anti (by rw [← meets_conj, anti_anti]; simpa [Line.conj] using hb1) (by rw [← meets_conj, anti_anti]; simpa [Line.conj] using hb2)
      rw [← denominator_mirror, anti_anti] at this
      simpa only [Line.conj, plus_mirror] using this
    exact ⟨key _ (by simp) _ (by simp) _ (by simp) _ (by simp) h.1, key _ (by simp) _ (by simp) _ (by simp) _ (by simp) h.2.1, key _ (by simp) _ (by simp) _ (by simp) _ (by simp) h.2.2⟩
  · trivial

end Spec.Reaction
end Spinas
