import Verif.Spec.Bosons
import Verif.Exact.Fermions
import Mathlib.LinearAlgebra.Pi

/-! Amplitudes with bosons are linear in the polarisation vectors and in the spinors, so that squared amplitudes do not depend on their choice. -/

namespace Spinas
open Spec Matrix

/-! ### linear functions of a polarisation vector -/

namespace Lin
variable {V : Type} [AddCommGroup V] [Module ℂ V] {ψ φ : Vec → V} {α β : Vec → ℂ}
theorem zero : IsLinearMap ℂ (fun _ : Vec => (0 : V)) := ⟨fun _ _ => by simp, fun _ _ => by simp⟩
theorem id : IsLinearMap ℂ (fun ε : Vec => ε) := ⟨fun _ _ => rfl, fun _ _ => rfl⟩
theorem add (h : IsLinearMap ℂ ψ) (h' : IsLinearMap ℂ φ) : IsLinearMap ℂ (fun ε => ψ ε + φ ε) :=
  ⟨fun _ _ => by simp only [h.map_add, h'.map_add]; abel, fun _ _ => by simp only [h.map_smul, h'.map_smul, smul_add]⟩
theorem neg (h : IsLinearMap ℂ ψ) : IsLinearMap ℂ (fun ε => -ψ ε) :=
  ⟨fun _ _ => by simp only [h.map_add, neg_add], fun _ _ => by simp only [h.map_smul, smul_neg]⟩
theorem sub (h : IsLinearMap ℂ ψ) (h' : IsLinearMap ℂ φ) : IsLinearMap ℂ (fun ε => ψ ε - φ ε) := by
  simpa only [sub_eq_add_neg] using add h (neg h')
theorem smul (a : ℂ) (h : IsLinearMap ℂ ψ) : IsLinearMap ℂ (fun ε => a • ψ ε) :=
  ⟨fun _ _ => by simp only [h.map_add, smul_add], fun b _ => by simp only [h.map_smul, smul_comm a b]⟩
theorem smul_const (h : IsLinearMap ℂ α) (v : V) : IsLinearMap ℂ (fun ε => α ε • v) :=
  ⟨fun _ _ => by simp only [h.map_add, add_smul], fun b _ => by simp only [h.map_smul, smul_assoc]⟩
theorem mul_left (a : ℂ) (h : IsLinearMap ℂ α) : IsLinearMap ℂ (fun ε => a * α ε) := smul a h
theorem mul_right (a : ℂ) (h : IsLinearMap ℂ α) : IsLinearMap ℂ (fun ε => α ε * a) := smul_const h a
theorem div (h : IsLinearMap ℂ α) (a : ℂ) : IsLinearMap ℂ (fun ε => α ε / a) := by simpa only [div_eq_mul_inv] using mul_right a⁻¹ h
theorem ite {P : Prop} [Decidable P] (h : IsLinearMap ℂ ψ) (h' : IsLinearMap ℂ φ) : IsLinearMap ℂ (fun ε => if P then ψ ε else φ ε) := by
  by_cases hP : P <;> simpa [hP]
theorem comp {ψ : Vec → V} {η : Vec → Vec} (h : IsLinearMap ℂ ψ) (h' : IsLinearMap ℂ η) : IsLinearMap ℂ (fun ε => ψ (η ε)) :=
  ⟨fun _ _ => by simp only [h'.map_add, h.map_add], fun _ _ => by simp only [h'.map_smul, h.map_smul]⟩
theorem pi {η : Vec → Vec} (h : ∀ μ, IsLinearMap ℂ (fun ε => η ε μ)) : IsLinearMap ℂ η :=
  ⟨fun _ _ => funext fun μ => (h μ).map_add _ _, fun _ _ => funext fun μ => (h μ).map_smul _ _⟩
theorem list {ι : Type} (xs : List ι) {ψ : ι → Vec → V} (h : ∀ x, IsLinearMap ℂ (ψ x)) : IsLinearMap ℂ (fun ε => (xs.map fun x => ψ x ε).sum) := by
  induction xs with
  | nil => simpa using zero
  | cons x xs ih => simpa using add (h x) ih

theorem along (h : IsLinearMap ℂ α) : Along _root_.id α := by
  refine ⟨fun μ => α (Pi.single μ 1), fun ε => ?_⟩
  have := (IsLinearMap.mk' α h).pi_apply_eq_sum_univ ε
  simp only [IsLinearMap.mk'_apply, smul_eq_mul] at this
  rw [this]
  exact Finset.sum_congr rfl fun μ _ => by
    rw [mul_comm]
    congr 2
    ext ν
    simp [Pi.single_apply, eq_comm]

theorem contract_left (w : Vec) : IsLinearMap ℂ (fun ε : Vec => contract ε w) :=
  ⟨fun _ _ => by simp [contract, Fin.sum_univ_four]; ring, fun _ _ => by simp [contract, Fin.sum_univ_four]; ring⟩
theorem contract_right (w : Vec) : IsLinearMap ℂ (fun ε : Vec => contract w ε) :=
  ⟨fun _ _ => by simp [contract, Fin.sum_univ_four]; ring, fun _ _ => by simp [contract, Fin.sum_univ_four]; ring⟩
theorem slashV : IsLinearMap ℂ Spec.slashV :=
  ⟨fun _ _ => by simp [Spec.slashV, Fin.sum_univ_four, mul_add, add_smul]; abel, fun _ _ => by simp [Spec.slashV, Fin.sum_univ_four, smul_smul, mul_left_comm]⟩

theorem sandwich {M : Vec → M4} (h : IsLinearMap ℂ M) (r w : Spinor) (P Q : M4) : IsLinearMap ℂ (fun ε => r ⬝ᵥ ((P * M ε * Q) *ᵥ w)) :=
  ⟨fun _ _ => by simp only [h.map_add, Matrix.mul_add, Matrix.add_mul, add_mulVec, dotProduct_add],
   fun _ _ => by simp only [h.map_smul, Matrix.mul_smul, Matrix.smul_mul, smul_mulVec, dotProduct_smul]⟩

variable (c : Constants)

theorem absorb (f : Flavour) {b : Boson} (hb : b ≠ .higgs) : IsLinearMap ℂ (fun ε => Spec.absorb c f ε b) := by
  have m : ∀ Q : M4, IsLinearMap ℂ (fun ε => Spec.slashV ε * Q) := fun Q =>
    ⟨fun _ _ => by simp only [slashV.map_add, Matrix.add_mul], fun _ _ => by simp only [slashV.map_smul, Matrix.smul_mul]⟩
  cases b
  · exact absurd rfl hb
  · exact smul _ slashV
  · exact smul _ (m _)
  · exact smul _ (m _)
  · exact smul _ (m _)
  · exact smul _ slashV

end Lin

namespace Spec

/-- the same boson with another polarisation vector -/
def Line.put (a : Line) (ε : Vec) : Line := ⟨a.boson, a.k, ε⟩

theorem absorb_higgs (c : Constants) (f : Flavour) (ε ε' : Vec) : absorb c f ε .higgs = absorb c f ε' .higgs := rfl
theorem higgs2_higgs_left (c : Constants) (b : Boson) : higgs2 c .higgs b = 0 := by cases b <;> rfl
theorem higgs2_higgs_right (c : Constants) (b : Boson) : higgs2 c b .higgs = 0 := by cases b <;> rfl
theorem gauge3_higgs (c : Constants) (a b : Boson) : gauge3 c .higgs a b = 0 ∧ gauge3 c a .higgs b = 0 ∧ gauge3 c a b .higgs = 0 := by
  cases a <;> cases b <;> exact ⟨rfl, rfl, rfl⟩

section
variable (c : Constants) (a b d e : Line)

theorem yangMills_lin₁ (k₁ k₂ : V4 ℝ) (ε₂ : Vec) : IsLinearMap ℂ (fun ε => yangMills k₁ ε k₂ ε₂) := Lin.pi fun μ => by
  unfold yangMills
  exact Lin.sub (Lin.add (Lin.mul_right _ (Lin.contract_left _)) (Lin.mul_right _ (Lin.contract_right _)))
    ⟨fun _ _ => by simp only [Pi.add_apply]; ring, fun _ _ => by simp only [Pi.smul_apply, smul_eq_mul]; ring⟩
theorem yangMills_lin₂ (k₁ k₂ : V4 ℝ) (ε₁ : Vec) : IsLinearMap ℂ (fun ε => yangMills k₁ ε₁ k₂ ε) := Lin.pi fun μ => by
  unfold yangMills
  refine Lin.sub (Lin.add (Lin.mul_right _ (Lin.contract_right _)) ?_) (Lin.mul_right _ (Lin.contract_right _))
  exact ⟨fun _ _ => by simp only [Pi.add_apply]; ring, fun _ _ => by simp only [Pi.smul_apply, smul_eq_mul]; ring⟩

theorem toHiggs_lin₁ (ha : a.boson ≠ .higgs) : IsLinearMap ℂ (fun ε => toHiggs c (a.put ε) b) := by
  simp only [toHiggs, Line.put, ha, false_and, if_false]
  exact Lin.mul_left _ (Lin.contract_left _)
theorem toHiggs_lin₂ (hb : b.boson ≠ .higgs) : IsLinearMap ℂ (fun ε => toHiggs c a (b.put ε)) := by
  simp only [toHiggs, Line.put, hb, and_false, if_false]
  exact Lin.mul_left _ (Lin.contract_right _)
theorem toVector_lin₁ (ha : a.boson ≠ .higgs) (x : Boson) : IsLinearMap ℂ (fun ε => toVector c (a.put ε) b x) := by
  simp only [toVector, Line.put, ha, if_false]
  exact Lin.ite (Lin.smul _ Lin.id) (Lin.smul _ (yangMills_lin₁ _ _ _))
theorem toVector_lin₂ (hb : b.boson ≠ .higgs) (x : Boson) : IsLinearMap ℂ (fun ε => toVector c a (b.put ε) x) := by
  simp only [toVector, Line.put, hb, if_false]
  exact Lin.ite (Lin.smul _ Lin.id) (Lin.smul _ (yangMills_lin₂ _ _ _))

theorem toHiggs_put₁ (ha : a.boson = .higgs) (ε : Vec) : toHiggs c (a.put ε) b = toHiggs c a b := by
  simp only [toHiggs, Line.put, ha, higgs2_higgs_left]; simp
theorem toHiggs_put₂ (hb : b.boson = .higgs) (ε : Vec) : toHiggs c a (b.put ε) = toHiggs c a b := by
  simp only [toHiggs, Line.put, hb, higgs2_higgs_right]; simp
theorem toVector_put₁ (ha : a.boson = .higgs) (x : Boson) (ε : Vec) : toVector c (a.put ε) b x = toVector c a b x := by
  simp only [toVector, Line.put, ha, if_true]
theorem toVector_put₂ (hb : b.boson = .higgs) (x : Boson) (ε : Vec) : toVector c a (b.put ε) x = toVector c a b x := by
  simp only [toVector, Line.put, hb, if_true, higgs2_higgs_left]; simp

theorem propagate_lin (x : Boson) (q : V4 ℝ) : IsLinearMap ℂ (propagate c x q) := by
  unfold propagate
  exact Lin.smul _ (Lin.add (Lin.neg Lin.id) (Lin.ite (Lin.smul_const (Lin.div (Lin.contract_right _) _) _) Lin.zero))

variable (f g : Flavour) (l : V4 ℝ) (w w' : Spinor)

theorem vertex_lin {x : Boson} (hx : x ≠ .higgs) : IsLinearMap ℂ (fun ε => vertex c f g w w' ε x) := by
  unfold vertex
  refine Lin.ite ?_ Lin.zero
  simpa using Lin.sandwich (Lin.absorb c f hx) (bar w') w 1 1

theorem carriers_vector {x : Boson} (h : x ∈ carriers) : x ≠ .higgs := by rintro rfl; simp [carriers] at h

theorem carriers_lin {V : Type} [AddCommGroup V] [Module ℂ V] {ψ : Boson → Vec → V} (h : ∀ x, x ≠ .higgs → IsLinearMap ℂ (ψ x)) :
    IsLinearMap ℂ (fun ε => (carriers.map fun x => ψ x ε).sum) := by
  have := Lin.list Spec.carriers (ψ := fun x ε => if x = .higgs then 0 else ψ x ε) fun x => by by_cases hx : x = .higgs <;> simp [hx, Lin.zero, h]
  refine (congrArg (IsLinearMap ℂ) (funext fun ε => ?_)).mp this
  simp [Spec.carriers]

theorem compton_lin₁ (ha : a.boson ≠ .higgs) : IsLinearMap ℂ (fun ε => compton c f g l w w' (a.put ε) b) := by
  simp only [compton, Line.put]
  split
  · exact Lin.zero
  · refine Lin.ite (Lin.div ?_ _) Lin.zero
    simpa using Lin.sandwich (Lin.absorb c f ha) (bar w') w _ 1
theorem compton_lin₂ (hb : b.boson ≠ .higgs) : IsLinearMap ℂ (fun ε => compton c f g l w w' a (b.put ε)) := by
  unfold compton
  cases after a.boson f with
  | none => exact Lin.zero
  | some x =>
    refine Lin.ite (P := after b.boson x = some g) (Lin.div ?_ _) Lin.zero
    simpa [Line.put, Matrix.mul_assoc] using Lin.sandwich (Lin.absorb c x hb) (bar w') w 1 ((slash (plus l a.k) + (c.mass x : ℂ) • 1) * absorb c f a.ε a.boson)
theorem compton_put₁ (ha : a.boson = .higgs) (ε : Vec) : compton c f g l w w' (a.put ε) b = compton c f g l w w' a b := by
  simp only [compton, Line.put, ha, absorb]
theorem compton_put₂ (hb : b.boson = .higgs) (ε : Vec) : compton c f g l w w' a (b.put ε) = compton c f g l w w' a b := by
  simp only [compton, Line.put, hb, absorb]

theorem annihilation_lin₁ (ha : a.boson ≠ .higgs) : IsLinearMap ℂ (fun ε => annihilation c f g w w' (a.put ε) b) := by
  change IsLinearMap ℂ (fun ε => toHiggs c (a.put ε) b * (denominator c .higgs (plus a.k b.k))⁻¹ * vertex c f g w w' 0 .higgs +
    (carriers.map fun x => vertex c f g w w' (propagate c x (plus a.k b.k) (toVector c (a.put ε) b x)) x).sum)
  refine Lin.add (Lin.mul_right _ (Lin.mul_right _ (toHiggs_lin₁ c a b ha))) (carriers_lin fun x hx => ?_)
  exact Lin.comp (η := fun ε => propagate c x _ _) (vertex_lin c f g w w' hx) (Lin.comp (propagate_lin c x _) (toVector_lin₁ c a b ha x))
theorem annihilation_lin₂ (hb : b.boson ≠ .higgs) : IsLinearMap ℂ (fun ε => annihilation c f g w w' a (b.put ε)) := by
  change IsLinearMap ℂ (fun ε => toHiggs c a (b.put ε) * (denominator c .higgs (plus a.k b.k))⁻¹ * vertex c f g w w' 0 .higgs +
    (carriers.map fun x => vertex c f g w w' (propagate c x (plus a.k b.k) (toVector c a (b.put ε) x)) x).sum)
  refine Lin.add (Lin.mul_right _ (Lin.mul_right _ (toHiggs_lin₂ c a b hb))) (carriers_lin fun x hx => ?_)
  exact Lin.comp (η := fun ε => propagate c x _ _) (vertex_lin c f g w w' hx) (Lin.comp (propagate_lin c x _) (toVector_lin₂ c a b hb x))
theorem annihilation_put₁ (ha : a.boson = .higgs) (ε : Vec) : annihilation c f g w w' (a.put ε) b = annihilation c f g w w' a b := by
  simp only [annihilation, toHiggs_put₁ c a b ha, toVector_put₁ c a b ha]; rfl
theorem annihilation_put₂ (hb : b.boson = .higgs) (ε : Vec) : annihilation c f g w w' a (b.put ε) = annihilation c f g w w' a b := by
  simp only [annihilation, toHiggs_put₂ c a b hb, toVector_put₂ c a b hb]; rfl

theorem gluonFusion_lin₁ : IsLinearMap ℂ (fun ε => gluonFusion c f g w w' (a.put ε) b) := by
  change IsLinearMap ℂ (fun ε => if a.boson = .gluon ∧ b.boson = .gluon then vertex c f g w w' (propagate c .gluon (plus a.k b.k) ((c.gs : ℂ) • yangMills a.k ε b.k b.ε)) .gluon else 0)
  refine Lin.ite ?_ Lin.zero
  exact Lin.comp (η := fun ε => propagate c .gluon _ _) (vertex_lin c f g w w' (by simp)) (Lin.comp (propagate_lin c .gluon _) (Lin.smul _ (yangMills_lin₁ _ _ _)))
theorem gluonFusion_lin₂ : IsLinearMap ℂ (fun ε => gluonFusion c f g w w' a (b.put ε)) := by
  change IsLinearMap ℂ (fun ε => if a.boson = .gluon ∧ b.boson = .gluon then vertex c f g w w' (propagate c .gluon (plus a.k b.k) ((c.gs : ℂ) • yangMills a.k a.ε b.k ε)) .gluon else 0)
  refine Lin.ite ?_ Lin.zero
  exact Lin.comp (η := fun ε => propagate c .gluon _ _) (vertex_lin c f g w w' (by simp)) (Lin.comp (propagate_lin c .gluon _) (Lin.smul _ (yangMills_lin₂ _ _ _)))
theorem gluonFusion_put₁ (ha : a.boson = .higgs) (ε : Vec) : gluonFusion c f g w w' (a.put ε) b = gluonFusion c f g w w' a b := by
  simp [gluonFusion, Line.put, ha]
theorem gluonFusion_put₂ (hb : b.boson = .higgs) (ε : Vec) : gluonFusion c f g w w' a (b.put ε) = gluonFusion c f g w w' a b := by
  simp [gluonFusion, Line.put, hb]

/-! ### four bosons -/

/-- linear in the polarisation vector of a vector boson, and without one for a Higgs boson -/
def Fine {V : Type} [AddCommGroup V] [Module ℂ V] (a : Line) (ψ : Line → V) : Prop :=
  (a.boson ≠ .higgs → IsLinearMap ℂ (fun ε => ψ (a.put ε))) ∧ (a.boson = .higgs → ∀ ε, ψ (a.put ε) = ψ a)

namespace Fine
variable {V : Type} [AddCommGroup V] [Module ℂ V] {a : Line} {ψ φ : Line → V} {α : Line → ℂ}
theorem zero : Fine a (fun _ => (0 : V)) := ⟨fun _ => Lin.zero, fun _ _ => rfl⟩
theorem add (h : Fine a ψ) (h' : Fine a φ) : Fine a (fun a => ψ a + φ a) := ⟨fun e => Lin.add (h.1 e) (h'.1 e), fun e ε => by simp only [h.2 e ε, h'.2 e ε]⟩
theorem sub (h : Fine a ψ) (h' : Fine a φ) : Fine a (fun a => ψ a - φ a) := ⟨fun e => Lin.sub (h.1 e) (h'.1 e), fun e ε => by simp only [h.2 e ε, h'.2 e ε]⟩
theorem mul_left (b : ℂ) (h : Fine a α) : Fine a (fun a => b * α a) := ⟨fun e => Lin.mul_left b (h.1 e), fun e ε => by simp only [h.2 e ε]⟩
theorem mul_right (b : ℂ) (h : Fine a α) : Fine a (fun a => α a * b) := ⟨fun e => Lin.mul_right b (h.1 e), fun e ε => by simp only [h.2 e ε]⟩
theorem comp {η : Line → Vec} {χ : Vec → V} (hχ : IsLinearMap ℂ χ) (h : Fine a η) : Fine a (fun a => χ (η a)) := ⟨fun e => Lin.comp hχ (h.1 e), fun e ε => by simp only [h.2 e ε]⟩
theorem carriers {ψ : Boson → Line → V} (h : ∀ x, x ≠ .higgs → Fine a (ψ x)) : Fine a (fun a => (Spec.carriers.map fun x => ψ x a).sum) := by
  refine ⟨fun e => carriers_lin fun x hx => (h x hx).1 e, fun e ε => ?_⟩
  simp [Spec.carriers, (h _ _).2 e ε]
end Fine

theorem toHiggs_fine₁ : Fine a (fun a => toHiggs c a b) := ⟨toHiggs_lin₁ c a b, toHiggs_put₁ c a b⟩
theorem toHiggs_fine₂ : Fine b (fun b => toHiggs c a b) := ⟨toHiggs_lin₂ c a b, toHiggs_put₂ c a b⟩
theorem toVector_fine₁ (x : Boson) : Fine a (fun a => toVector c a b x) := ⟨fun h => toVector_lin₁ c a b h x, fun h => toVector_put₁ c a b h x⟩
theorem toVector_fine₂ (x : Boson) : Fine b (fun b => toVector c a b x) := ⟨fun h => toVector_lin₂ c a b h x, fun h => toVector_put₂ c a b h x⟩

/-- the momenta are fixed -/
noncomputable def mediatedAt (q : V4 ℝ) : ℂ :=
  toHiggs c a b * (denominator c .higgs q)⁻¹ * toHiggs c d e + (carriers.map fun x => contract (propagate c x q (toVector c a b x)) (toVector c d e x.anti)).sum

theorem mediatedAt_fine₁ (q : V4 ℝ) : Fine a (fun a => mediatedAt c a b d e q) :=
  ((toHiggs_fine₁ c a b).mul_right _ |>.mul_right _).add (Fine.carriers fun x _ => Fine.comp (χ := fun v => contract v _) (Lin.contract_left _) (Fine.comp (propagate_lin c x q) (toVector_fine₁ c a b x)))
theorem mediatedAt_fine₂ (q : V4 ℝ) : Fine b (fun b => mediatedAt c a b d e q) :=
  ((toHiggs_fine₂ c a b).mul_right _ |>.mul_right _).add (Fine.carriers fun x _ => Fine.comp (χ := fun v => contract v _) (Lin.contract_left _) (Fine.comp (propagate_lin c x q) (toVector_fine₂ c a b x)))
theorem mediatedAt_fine₃ (q : V4 ℝ) : Fine d (fun d => mediatedAt c a b d e q) :=
  ((toHiggs_fine₁ c d e).mul_left _).add (Fine.carriers fun x _ => Fine.comp (χ := fun v => contract _ v) (Lin.contract_right _) (toVector_fine₁ c d e _))
theorem mediatedAt_fine₄ (q : V4 ℝ) : Fine e (fun e => mediatedAt c a b d e q) :=
  ((toHiggs_fine₂ c d e).mul_left _).add (Fine.carriers fun x _ => Fine.comp (χ := fun v => contract _ v) (Lin.contract_right _) (toVector_fine₂ c d e _))

theorem mediated_fine₁ : Fine a (fun a => mediated c a b d e) := mediatedAt_fine₁ c a b d e (plus a.k b.k)
theorem mediated_fine₂ : Fine b (fun b => mediated c a b d e) := mediatedAt_fine₂ c a b d e (plus a.k b.k)
theorem mediated_fine₃ : Fine d (fun d => mediated c a b d e) := mediatedAt_fine₃ c a b d e _
theorem mediated_fine₄ : Fine e (fun e => mediated c a b d e) := mediatedAt_fine₄ c a b d e _

theorem seagull_fine₁ : Fine a (fun a => seagull c a b d e) := by
  refine ⟨fun h => ?_, fun h ε => rfl⟩
  simp only [seagull, Line.put, h, false_and, if_false]; exact Lin.zero
theorem seagull_fine₂ : Fine b (fun b => seagull c a b d e) := by
  refine ⟨fun h => ?_, fun h ε => rfl⟩
  simp only [seagull, Line.put, h, and_false, if_false]; exact Lin.zero
theorem seagull_fine₃ : Fine d (fun d => seagull c a b d e) := by
  refine ⟨fun h => ?_, fun h ε => ?_⟩
  · simp only [seagull, Line.put]; exact Lin.ite (Lin.mul_left _ (Lin.contract_left _)) Lin.zero
  · simp [seagull, Line.put, h, higgs2_higgs_left]
theorem seagull_fine₄ : Fine e (fun e => seagull c a b d e) := by
  refine ⟨fun h => ?_, fun h ε => ?_⟩
  · simp only [seagull, Line.put]; exact Lin.ite (Lin.mul_left _ (Lin.contract_right _)) Lin.zero
  · simp [seagull, Line.put, h, higgs2_higgs_right]

theorem gauge4_fine₁ : Fine a (fun a => gauge4 c a b d e) := by
  refine ⟨fun h => ?_, fun h ε => ?_⟩
  · simp only [gauge4, Line.put]; exact Lin.mul_left _ (Lin.sub (Lin.mul_right _ (Lin.contract_left _)) (Lin.mul_right _ (Lin.contract_left _)))
  · simp [gauge4, Line.put, h, gauge3_higgs]
theorem gauge4_fine₂ : Fine b (fun b => gauge4 c a b d e) := by
  refine ⟨fun h => ?_, fun h ε => ?_⟩
  · simp only [gauge4, Line.put]; exact Lin.mul_left _ (Lin.sub (Lin.mul_left _ (Lin.contract_left _)) (Lin.mul_left _ (Lin.contract_left _)))
  · simp [gauge4, Line.put, h, gauge3_higgs]
theorem gauge4_fine₃ : Fine d (fun d => gauge4 c a b d e) := by
  refine ⟨fun h => ?_, fun h ε => ?_⟩
  · simp only [gauge4, Line.put]; exact Lin.mul_left _ (Lin.sub (Lin.mul_right _ (Lin.contract_right _)) (Lin.mul_left _ (Lin.contract_right _)))
  · simp [gauge4, Line.put, h, gauge3_higgs]
theorem gauge4_fine₄ : Fine e (fun e => gauge4 c a b d e) := by
  refine ⟨fun h => ?_, fun h ε => ?_⟩
  · simp only [gauge4, Line.put]; exact Lin.mul_left _ (Lin.sub (Lin.mul_left _ (Lin.contract_right _)) (Lin.mul_right _ (Lin.contract_right _)))
  · simp [gauge4, Line.put, h, gauge3_higgs]

noncomputable def quartic : ℂ := if a.boson = .higgs ∧ b.boson = .higgs ∧ d.boson = .higgs ∧ e.boson = .higgs then ((-(3 * c.MH ^ 2 * c.invVev ^ 2) : ℝ) : ℂ) else 0
theorem quartic_fine₁ : Fine a (fun a => quartic c a b d e) := by
  refine ⟨fun h => ?_, fun h ε => rfl⟩
  simp only [quartic, Line.put, h, false_and, and_false, if_false]; exact Lin.zero
theorem quartic_fine₂ : Fine b (fun b => quartic c a b d e) := by
  refine ⟨fun h => ?_, fun h ε => rfl⟩
  simp only [quartic, Line.put, h, false_and, and_false, if_false]; exact Lin.zero
theorem quartic_fine₃ : Fine d (fun d => quartic c a b d e) := by
  refine ⟨fun h => ?_, fun h ε => rfl⟩
  simp only [quartic, Line.put, h, false_and, and_false, if_false]; exact Lin.zero
theorem quartic_fine₄ : Fine e (fun e => quartic c a b d e) := by
  refine ⟨fun h => ?_, fun h ε => rfl⟩
  simp only [quartic, Line.put, h, false_and, and_false, if_false]; exact Lin.zero

theorem fourBosons_fine₁ : Fine a (fun a => fourBosons c a b d e) :=
  ((((quartic_fine₁ c a b d e).add ((((((seagull_fine₁ c a b d e).add (seagull_fine₁ c a d b e)).add (seagull_fine₁ c a e b d)).add (seagull_fine₃ c b d a e)).add (seagull_fine₃ c b e a d)).add (seagull_fine₃ c d e a b))).add
    (((gauge4_fine₁ c a b d e).add (gauge4_fine₁ c a d b e)).add (gauge4_fine₁ c a e b d))).sub
    (((mediated_fine₁ c a b d e).add (mediated_fine₁ c a d b e)).add (mediated_fine₁ c a e b d)))
theorem fourBosons_fine₂ : Fine b (fun b => fourBosons c a b d e) :=
  ((((quartic_fine₂ c a b d e).add ((((((seagull_fine₂ c a b d e).add (seagull_fine₃ c a d b e)).add (seagull_fine₃ c a e b d)).add (seagull_fine₁ c b d a e)).add (seagull_fine₁ c b e a d)).add (seagull_fine₄ c d e a b))).add
    (((gauge4_fine₂ c a b d e).add (gauge4_fine₃ c a d b e)).add (gauge4_fine₃ c a e b d))).sub
    (((mediated_fine₂ c a b d e).add (mediated_fine₃ c a d b e)).add (mediated_fine₃ c a e b d)))
theorem fourBosons_fine₃ : Fine d (fun d => fourBosons c a b d e) :=
  ((((quartic_fine₃ c a b d e).add ((((((seagull_fine₃ c a b d e).add (seagull_fine₂ c a d b e)).add (seagull_fine₄ c a e b d)).add (seagull_fine₂ c b d a e)).add (seagull_fine₄ c b e a d)).add (seagull_fine₁ c d e a b))).add
    (((gauge4_fine₃ c a b d e).add (gauge4_fine₂ c a d b e)).add (gauge4_fine₄ c a e b d))).sub
    (((mediated_fine₃ c a b d e).add (mediated_fine₂ c a d b e)).add (mediated_fine₄ c a e b d)))
theorem fourBosons_fine₄ : Fine e (fun e => fourBosons c a b d e) :=
  ((((quartic_fine₄ c a b d e).add ((((((seagull_fine₄ c a b d e).add (seagull_fine₄ c a d b e)).add (seagull_fine₂ c a e b d)).add (seagull_fine₄ c b d a e)).add (seagull_fine₂ c b e a d)).add (seagull_fine₂ c d e a b))).add
    (((gauge4_fine₄ c a b d e).add (gauge4_fine₄ c a d b e)).add (gauge4_fine₂ c a e b d))).sub
    (((mediated_fine₄ c a b d e).add (mediated_fine₄ c a d b e)).add (mediated_fine₂ c a e b d)))

/-! ### four gluons -/

theorem gluonExchange_lin₁ : IsLinearMap ℂ (fun ε => gluonExchange c (a.put ε) b d e) := by
  simp only [gluonExchange, Line.put]
  exact Lin.sub (Lin.sub (Lin.mul_right _ (Lin.contract_left _)) (Lin.mul_right _ (Lin.contract_left _)))
    (Lin.comp (ψ := fun v => contract v _) (Lin.contract_left _) (Lin.comp (propagate_lin c .gluon _) (yangMills_lin₁ _ _ _)))
theorem gluonExchange_lin₂ : IsLinearMap ℂ (fun ε => gluonExchange c a (b.put ε) d e) := by
  simp only [gluonExchange, Line.put]
  exact Lin.sub (Lin.sub (Lin.mul_left _ (Lin.contract_left _)) (Lin.mul_left _ (Lin.contract_left _)))
    (Lin.comp (ψ := fun v => contract v _) (Lin.contract_left _) (Lin.comp (propagate_lin c .gluon _) (yangMills_lin₂ _ _ _)))
theorem gluonExchange_lin₃ : IsLinearMap ℂ (fun ε => gluonExchange c a b (d.put ε) e) := by
  simp only [gluonExchange, Line.put]
  exact Lin.sub (Lin.sub (Lin.mul_right _ (Lin.contract_right _)) (Lin.mul_left _ (Lin.contract_right _)))
    (Lin.comp (ψ := fun v => contract _ v) (Lin.contract_right _) (yangMills_lin₁ _ _ _))
theorem gluonExchange_lin₄ : IsLinearMap ℂ (fun ε => gluonExchange c a b d (e.put ε)) := by
  simp only [gluonExchange, Line.put]
  exact Lin.sub (Lin.sub (Lin.mul_left _ (Lin.contract_right _)) (Lin.mul_right _ (Lin.contract_right _)))
    (Lin.comp (ψ := fun v => contract _ v) (Lin.contract_right _) (yangMills_lin₂ _ _ _))

theorem fourGluons_fine₁ (g₀ g₁ g₂ g₃ : Fin 8) : Fine a (fun a => fourGluons c g₀ g₁ g₂ g₃ a b d e) := by
  refine ⟨fun _ => ?_, fun h ε => ?_⟩
  · exact Lin.ite (P := a.boson = .gluon ∧ b.boson = .gluon ∧ d.boson = .gluon ∧ e.boson = .gluon) (Lin.mul_left _ (Lin.add (Lin.add (Lin.mul_left _ (gluonExchange_lin₁ c a b d e))
      (Lin.mul_left _ (gluonExchange_lin₁ c a d b e))) (Lin.mul_left _ (gluonExchange_lin₁ c a e b d)))) Lin.zero
  · simp [fourGluons, Line.put, h]
theorem fourGluons_fine₂ (g₀ g₁ g₂ g₃ : Fin 8) : Fine b (fun b => fourGluons c g₀ g₁ g₂ g₃ a b d e) := by
  refine ⟨fun _ => ?_, fun h ε => ?_⟩
  · exact Lin.ite (P := a.boson = .gluon ∧ b.boson = .gluon ∧ d.boson = .gluon ∧ e.boson = .gluon) (Lin.mul_left _ (Lin.add (Lin.add (Lin.mul_left _ (gluonExchange_lin₂ c a b d e))
      (Lin.mul_left _ (gluonExchange_lin₃ c a d b e))) (Lin.mul_left _ (gluonExchange_lin₃ c a e b d)))) Lin.zero
  · simp [fourGluons, Line.put, h]
theorem fourGluons_fine₃ (g₀ g₁ g₂ g₃ : Fin 8) : Fine d (fun d => fourGluons c g₀ g₁ g₂ g₃ a b d e) := by
  refine ⟨fun _ => ?_, fun h ε => ?_⟩
  · exact Lin.ite (P := a.boson = .gluon ∧ b.boson = .gluon ∧ d.boson = .gluon ∧ e.boson = .gluon) (Lin.mul_left _ (Lin.add (Lin.add (Lin.mul_left _ (gluonExchange_lin₃ c a b d e))
      (Lin.mul_left _ (gluonExchange_lin₂ c a d b e))) (Lin.mul_left _ (gluonExchange_lin₄ c a e b d)))) Lin.zero
  · simp [fourGluons, Line.put, h]
theorem fourGluons_fine₄ (g₀ g₁ g₂ g₃ : Fin 8) : Fine e (fun e => fourGluons c g₀ g₁ g₂ g₃ a b d e) := by
  refine ⟨fun _ => ?_, fun h ε => ?_⟩
  · exact Lin.ite (P := a.boson = .gluon ∧ b.boson = .gluon ∧ d.boson = .gluon ∧ e.boson = .gluon) (Lin.mul_left _ (Lin.add (Lin.add (Lin.mul_left _ (gluonExchange_lin₄ c a b d e))
      (Lin.mul_left _ (gluonExchange_lin₄ c a d b e))) (Lin.mul_left _ (gluonExchange_lin₂ c a e b d)))) Lin.zero
  · simp [fourGluons, Line.put, h]

theorem compton_fine₁ : Fine a (fun a => compton c f g l w w' a b) := ⟨compton_lin₁ c a b f g l w w', compton_put₁ c a b f g l w w'⟩
theorem compton_fine₂ : Fine b (fun b => compton c f g l w w' a b) := ⟨compton_lin₂ c a b f g l w w', compton_put₂ c a b f g l w w'⟩
theorem annihilation_fine₁ : Fine a (fun a => annihilation c f g w w' a b) := ⟨annihilation_lin₁ c a b f g w w', annihilation_put₁ c a b f g w w'⟩
theorem annihilation_fine₂ : Fine b (fun b => annihilation c f g w w' a b) := ⟨annihilation_lin₂ c a b f g w w', annihilation_put₂ c a b f g w w'⟩
theorem gluonFusion_fine₁ : Fine a (fun a => gluonFusion c f g w w' a b) := ⟨fun _ => gluonFusion_lin₁ c a b f g w w', gluonFusion_put₁ c a b f g w w'⟩
theorem gluonFusion_fine₂ : Fine b (fun b => gluonFusion c f g w w' a b) := ⟨fun _ => gluonFusion_lin₂ c a b f g w w', gluonFusion_put₂ c a b f g w w'⟩

end
end Spec
/-! ### sums over the states of the legs -/

theorem swap_legs {X : Type} {F : (Fin 4 → X) → ℝ} {t : Fin 4 → Finset (Fin 3)} {x y : Fin 4 → Fin 3 → X} (G : Fin 4 → X → Prop) (hx : ∀ n, ∀ s ∈ t n, G n (x n s)) (hy : ∀ n, ∀ s ∈ t n, G n (y n s))
    (h : ∀ n w, (∀ m, m ≠ n → G m (w m)) → ∑ s ∈ t n, F (Function.update w n (x n s)) = ∑ s ∈ t n, F (Function.update w n (y n s))) :
    ∑ s ∈ Fintype.piFinset t, F (fun n => x n (s n)) = ∑ s ∈ Fintype.piFinset t, F (fun n => y n (s n)) := by
  have e : ∀ z : Fin 4 → Fin 3 → X, ∑ s ∈ Fintype.piFinset t, F (fun n => z n (s n)) = ∑ a ∈ t 0, ∑ b ∈ t 1, ∑ c ∈ t 2, ∑ d ∈ t 3, F ![z 0 a, z 1 b, z 2 c, z 3 d] := by
    intro z
    rw [sum_colours]
    refine Finset.sum_congr rfl fun a _ => Finset.sum_congr rfl fun b _ => Finset.sum_congr rfl fun c _ => Finset.sum_congr rfl fun d _ => ?_
    congr 1
    ext i; fin_cases i <;> rfl
  have u0 : ∀ a b c d a' : X, Function.update ![a, b, c, d] 0 a' = ![a', b, c, d] := by intros; ext i; fin_cases i <;> rfl
  have u1 : ∀ a b c d a' : X, Function.update ![a, b, c, d] 1 a' = ![a, a', c, d] := by intros; ext i; fin_cases i <;> rfl
  have u2 : ∀ a b c d a' : X, Function.update ![a, b, c, d] 2 a' = ![a, b, a', d] := by intros; ext i; fin_cases i <;> rfl
  have u3 : ∀ a b c d a' : X, Function.update ![a, b, c, d] 3 a' = ![a, b, c, a'] := by intros; ext i; fin_cases i <;> rfl
  rw [e, e]
  calc _ = ∑ a ∈ t 0, ∑ b ∈ t 1, ∑ c ∈ t 2, ∑ d ∈ t 3, F ![x 0 a, x 1 b, x 2 c, y 3 d] := by
        refine Finset.sum_congr rfl fun a ha => Finset.sum_congr rfl fun b hb => Finset.sum_congr rfl fun c hc => ?_
        have := h 3 ![x 0 a, x 1 b, x 2 c, x 2 c] (fun m hm => by fin_cases m; exacts [hx 0 a ha, hx 1 b hb, hx 2 c hc, absurd rfl hm])
        simpa only [u3] using this
    _ = ∑ a ∈ t 0, ∑ b ∈ t 1, ∑ c ∈ t 2, ∑ d ∈ t 3, F ![x 0 a, x 1 b, y 2 c, y 3 d] := by
        refine Finset.sum_congr rfl fun a ha => Finset.sum_congr rfl fun b hb => ?_
        rw [Finset.sum_comm, Finset.sum_comm (s := t 2)]
        refine Finset.sum_congr rfl fun d hd => ?_
        have := h 2 ![x 0 a, x 1 b, x 1 b, y 3 d] (fun m hm => by fin_cases m; exacts [hx 0 a ha, hx 1 b hb, absurd rfl hm, hy 3 d hd])
        simpa only [u2] using this
    _ = ∑ a ∈ t 0, ∑ b ∈ t 1, ∑ c ∈ t 2, ∑ d ∈ t 3, F ![x 0 a, y 1 b, y 2 c, y 3 d] := by
        refine Finset.sum_congr rfl fun a ha => ?_
        rw [Finset.sum_comm, Finset.sum_comm (s := t 1)]
        refine Finset.sum_congr rfl fun c hc => ?_
        rw [Finset.sum_comm, Finset.sum_comm (s := t 1)]
        refine Finset.sum_congr rfl fun d hd => ?_
        have := h 1 ![x 0 a, x 0 a, y 2 c, y 3 d] (fun m hm => by fin_cases m; exacts [hx 0 a ha, absurd rfl hm, hy 2 c hc, hy 3 d hd])
        simpa only [u1] using this
    _ = _ := by
        rw [Finset.sum_comm, Finset.sum_comm (s := t 0)]
        refine Finset.sum_congr rfl fun b hb => ?_
        rw [Finset.sum_comm, Finset.sum_comm (s := t 0)]
        refine Finset.sum_congr rfl fun c hc => ?_
        rw [Finset.sum_comm, Finset.sum_comm (s := t 0)]
        refine Finset.sum_congr rfl fun d hd => ?_
        have := h 0 ![y 1 b, y 1 b, y 2 c, y 3 d] (fun m hm => by fin_cases m; exacts [absurd rfl hm, hy 1 b hb, hy 2 c hc, hy 3 d hd])
        simpa only [u0] using this

/-- A sum of squares of a linear function. -/
theorem sum_along {ψ : Vec → ℂ} {d : Vec} (hd : ∀ v, ψ v = d ⬝ᵥ v) (t : Finset (Fin 3)) (ε : Fin 3 → Vec) :
    ((∑ s ∈ t, ‖ψ (ε s)‖ ^ 2 : ℝ) : ℂ) = ∑ μ, ∑ ν, d μ * star (d ν) * ∑ s ∈ t, ε s μ * star (ε s ν) := by
  push_cast
  simp only [Finset.mul_sum]
  rw [Finset.sum_congr rfl fun μ _ => Finset.sum_comm, Finset.sum_comm]
  refine Finset.sum_congr rfl fun s _ => ?_
  rw [← Complex.mul_conj', hd, dotProduct, map_sum, Finset.sum_mul_sum]
  refine Finset.sum_congr rfl fun μ _ => Finset.sum_congr rfl fun ν _ => ?_
  simp only [Complex.star_def, map_mul]
  ring

theorem sum_linear {ψ : Vec → ℂ} (h : IsLinearMap ℂ ψ) {t : Finset (Fin 3)} {ε ε' : Fin 3 → Vec}
    (hg : ∀ μ ν, ∑ s ∈ t, ε s μ * star (ε s ν) = ∑ s ∈ t, ε' s μ * star (ε' s ν)) : ∑ s ∈ t, ‖ψ (ε s)‖ ^ 2 = ∑ s ∈ t, ‖ψ (ε' s)‖ ^ 2 := by
  obtain ⟨d, hd⟩ := Lin.along h
  have := (sum_along hd t ε).trans ((Finset.sum_congr rfl fun μ _ => Finset.sum_congr rfl fun ν _ => by rw [hg]).trans (sum_along hd t ε').symm)
  exact_mod_cast this

/-- For a massless boson the gauge does not matter if the function vanishes on the momentum. -/
theorem sum_gauge {ψ : Vec → ℂ} (h : IsLinearMap ℂ ψ) {p n : V4 ℝ} (hp : ψ (four p) = 0) {t : Finset (Fin 3)} {ε : Fin 3 → Vec} {r : ℂ}
    (hg : ∀ μ ν, ∑ s ∈ t, ε s μ * star (ε s ν) = -(if μ = ν then metric μ else 0) + (four p μ * four n ν + four n μ * four p ν) / r) :
    ∃ d : Vec, (∀ v, ψ v = d ⬝ᵥ v) ∧ ((∑ s ∈ t, ‖ψ (ε s)‖ ^ 2 : ℝ) : ℂ) = ∑ μ, -metric μ * (d μ * star (d μ)) := by
  obtain ⟨d, hd⟩ := Lin.along h
  refine ⟨d, hd, ?_⟩
  simp only [id] at hd
  rw [hd] at hp
  have hp' : ∑ μ, star (d μ) * four p μ = 0 := by
    have := congrArg star hp
    rw [dotProduct, star_sum, star_zero] at this
    rw [← this]
    refine Finset.sum_congr rfl fun μ _ => ?_
    fin_cases μ <;> simp [four]
  rw [sum_along hd]
  have e : ∀ μ ν, d μ * star (d ν) * ∑ s ∈ t, ε s μ * star (ε s ν) =
      d μ * star (d ν) * -(if μ = ν then metric μ else 0) + (d μ * four p μ) * (star (d ν) * four n ν / r) + (d μ * four n μ / r) * (star (d ν) * four p ν) := by
    intro μ ν; rw [hg]; ring
  simp only [e, Finset.sum_add_distrib, ← Finset.mul_sum, ← Finset.sum_mul]
  rw [hp', show ∑ μ, d μ * four p μ = 0 from hp]
  simp only [zero_mul, mul_zero, add_zero]
  refine Finset.sum_congr rfl fun μ _ => ?_
  rw [Finset.sum_eq_single μ]
  · rw [if_pos rfl]; ring
  · intro ν _ hν; rw [if_neg hν.symm]; ring
  · simp

namespace Spec
namespace Boson
theorem anti_higgs (b : Boson) : b.anti = .higgs ↔ b = .higgs := by cases b <;> simp [anti]
end Boson

namespace Reaction
variable (S : Reaction) (c : Constants) (p : Nat → V4 ℝ)

theorem line_self (ε : Fin 4 → Vec) (n : Fin 4) (v : Vec) : S.line p (Function.update ε n v) n = (S.line p ε n).put (if arrives n then v else star v) := by
  unfold line
  split_ifs <;> simp [Line.put]
theorem line_ne (ε : Fin 4 → Vec) {n m : Fin 4} (h : m ≠ n) (v : Vec) : S.line p (Function.update ε n v) m = S.line p ε m := by
  simp [line, h]
theorem line_higgs (ε : Fin 4 → Vec) (n : Fin 4) : (S.line p ε n).boson = .higgs ↔ S.boson n = .higgs := by
  unfold line
  split_ifs <;> simp [Boson.anti_higgs]

theorem bosons_nodup : S.bosons.Nodup := (by decide : ([0, 1, 2, 3] : List (Fin 4)).Nodup).filter _
theorem mem_bosons (n : Fin 4) : n ∈ S.bosons ↔ S.isBoson n := by
  have : n ∈ [0, 1, 2, 3] := by fin_cases n <;> simp
  simp [bosons, List.mem_filter, this]
theorem mem_ends (n : Fin 4) : n ∈ S.ends ↔ S.isEnd n := by
  have : n ∈ [0, 1, 2, 3] := by fin_cases n <;> simp
  simp [ends, List.mem_filter, this]
theorem mem_starts (n : Fin 4) : n ∈ S.starts ↔ S.isStart n := by
  have : n ∈ [0, 1, 2, 3] := by fin_cases n <;> simp
  simp [starts, List.mem_filter, this]

variable (κ : Fin 4 → Fin 3) (γ : Fin 4 → Fin 8) (w : Fin 4 → Spinor) (ε : Fin 4 → Vec)

/-- the diagrams with coefficients -/
noncomputable def joined (f g : Flavour) (l : V4 ℝ) (w w' : Spinor) (x y z t : ℂ) (A B : Line) : ℂ :=
  x * compton c f g l w w' A B + y * compton c f g l w w' B A + z * annihilation c f g w w' A B + t * gluonFusion c f g w w' A B

theorem oneLine_eq (i j a b : Fin 4) : S.oneLine c p κ γ w ε i j a b = joined c (S.flavour j) (S.flavour i) (S.along p j) (w j) (w i) ((S.colour γ b * S.colour γ a) (κ i) (κ j))
    ((S.colour γ a * S.colour γ b) (κ i) (κ j)) (delta (κ i) (κ j)) ((S.colour γ b * S.colour γ a - S.colour γ a * S.colour γ b) (κ i) (κ j)) (S.line p ε a) (S.line p ε b) := rfl

theorem joined_fine₁ (f g : Flavour) (l : V4 ℝ) (w w' : Spinor) (x y z t : ℂ) (A B : Line) : Fine A (fun A => joined c f g l w w' x y z t A B) :=
  ((((compton_fine₁ ..).mul_left _).add ((compton_fine₂ ..).mul_left _)).add ((annihilation_fine₁ ..).mul_left _)).add ((gluonFusion_fine₁ ..).mul_left _)
theorem joined_fine₂ (f g : Flavour) (l : V4 ℝ) (w w' : Spinor) (x y z t : ℂ) (A B : Line) : Fine B (fun B => joined c f g l w w' x y z t A B) :=
  ((((compton_fine₂ ..).mul_left _).add ((compton_fine₁ ..).mul_left _)).add ((annihilation_fine₂ ..).mul_left _)).add ((gluonFusion_fine₂ ..).mul_left _)

theorem oneLine_fine {i j a b n : Fin 4} (hn : n = a ∨ n = b) (hab : a ≠ b) : ∃ ψ : Line → ℂ, Fine (S.line p ε n) ψ ∧
    ∀ v, S.oneLine c p κ γ w (Function.update ε n v) i j a b = ψ ((S.line p ε n).put (if arrives n then v else star v)) := by
  rcases hn with rfl | rfl
  · exact ⟨_, joined_fine₁ c _ _ _ _ _ _ _ _ _ _ _, fun v => by rw [oneLine_eq, line_self, line_ne S p ε hab.symm]⟩
  · exact ⟨_, joined_fine₂ c _ _ _ _ _ _ _ _ _ _ _, fun v => by rw [oneLine_eq, line_self, line_ne S p ε hab]⟩

theorem line_gluon (n : Fin 4) : (S.line p ε n).boson = .gluon ↔ S.boson n = .gluon := by
  unfold line; split <;> cases S.boson n <;> simp [Boson.anti]
theorem fourGluons_other {n : Fin 4} (hg : S.boson n ≠ .gluon) : fourGluons c (γ 0) (γ 1) (γ 2) (γ 3) (S.line p ε 0) (S.line p ε 1) (S.line p ε 2) (S.line p ε 3) = 0 := by
  unfold fourGluons
  simp only [line_gluon]
  refine if_neg fun h => hg ?_
  fin_cases n
  exacts [h.1, h.2.1, h.2.2.1, h.2.2.2]

/-- The amplitude is linear in the polarisation vector of each vector boson, antilinear if it goes out. -/
theorem amplitude_fine {n : Fin 4} (hn : S.isBoson n) : ∃ ψ : Vec → ℂ, (S.boson n ≠ .higgs → IsLinearMap ℂ ψ) ∧ (S.boson n = .higgs → ∀ v v', ψ v = ψ v') ∧
    ∀ v, S.amplitude c p κ γ w (Function.update ε n v) = ψ (if arrives n then v else star v) := by
  suffices h : ∃ ψ : Line → ℂ, Fine (S.line p ε n) ψ ∧ ∀ v, S.amplitude c p κ γ w (Function.update ε n v) = ψ ((S.line p ε n).put (if arrives n then v else star v)) by
    obtain ⟨ψ, h, e⟩ := h
    refine ⟨fun v => ψ ((S.line p ε n).put v), fun hv => h.1 (by rwa [ne_eq, line_higgs]), fun hh v v' => ?_, e⟩
    have h1 := h.2 ((line_higgs S p ε n).2 hh)
    simp only [h1]
  have hm := (S.mem_bosons n).2 hn
  have hd := S.bosons_nodup
  unfold amplitude
  split
  · rename_i i j a b _ _ hb
    rw [hb] at hm hd
    have hab : a ≠ b := by rintro rfl; simp at hd
    exact oneLine_fine S c p κ γ w ε (by simpa using hm) hab
  · rename_i n₀ n₁ n₂ n₃ _ _ hb
    rw [hb] at hm hd
    simp only [List.nodup_cons, List.mem_cons, List.not_mem_nil, or_false, not_or, not_false_eq_true, List.nodup_nil, and_true] at hd
    obtain ⟨⟨h1, h2, h3⟩, ⟨h4, h5⟩, h6⟩ := hd
    simp only [List.mem_cons, List.not_mem_nil, or_false] at hm
    rcases hm with rfl | rfl | rfl | rfl
    · exact ⟨_, (fourBosons_fine₁ c _ (S.line p ε n₁) (S.line p ε n₂) (S.line p ε n₃)).add (fourGluons_fine₁ c _ (S.line p ε n₁) (S.line p ε n₂) (S.line p ε n₃) (γ n) (γ n₁) (γ n₂) (γ n₃)), fun v => by
        rw [line_self, line_ne S p ε (Ne.symm h1), line_ne S p ε (Ne.symm h2), line_ne S p ε (Ne.symm h3)]⟩
    · exact ⟨_, (fourBosons_fine₂ c (S.line p ε n₀) _ (S.line p ε n₂) (S.line p ε n₃)).add (fourGluons_fine₂ c (S.line p ε n₀) _ (S.line p ε n₂) (S.line p ε n₃) (γ n₀) (γ n) (γ n₂) (γ n₃)), fun v => by
        rw [line_self, line_ne S p ε h1, line_ne S p ε (Ne.symm h4), line_ne S p ε (Ne.symm h5)]⟩
    · exact ⟨_, (fourBosons_fine₃ c (S.line p ε n₀) (S.line p ε n₁) _ (S.line p ε n₃)).add (fourGluons_fine₃ c (S.line p ε n₀) (S.line p ε n₁) _ (S.line p ε n₃) (γ n₀) (γ n₁) (γ n) (γ n₃)), fun v => by
        rw [line_self, line_ne S p ε h2, line_ne S p ε h4, line_ne S p ε (Ne.symm h6)]⟩
    · exact ⟨_, (fourBosons_fine₄ c (S.line p ε n₀) (S.line p ε n₁) (S.line p ε n₂) _).add (fourGluons_fine₄ c (S.line p ε n₀) (S.line p ε n₁) (S.line p ε n₂) _ (γ n₀) (γ n₁) (γ n₂) (γ n)), fun v => by
        rw [line_self, line_ne S p ε h3, line_ne S p ε h5, line_ne S p ε h6]⟩
  · exact ⟨fun _ => 0, Fine.zero, fun _ => rfl⟩

theorem isBoson_not {n : Fin 4} (h : S.isBoson n) : S.isEnd n = false ∧ S.isStart n = false := by
  unfold isBoson at h
  unfold isEnd isStart
  cases hl : S.leg n <;> simp_all

/-- It does not depend on spinors of bosons or polarisation vectors of fermions. -/
theorem amplitude_boson {n : Fin 4} (hn : S.isBoson n) (u : Spinor) : S.amplitude c p κ γ (Function.update w n u) ε = S.amplitude c p κ γ w ε := by
  obtain ⟨h1, h2⟩ := S.isBoson_not hn
  unfold amplitude
  split
  · rename_i i j a b hi hj _
    have ni : i ≠ n := by rintro rfl; have := (S.mem_ends i).1 (by rw [hi]; simp); simp_all
    have nj : j ≠ n := by rintro rfl; have := (S.mem_starts j).1 (by rw [hj]; simp); simp_all
    simp only [oneLine, Function.update_of_ne ni, Function.update_of_ne nj]
  · rfl
  · rfl
theorem amplitude_fermion {n : Fin 4} (hn : S.isBoson n = false) (v : Vec) : S.amplitude c p κ γ w (Function.update ε n v) = S.amplitude c p κ γ w ε := by
  have ne : ∀ m, m ∈ S.bosons → m ≠ n := by rintro m hm rfl; rw [S.mem_bosons, hn] at hm; simp at hm
  unfold amplitude
  split
  · rename_i i j a b _ _ hb
    rw [hb] at ne
    simp only [oneLine, line_ne S p ε (ne a (by simp)), line_ne S p ε (ne b (by simp))]
  · rename_i n₀ n₁ n₂ n₃ _ _ hb
    rw [hb] at ne
    simp only [line_ne S p ε (ne n₀ (by simp)), line_ne S p ε (ne n₁ (by simp)), line_ne S p ε (ne n₂ (by simp)), line_ne S p ε (ne n₃ (by simp))]
  · rfl

theorem compton_along (f g : Flavour) (l : V4 ℝ) (a b : Line) (w w' : Spinor) : Along star (fun u => compton c f g l w u a b) ∧ Along id (fun u => compton c f g l u w' a b) := by
  unfold compton
  cases after a.boson f with
  | none => exact ⟨.zero, .zero⟩
  | some x => exact ⟨.ite ((Along.bar_left _).div _) .zero, .ite (Along.div ⟨bar w' ᵥ* _, fun u => Matrix.dotProduct_mulVec _ _ _⟩ _) .zero⟩
theorem vertex_along (f g : Flavour) (ε : Vec) (x : Boson) (w w' : Spinor) : Along star (fun u => vertex c f g w u ε x) ∧ Along id (fun u => vertex c f g u w' ε x) := by
  unfold vertex
  exact ⟨.ite (Along.bar_left _) .zero, .ite ⟨bar w' ᵥ* _, fun u => Matrix.dotProduct_mulVec _ _ _⟩ .zero⟩
theorem annihilation_along (f g : Flavour) (a b : Line) (w w' : Spinor) : Along star (fun u => annihilation c f g w u a b) ∧ Along id (fun u => annihilation c f g u w' a b) := by
  simp only [annihilation, carriers, List.map_cons, List.map_nil, List.sum_cons, List.sum_nil]
  exact ⟨.add (.mul_left (vertex_along c f g _ _ w w').1 _) (.add (vertex_along c f g _ _ w w).1 (.add (vertex_along c f g _ _ w w).1 (.add (vertex_along c f g _ _ w w).1 (.add (vertex_along c f g _ _ w w).1 .zero)))),
    .add (.mul_left (vertex_along c f g _ _ w w').2 _) (.add (vertex_along c f g _ _ w w').2 (.add (vertex_along c f g _ _ w w').2 (.add (vertex_along c f g _ _ w w').2 (.add (vertex_along c f g _ _ w w').2 .zero))))⟩
theorem gluonFusion_along (f g : Flavour) (a b : Line) (w w' : Spinor) : Along star (fun u => gluonFusion c f g w u a b) ∧ Along id (fun u => gluonFusion c f g u w' a b) := by
  unfold gluonFusion
  exact ⟨.ite (vertex_along c f g _ _ w w').1 .zero, .ite (vertex_along c f g _ _ w w').2 .zero⟩

theorem isEnd_isStart {n : Fin 4} (h : S.isBoson n = false) : S.isEnd n = !S.isStart n := by
  unfold isBoson at h
  unfold isEnd isStart
  cases hl : S.leg n with
  | boson b => simp [hl] at h
  | fermion f a => cases arrives n <;> cases a <;> rfl

theorem oneLine_along {i j : Fin 4} (h : i ≠ j) (a b : Fin 4) : Along star (fun u => S.oneLine c p κ γ (Function.update w i u) ε i j a b) ∧ Along id (fun u => S.oneLine c p κ γ (Function.update w j u) ε i j a b) := by
  simp only [oneLine, Function.update_self, Function.update_of_ne h, Function.update_of_ne h.symm]
  exact ⟨.add (.add (.add (.mul_left (compton_along c _ _ _ _ _ (w j) (w i)).1 _) (.mul_left (compton_along c _ _ _ _ _ (w j) (w i)).1 _)) (.mul_left (annihilation_along c _ _ _ _ (w j) (w i)).1 _)) (.mul_left (gluonFusion_along c _ _ _ _ (w j) (w i)).1 _),
    .add (.add (.add (.mul_left (compton_along c _ _ _ _ _ (w j) (w i)).2 _) (.mul_left (compton_along c _ _ _ _ _ (w j) (w i)).2 _)) (.mul_left (annihilation_along c _ _ _ _ (w j) (w i)).2 _)) (.mul_left (gluonFusion_along c _ _ _ _ (w j) (w i)).2 _)⟩

theorem amplitude_along {n : Fin 4} (hn : S.isBoson n = false) :
    Along id (fun u => S.amplitude c p κ γ (Function.update w n u) ε) ∨ Along star (fun u => S.amplitude c p κ γ (Function.update w n u) ε) := by
  unfold amplitude
  split
  · rename_i i j a b hi hj _
    have e := S.isEnd_isStart hn
    have ei : S.isEnd i := (S.mem_ends i).1 (by rw [hi]; simp)
    have ej : S.isStart j := (S.mem_starts j).1 (by rw [hj]; simp)
    have bi : S.isBoson i = false := by by_contra hb; have := S.isBoson_not (n := i) (by simpa using hb); simp_all
    have hij : i ≠ j := by rintro rfl; have := S.isEnd_isStart bi; simp_all
    have m1 : S.isEnd n → n = i := fun h => by have := (S.mem_ends n).2 h; rw [hi] at this; simpa using this
    have m2 : S.isStart n → n = j := fun h => by have := (S.mem_starts n).2 h; rw [hj] at this; simpa using this
    have o := S.oneLine_along c p κ γ w ε hij a b
    cases hs : S.isStart n
    · rw [hs] at e
      rw [m1 (by simpa using e)]
      exact .inr o.1
    · rw [m2 hs]
      exact .inl o.2
  · exact .inl ⟨0, fun u => by
      rename_i n₀ n₁ n₂ n₃ h1 h2 hb
      exfalso
      have e := S.isEnd_isStart hn
      have m1 : ¬ S.isEnd n := fun h => by have := (S.mem_ends n).2 h; rw [h1] at this; simp at this
      have m2 : ¬ S.isStart n := fun h => by have := (S.mem_starts n).2 h; rw [h2] at this; simp at this
      simp_all⟩
  · exact .inl .zero

end Reaction
end Spec
/-! ### independence of the choice of spinors and polarisation vectors -/

theorem sum_two {M : Type} [AddCommMonoid M] (g : Fin 3 → M) : ∑ s ∈ ({0, 1} : Finset (Fin 3)), g s = ∑ s : Fin 2, g s.castSucc := by
  rw [Finset.sum_pair (by decide), Fin.sum_univ_two]; rfl

/-- A sum of squares vanishes only if all terms do. -/
theorem sum_contract {t : Finset (Fin 3)} {ε : Fin 3 → Vec} {k : V4 ℝ} (h : ∑ μ, ∑ ν, (metric μ * four k μ) * star (metric ν * four k ν) * ∑ s ∈ t, ε s μ * star (ε s ν) = 0) {s : Fin 3} (hs : s ∈ t) :
    contract (four k) (ε s) = 0 := by
  have := sum_along (ψ := fun v => contract (four k) v) (d := fun μ => metric μ * four k μ) (fun v => rfl) t ε
  rw [h] at this
  have h0 : ∑ s ∈ t, ‖contract (four k) (ε s)‖ ^ 2 = 0 := by exact_mod_cast this
  have := (Finset.sum_eq_zero_iff_of_nonneg fun _ _ => by positivity).1 h0 s hs
  simpa using this

namespace Spec.Reaction
variable (S : Reaction) (c : Constants) (p : Nat → V4 ℝ)

/-- equations satisfied by the spinors and polarisation vectors -/
def Shell (n : Fin 4) (u : Spinor) (ε : Vec) : Prop := match S.leg n with
  | .fermion f _ => Dirac (S.along p n) (c.mass f) u
  | .boson b => b ≠ .higgs → contract (four (p n)) ε = 0

/-- The amplitude vanishes if the polarisation vector of a massless boson is replaced by its momentum. -/
def Gauge : Prop := ∀ n b, S.leg n = .boson b → b.massive = false → ∀ κ γ w ε, (∀ m, m ≠ n → S.Shell c p m (w m) (ε m)) → S.amplitude c p κ γ w (Function.update ε n (four (p n))) = 0

variable {c p}

theorem slash_backward (k : V4 ℝ) : slash (backward k) = -slash k := by
  rw [slash_apply, slash_apply]
  ext a b
  fin_cases a <;> fin_cases b <;> simp [backward] <;> ring

theorem complete_shell (hm : ∀ n : Fin 4, msq (p n) = S.mass c n ^ 2) (h0 : ∀ n b, S.leg n = .boson b → b.massive = true → b ≠ .higgs → c.bosonMass b ≠ 0) {n : Fin 4} {u : Fin 3 → Spinor} {ε : Fin 3 → Vec}
    (h : S.Complete c p n u ε) {s : Fin 3} (hs : s ∈ S.spins n) : S.Shell c p n (u s) (ε s) := by
  have hm := hm n
  have h0 := h0 n
  unfold Complete at h
  unfold Shell
  unfold spins at hs
  unfold mass at hm
  cases hl : S.leg n with
  | fermion f a =>
    simp only [hl] at h hs hm ⊢
    rw [sum_two] at h
    have hs' : ∃ r : Fin 2, r.castSucc = s := by
      have hs := Finset.mem_insert.1 hs
      rw [Finset.mem_singleton] at hs
      rcases hs with rfl | rfl
      · exact ⟨0, rfl⟩
      · exact ⟨1, rfl⟩
    obtain ⟨r, rfl⟩ := hs'
    have ha : S.antifermion n = a := by simp [antifermion, hl]
    unfold along
    rw [ha]
    cases a
    · have := dirac_of_complete (u := fun r : Fin 2 => u r.castSucc) hm (by simpa using h) r
      simpa using this
    · have := dirac_of_complete (u := fun r : Fin 2 => u r.castSucc) (m := -c.mass f) (by rw [hm]; ring) (by simpa using h) r
      unfold Dirac at this ⊢
      rw [if_pos rfl, slash_backward, neg_mulVec, this]
      simp
  | boson b =>
    simp only [hl] at h hs hm h0 ⊢
    intro hb
    have hM := h0 b rfl
    have hz : (msq (p n) : ℂ) = (p n).t ^ 2 - (p n).x ^ 2 - (p n).y ^ 2 - (p n).z ^ 2 := by simp [msq]
    have e1 : (((p n).t : ℂ) ^ 2 - (p n).x ^ 2 - (p n).y ^ 2 - (p n).z ^ 2) = (c.bosonMass b : ℂ) ^ 2 := by rw [← hz, hm]; push_cast; ring
    refine sum_contract ?_ hs
    have g0 : ∀ x : V4 ℝ, ∀ μ, star (metric μ * four x μ) = metric μ * four x μ := by intro x μ; fin_cases μ <;> simp [metric, four]
    simp only [g0]
    cases b
    · exact absurd rfl hb
    · obtain ⟨k, -, -, h⟩ := h
      simp only [h, Fin.sum_univ_four]
      have e1 : (((p n).t : ℂ) ^ 2 - (p n).x ^ 2 - (p n).y ^ 2 - (p n).z ^ 2) = 0 := by rw [e1]; simp [Constants.bosonMass]
      simp [metric, four]
      linear_combination (-1 + 2 * ((p n).t * k.t - (p n).x * k.x - (p n).y * k.y - (p n).z * k.z) / (dot k (p n) : ℂ)) * e1
    all_goals try (obtain ⟨k, -, -, h⟩ := h
                   simp only [h, Fin.sum_univ_four]
                   have e1 : (((p n).t : ℂ) ^ 2 - (p n).x ^ 2 - (p n).y ^ 2 - (p n).z ^ 2) = 0 := by rw [e1]; simp [Constants.bosonMass]
                   simp [metric, four]
                   linear_combination (-1 + 2 * ((p n).t * k.t - (p n).x * k.x - (p n).y * k.y - (p n).z * k.z) / (dot k (p n) : ℂ)) * e1)
    all_goals
      have hM := hM rfl (by simp)
      simp only [Polarised] at h
      simp only [h, Fin.sum_univ_four]
      revert e1 hM
      generalize c.bosonMass _ = M
      intro e1 hM
      have hM' : (M : ℂ) ≠ 0 := by exact_mod_cast hM
      simp [metric, four]
      field_simp
      linear_combination (((p n).t : ℂ) ^ 2 - (p n).x ^ 2 - (p n).y ^ 2 - (p n).z ^ 2) * e1

/-- The sum over the states of one particle does not depend on the choice of its spinors or polarisation vectors. -/
theorem leg_basis (hg : S.Gauge c p) {n : Fin 4} {u v : Fin 3 → Spinor} {ε η : Fin 3 → Vec} (hn : S.Complete c p n u ε) (hn' : S.Complete c p n v η) (κ : Fin 4 → Fin 3) (γ : Fin 4 → Fin 8)
    (w : Fin 4 → Spinor) (e : Fin 4 → Vec) (hw : ∀ m, m ≠ n → S.Shell c p m (w m) (e m)) :
    ∑ s ∈ S.spins n, ‖S.amplitude c p κ γ (Function.update w n (u s)) (Function.update e n (ε s))‖ ^ 2 = ∑ s ∈ S.spins n, ‖S.amplitude c p κ γ (Function.update w n (v s)) (Function.update e n (η s))‖ ^ 2 := by
  have hg := hg n
  unfold Complete at hn hn'
  unfold spins
  cases hl : S.leg n with
  | fermion f a =>
    have hb : S.isBoson n = false := by simp [isBoson, hl]
    simp only [hl] at hn hn' ⊢
    simp only [S.amplitude_fermion c p κ γ _ _ hb]
    rw [sum_two, sum_two]
    rw [sum_two] at hn hn'
    have g := gram_of_complete (u := fun r : Fin 2 => u r.castSucc) (v := fun r : Fin 2 => v r.castSucc) (hn.trans hn'.symm)
    rcases S.amplitude_along c p κ γ w e hb with k | k
    · exact k.swap_id g
    · exact k.swap_star g
  | boson b =>
    have hb : S.isBoson n = true := by simp [isBoson, hl]
    have hb' : S.boson n = b := by simp [boson, hl]
    simp only [hl] at hn hn' ⊢
    simp only [S.amplitude_boson c p κ γ _ _ hb]
    obtain ⟨ψ, k1, k2, k3⟩ := S.amplitude_fine c p κ γ w e hb
    rw [hb'] at k1 k2
    simp only [k3]
    have conj : ∀ {t : Finset (Fin 3)} {ε : Fin 3 → Vec} {G : Fin 4 → Fin 4 → ℂ}, (∀ μ ν, ∑ s ∈ t, ε s μ * star (ε s ν) = G μ ν) → (∀ μ ν, star (G μ ν) = G μ ν) →
        ∀ μ ν, ∑ s ∈ t, (if arrives n then ε s else star (ε s)) μ * star ((if arrives n then ε s else star (ε s)) ν) = G μ ν := by
      intro t ε G h1 h2 μ ν
      cases arrives n
      · rw [← h2, ← h1, star_sum]
        exact Finset.sum_congr rfl fun s _ => by simp
      · simpa using h1 μ ν
    have re : ∀ (k : V4 ℝ) μ, (starRingEnd ℂ) (four k μ) = four k μ := by intro k μ; fin_cases μ <;> simp [four]
    have rm : ∀ μ, (starRingEnd ℂ) (metric μ) = metric μ := by intro μ; fin_cases μ <;> simp [metric]
    by_cases hh : b = .higgs
    · exact Finset.sum_congr rfl fun s _ => by rw [k2 hh]
    have hL := k1 hh
    by_cases hM : b.massive = true
    · have P : ∀ {ε : Fin 3 → Vec}, Polarised c (p n) b ε → ∀ μ ν, ∑ s ∈ b.spins, ε s μ * star (ε s ν) = -(if μ = ν then metric μ else 0) + four (p n) μ * four (p n) ν / (c.bosonMass b ^ 2 : ℝ) := by
        intro ε hε
        cases b <;> first | exact absurd rfl hh | (simp [Boson.massive] at hM; done) | exact hε
      have R : ∀ μ ν, star (-(if μ = ν then metric μ else 0) + four (p n) μ * four (p n) ν / ((c.bosonMass b ^ 2 : ℝ) : ℂ)) = -(if μ = ν then metric μ else 0) + four (p n) μ * four (p n) ν / ((c.bosonMass b ^ 2 : ℝ) : ℂ) := by
        intro μ ν
        split_ifs <;> simp [re, rm]
      refine sum_linear hL fun μ ν => ?_
      rw [conj (P hn) R, conj (P hn') R]
    · have hM' : b.massive = false := by simpa using hM
      have P : ∀ {ε : Fin 3 → Vec}, Polarised c (p n) b ε → ∃ k : V4 ℝ, ∀ μ ν, ∑ s ∈ b.spins, ε s μ * star (ε s ν) = -(if μ = ν then metric μ else 0) + (four (p n) μ * four k ν + four k μ * four (p n) ν) / (dot k (p n) : ℂ) := by
        intro ε hε
        cases b <;> first | (simp [Boson.massive] at hM'; done) | (obtain ⟨k, -, -, h⟩ := hε; exact ⟨k, h⟩)
      have R : ∀ (k : V4 ℝ) μ ν, star (-(if μ = ν then metric μ else 0) + (four (p n) μ * four k ν + four k μ * four (p n) ν) / (dot k (p n) : ℂ)) = -(if μ = ν then metric μ else 0) + (four (p n) μ * four k ν + four k μ * four (p n) ν) / (dot k (p n) : ℂ) := by
        intro k μ ν
        split_ifs <;> simp [re, rm]
      have hz : ψ (four (p n)) = 0 := by
        have e' := hg b hl hM' κ γ _ _ hw
        rw [k3] at e'
        have : (if arrives n then four (p n) else star (four (p n))) = four (p n) := by
          split_ifs
          · rfl
          · funext μ; exact re _ _
        rwa [this] at e'
      obtain ⟨k, hk⟩ := P hn
      obtain ⟨k', hk'⟩ := P hn'
      obtain ⟨d, e1, e2⟩ := sum_gauge hL hz (conj hk (R k))
      obtain ⟨d', e1', e2'⟩ := sum_gauge hL hz (conj hk' (R k'))
      have : d = d' := by
        funext μ
        have := (e1 (Pi.single μ 1)).symm.trans (e1' (Pi.single μ 1))
        simpa using this
      subst this
      exact_mod_cast e2.trans e2'.symm

/-- The squared amplitude does not depend on the choice of spinors and polarisation vectors. -/
theorem squared_basis (hm : ∀ n : Fin 4, msq (p n) = S.mass c n ^ 2) (h0 : ∀ n b, S.leg n = .boson b → b.massive = true → b ≠ .higgs → c.bosonMass b ≠ 0) (hg : S.Gauge c p)
    {u v : Fin 4 → Fin 3 → Spinor} {ε η : Fin 4 → Fin 3 → Vec} (h : ∀ n, S.Complete c p n (u n) (ε n)) (h' : ∀ n, S.Complete c p n (v n) (η n)) : S.squared c p u ε = S.squared c p v η := by
  unfold squared
  refine congrArg (· / _) ?_
  have e : ∀ (u : Fin 4 → Fin 3 → Spinor) (ε : Fin 4 → Fin 3 → Vec), (∑ s ∈ Fintype.piFinset S.spins, ∑ κ ∈ Fintype.piFinset S.colours, ∑ γ ∈ Fintype.piFinset S.gluons,
      ‖S.amplitude c p κ γ (fun n => u n (s n)) (fun n => ε n (s n))‖ ^ 2) = ∑ κ ∈ Fintype.piFinset S.colours, ∑ γ ∈ Fintype.piFinset S.gluons, ∑ s ∈ Fintype.piFinset S.spins,
      ‖S.amplitude c p κ γ (fun n => u n (s n)) (fun n => ε n (s n))‖ ^ 2 := by
    intro u ε
    rw [Finset.sum_comm]
    exact Finset.sum_congr rfl fun κ _ => Finset.sum_comm
  rw [e, e]
  refine Finset.sum_congr rfl fun κ _ => Finset.sum_congr rfl fun γ _ => ?_
  refine swap_legs (X := Spinor × Vec) (F := fun w => ‖S.amplitude c p κ γ (fun n => (w n).1) (fun n => (w n).2)‖ ^ 2) (x := fun n s => (u n s, ε n s)) (y := fun n s => (v n s, η n s))
    (fun n x => S.Shell c p n x.1 x.2) (fun n s hs => S.complete_shell hm h0 (h n) hs) (fun n s hs => S.complete_shell hm h0 (h' n) hs) fun n w hw => ?_
  have up : ∀ x : Spinor × Vec, (fun m => (Function.update w n x m).1) = Function.update (fun m => (w m).1) n x.1 ∧ (fun m => (Function.update w n x m).2) = Function.update (fun m => (w m).2) n x.2 := by
    intro x
    constructor <;> funext m <;> by_cases hmn : m = n
    · subst hmn; simp
    · simp [hmn]
    · subst hmn; simp
    · simp [hmn]
  simp only [(up _).1, (up _).2]
  exact S.leg_basis hg (h n) (h' n) κ γ _ _ hw

end Spec.Reaction
end Spinas
