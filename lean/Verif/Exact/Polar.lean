import Verif.Exact.Bosons

/-! Amplitudes with bosons in two-component spinors: polarisation vectors made of an angle and a square spinor, and the values of the diagrams. -/

namespace Spinas
open Spec Props Matrix

/-! ### two-component spinors -/

/-- `[S|q|A>` -/
def mb (S : V2) (q : V4 ℝ) (A : V2) : ℂ := sb S (slashUpper q *ᵥ A)

theorem mb_eq (S : V2) (q : V4 ℝ) (A : V2) : mb S q A = S 0 * ((q.t + q.z) * A 1 + (-q.x - q.y * Complex.I) * A 0) - S 1 * ((q.t - q.z) * A 0 + (-q.x + q.y * Complex.I) * A 1) := by
  simp [mb, sb, slashUpper, mulVec, dotProduct, Fin.sum_univ_two, -mul_eq_mul_left_iff]; ring
theorem mb_lower (S : V2) (q : V4 ℝ) (A : V2) : ab A (slashLower q *ᵥ S) = mb S q A := by
  rw [mb_eq]
  simp [ab, slashLower, mulVec, dotProduct, Fin.sum_univ_two]; ring
theorem mb_upper (S : V2) (q : V4 ℝ) (A : V2) : sb S (slashUpper q *ᵥ A) = mb S q A := rfl
theorem mb_plus (S : V2) (q r : V4 ℝ) (A : V2) : mb S (plus q r) A = mb S q A + mb S r A := by simp only [mb_eq, plus]; push_cast; ring
theorem mb_backward (S : V2) (q : V4 ℝ) (A : V2) : mb S (backward q) A = -mb S q A := by simp only [mb_eq, backward]; push_cast; ring

theorem ab_add_left (x y z : V2) : ab (x + y) z = ab x z + ab y z := by simp [ab]; ring
theorem ab_add_right (x y z : V2) : ab z (x + y) = ab z x + ab z y := by simp [ab]; ring
theorem sb_add_left (x y z : V2) : sb (x + y) z = sb x z + sb y z := by simp [sb]; ring
theorem sb_add_right (x y z : V2) : sb z (x + y) = sb z x + sb z y := by simp [sb]; ring
theorem ab_smul_left (a : ℂ) (x z : V2) : ab (a • x) z = a * ab x z := by simp [ab]; ring
theorem ab_smul_right (a : ℂ) (x z : V2) : ab z (a • x) = a * ab z x := by simp [ab]; ring
theorem sb_smul_left (a : ℂ) (x z : V2) : sb (a • x) z = a * sb x z := by simp [sb]; ring
theorem sb_smul_right (a : ℂ) (x z : V2) : sb z (a • x) = a * sb z x := by simp [sb]; ring
theorem mb_add_left (x y : V2) (q : V4 ℝ) (z : V2) : mb (x + y) q z = mb x q z + mb y q z := sb_add_left ..
theorem mb_add_right (x y : V2) (q : V4 ℝ) (z : V2) : mb z q (x + y) = mb z q x + mb z q y := by simp only [mb, Matrix.mulVec_add, sb_add_right]
theorem mb_smul_left (a : ℂ) (x : V2) (q : V4 ℝ) (z : V2) : mb (a • x) q z = a * mb x q z := sb_smul_left ..
theorem mb_smul_right (a : ℂ) (x : V2) (q : V4 ℝ) (z : V2) : mb z q (a • x) = a * mb z q x := by simp only [mb, Matrix.mulVec_smul, sb_smul_right]
theorem ab_self (x : V2) : ab x x = 0 := by simp [ab]; ring
theorem sb_self (x : V2) : sb x x = 0 := by simp [sb]; ring

/-- the vector of an angle and a square spinor: `<A|sigma^mu|S]/2` -/
noncomputable def pv (A S : V2) : Vec := ![(A 1 * S 0 - A 0 * S 1) / 2, (A 0 * S 0 - A 1 * S 1) / 2, Complex.I * (A 0 * S 0 + A 1 * S 1) / 2, (-(A 0 * S 1) - A 1 * S 0) / 2]

theorem pv_add_left (x y z : V2) : pv (x + y) z = pv x z + pv y z := by
  ext i; fin_cases i <;> simp [pv] <;> ring
theorem pv_add_right (x y z : V2) : pv z (x + y) = pv z x + pv z y := by
  ext i; fin_cases i <;> simp [pv] <;> ring
theorem pv_smul_left (a : ℂ) (x z : V2) : pv (a • x) z = a • pv x z := by
  ext i; fin_cases i <;> simp [pv] <;> ring
theorem pv_smul_right (a : ℂ) (x z : V2) : pv z (a • x) = a • pv z x := by
  ext i; fin_cases i <;> simp [pv] <;> ring

theorem contract_pv (A S A' S' : V2) : contract (pv A S) (pv A' S') = -(ab A A' * sb S S') / 2 := by
  simp [contract, pv, metric, Fin.sum_univ_four, ab, sb]
  ring_nf
  simp only [Complex.I_sq]
  ring
theorem contract_four_pv (k : V4 ℝ) (A S : V2) : contract (four k) (pv A S) = mb S k A / 2 := by
  rw [mb_eq]
  simp [contract, pv, four, metric, Fin.sum_univ_four]
  ring
theorem contract_four_four (k l : V4 ℝ) : contract (four k) (four l) = (dot k l : ℂ) := by
  simp [contract, four, metric, Fin.sum_univ_four, dot]
  ring

/-! ### spinors and vertices, conjugated -/

def sp (x y : V2) : Spinor := ![x 0, x 1, y 0, y 1]

/-- conjugate of a product with a matrix -/
theorem star_line (e e' : ℝ) (A S A' S' : V2) (M : M4) : star (bar (spX e A S) ⬝ᵥ (M *ᵥ spY e' A' S')) =
    ![A' 1, -A' 0, -e' * S' 1, e' * S' 0] ⬝ᵥ (Mᴴ *ᵥ sp A ((-e : ℂ) • S)) := by
  rw [← Matrix.star_dotProduct_star, Matrix.star_mulVec, ← Matrix.dotProduct_mulVec]
  have h1 : star (spY e' A' S') = ![A' 1, -A' 0, -e' * S' 1, e' * S' 0] := by
    ext i; fin_cases i <;> simp [spY]
  have h2 : star (bar (spX e A S)) = sp A ((-e : ℂ) • S) := by
    ext i; fin_cases i <;> simp [spX, bar_apply, sp]
  rw [h1, h2]

theorem dual_sp (e : ℝ) (A S x y : V2) : ![A 1, -A 0, -e * S 1, e * S 0] ⬝ᵥ sp x y = ab A x + e * sb S y := by
  simp [sp, dotProduct, Fin.sum_univ_four, ab, sb]; ring

/-- `E_mu sigma^mu` of both kinds -/
def lowV (E : Vec) (y : V2) : V2 := ![(E 0 + E 3) * y 0 + (E 1 - Complex.I * E 2) * y 1, (E 1 + Complex.I * E 2) * y 0 + (E 0 - E 3) * y 1]
def upV (E : Vec) (x : V2) : V2 := ![(E 0 - E 3) * x 0 - (E 1 - Complex.I * E 2) * x 1, -(E 1 + Complex.I * E 2) * x 0 + (E 0 + E 3) * x 1]

theorem slashV_sp (E : Vec) (x y : V2) : (slashV (star E))ᴴ *ᵥ sp x y = sp (lowV E y) (upV E x) := by
  have h : slashV (star E) = (!![0, 0, star (E 0) - star (E 3), -star (E 1) + star (E 2) * Complex.I; 0, 0, -star (E 1) - star (E 2) * Complex.I, star (E 0) + star (E 3);
      star (E 0) + star (E 3), star (E 1) - star (E 2) * Complex.I, 0, 0; star (E 1) + star (E 2) * Complex.I, star (E 0) - star (E 3), 0, 0] : M4) := by
    ext i j
    simp only [slashV, Fin.sum_univ_four, Matrix.add_apply, Matrix.smul_apply]
    fin_cases i <;> fin_cases j <;> simp [gamma, metric] <;> ring
  rw [h]
  ext i
  fin_cases i <;> simp [sp, lowV, upV, mulVec, dotProduct, Fin.sum_univ_four, -mul_eq_mul_right_iff] <;> ring
theorem slash_sp (q : V4 ℝ) (x y : V2) : (slash q)ᴴ *ᵥ sp x y = sp (slashLower q *ᵥ y) (slashUpper q *ᵥ x) := by
  rw [slash_apply]
  ext i
  fin_cases i <;> simp [sp, slashLower, slashUpper, mulVec, dotProduct, Fin.sum_univ_four, Fin.sum_univ_two, -mul_eq_mul_right_iff] <;> ring
theorem chiral_sp (gL gR : ℝ) (x y : V2) : (chiral gL gR)ᴴ *ᵥ sp x y = sp ((gL : ℂ) • x) ((gR : ℂ) • y) := by
  ext i
  fin_cases i <;> simp [sp, chiral, mulVec_diagonal, Matrix.diagonal_conjTranspose]

theorem sp_add (x y x' y' : V2) : sp x y + sp x' y' = sp (x + x') (y + y') := by
  ext i; fin_cases i <;> simp [sp]
theorem sp_smul (a : ℂ) (x y : V2) : a • sp x y = sp (a • x) (a • y) := by
  ext i; fin_cases i <;> simp [sp]

theorem lowV_pv (A S y : V2) : lowV (pv A S) y = sb S y • A := by
  ext i; fin_cases i <;> simp [lowV, pv, sb] <;> ring_nf <;> simp only [Complex.I_sq] <;> ring
theorem upV_pv (A S x : V2) : upV (pv A S) x = ab A x • S := by
  ext i; fin_cases i <;> simp [upV, pv, ab] <;> ring_nf <;> simp only [Complex.I_sq] <;> ring
theorem lowV_four (k : V4 ℝ) (y : V2) : lowV (four k) y = slashLower k *ᵥ y := by
  ext i; fin_cases i <;> simp [lowV, four, slashLower, mulVec, dotProduct, Fin.sum_univ_two, -mul_eq_mul_right_iff] <;> ring
theorem upV_four (k : V4 ℝ) (x : V2) : upV (four k) x = slashUpper k *ᵥ x := by
  ext i; fin_cases i <;> simp [upV, four, slashUpper, mulVec, dotProduct, Fin.sum_univ_two, -mul_eq_mul_right_iff] <;> ring
theorem lowV_add (E E' : Vec) (y : V2) : lowV (E + E') y = lowV E y + lowV E' y := by
  ext i; fin_cases i <;> simp [lowV] <;> ring
theorem upV_add (E E' : Vec) (y : V2) : upV (E + E') y = upV E y + upV E' y := by
  ext i; fin_cases i <;> simp [upV] <;> ring
theorem lowV_smul (a : ℂ) (E : Vec) (y : V2) : lowV (a • E) y = a • lowV E y := by
  ext i; fin_cases i <;> simp [lowV] <;> ring
theorem upV_smul (a : ℂ) (E : Vec) (y : V2) : upV (a • E) y = a • upV E y := by
  ext i; fin_cases i <;> simp [upV] <;> ring

/-! ### couplings to fermions -/

namespace Spec
/-- couplings of a vector boson to left-handed and right-handed fermions -/
noncomputable def Constants.hL (c : Constants) (f : Flavour) : Boson → ℝ
  | .higgs => 0
  | .photon => c.e * f.charge
  | .z => c.e / (c.SW * c.CW) * c.gL f
  | .wPlus | .wMinus => c.e / (√2 * c.SW)
  | .gluon => c.gs
noncomputable def Constants.hR (c : Constants) (f : Flavour) : Boson → ℝ
  | .higgs => 0
  | .photon => c.e * f.charge
  | .z => c.e / (c.SW * c.CW) * c.gR f
  | .wPlus | .wMinus => 0
  | .gluon => c.gs
/-- coupling of the Higgs boson -/
noncomputable def Constants.yuk (c : Constants) (f : Flavour) : ℝ := -(c.mass f * c.invVev)

theorem chiral_smul (a : ℝ) (gL gR : ℝ) : ((a : ℝ) : ℂ) • chiral gL gR = chiral ((a * gL : ℝ) : ℂ) ((a * gR : ℝ) : ℂ) := by
  ext i j; fin_cases i <;> fin_cases j <;> simp [chiral]
theorem chiral_one (a : ℝ) (M : M4) : (a : ℂ) • M = M * chiral a a := by
  ext i j; fin_cases j <;> simp [chiral, Matrix.mul_apply, Fin.sum_univ_four, Matrix.diagonal_apply] <;> ring

theorem absorb_vector (c : Constants) (f : Flavour) (ε : Vec) {b : Boson} (hb : b ≠ .higgs) : absorb c f ε b = slashV ε * chiral (c.hL f b) (c.hR f b) := by
  cases b
  · exact absurd rfl hb
  · exact chiral_one _ _
  · rw [absorb, ← Matrix.mul_smul, chiral_smul]; rfl
  · rw [absorb, ← Matrix.mul_smul, show chiral 1 0 = chiral (1 : ℝ) (0 : ℝ) by simp, chiral_smul]; simp [Constants.hL, Constants.hR]
  · rw [absorb, ← Matrix.mul_smul, show chiral 1 0 = chiral (1 : ℝ) (0 : ℝ) by simp, chiral_smul]; simp [Constants.hL, Constants.hR]
  · exact chiral_one _ _

/-- action of a vertex, conjugated -/
theorem absorb_sp (c : Constants) (f : Flavour) (A S x y : V2) {b : Boson} (hb : b ≠ .higgs) :
    (absorb c f (star (pv A S)) b)ᴴ *ᵥ sp x y = sp ((c.hL f b * sb S y : ℂ) • A) ((c.hR f b * ab A x : ℂ) • S) := by
  rw [absorb_vector c f _ hb, Matrix.conjTranspose_mul, ← Matrix.mulVec_mulVec, slashV_sp, chiral_sp, lowV_pv, upV_pv, smul_smul, smul_smul]
theorem absorb_general (c : Constants) (f : Flavour) (E : Vec) (x y : V2) {b : Boson} (hb : b ≠ .higgs) :
    (absorb c f (star E) b)ᴴ *ᵥ sp x y = sp ((c.hL f b : ℂ) • lowV E y) ((c.hR f b : ℂ) • upV E x) := by
  rw [absorb_vector c f _ hb, Matrix.conjTranspose_mul, ← Matrix.mulVec_mulVec, slashV_sp, chiral_sp]
theorem absorb_higgs_sp (c : Constants) (f : Flavour) (ε : Vec) (x y : V2) : (absorb c f ε .higgs)ᴴ *ᵥ sp x y = sp ((c.yuk f : ℂ) • x) ((c.yuk f : ℂ) • y) := by
  rw [absorb, Matrix.conjTranspose_smul, Matrix.conjTranspose_one, Matrix.smul_mulVec, Matrix.one_mulVec, sp_smul]
  simp [Constants.yuk]
theorem propagator_sp (q : V4 ℝ) (m : ℝ) (x y : V2) : (slash q + (m : ℂ) • 1)ᴴ *ᵥ sp x y = sp (slashLower q *ᵥ y + (m : ℂ) • x) (slashUpper q *ᵥ x + (m : ℂ) • y) := by
  rw [Matrix.conjTranspose_add, Matrix.add_mulVec, slash_sp, Matrix.conjTranspose_smul, Matrix.conjTranspose_one, Matrix.smul_mulVec, Matrix.one_mulVec, sp_smul, sp_add]
  simp

section
variable (c : Constants) {f x g : Flavour} (l k k' : V4 ℝ) (e e' : ℝ) (Ai Si Aj Sj A S A' S' : V2) (ε ε' : Vec) {a b : Boson}

theorem compton_some (w w' : Spinor) (h : after a f = some x) (h' : after b x = some g) : compton c f g l w w' ⟨a, k, ε⟩ ⟨b, k', ε'⟩ =
    bar w' ⬝ᵥ ((absorb c x ε' b * (slash (plus l k) + (c.mass x : ℂ) • 1) * absorb c f ε a) *ᵥ w) / ((msq (plus l k) - c.mass x ^ 2 : ℝ) : ℂ) := by
  unfold compton
  simp only [h, h', if_true]
theorem compton_none (w w' : Spinor) (h : ∀ x, after a f = some x → after b x ≠ some g) : compton c f g l w w' ⟨a, k, ε⟩ ⟨b, k', ε'⟩ = 0 := by
  unfold compton
  cases ha : after a f with
  | none => rfl
  | some x => simp only; rw [if_neg (h x ha)]

theorem compton_star (h : after a f = some x) (h' : after b x = some g) : star (compton c f g l (spY e' Aj Sj) (spX e Ai Si) ⟨a, k, ε⟩ ⟨b, k', ε'⟩) =
    ![Aj 1, -Aj 0, -e' * Sj 1, e' * Sj 0] ⬝ᵥ ((absorb c f ε a)ᴴ *ᵥ ((slash (plus l k) + (c.mass x : ℂ) • 1)ᴴ *ᵥ ((absorb c x ε' b)ᴴ *ᵥ sp Ai ((-e : ℂ) • Si)))) / ((msq (plus l k) - c.mass x ^ 2 : ℝ) : ℂ) := by
  rw [compton_some c l k k' ε ε' _ _ h h', star_div₀, star_line, Matrix.conjTranspose_mul, Matrix.conjTranspose_mul, ← Matrix.mulVec_mulVec, ← Matrix.mulVec_mulVec]
  simp

/-- two vector bosons -/
theorem compton_vv (h : after a f = some x) (h' : after b x = some g) (ha : a ≠ .higgs) (hb : b ≠ .higgs) :
    star (compton c f g l (spY e' Aj Sj) (spX e Ai Si) ⟨a, k, star (pv A S)⟩ ⟨b, k', star (pv A' S')⟩) =
    (c.hL f a * ab Aj A * (c.mass x * c.hR x b * ab A' Ai * sb S S' - e * c.hL x b * sb S' Si * mb S (plus l k) A') +
      e' * c.hR f a * sb Sj S * (c.hR x b * ab A' Ai * mb S' (plus l k) A - e * c.mass x * c.hL x b * sb S' Si * ab A A')) / ((msq (plus l k) - c.mass x ^ 2 : ℝ) : ℂ) := by
  rw [compton_star c l k k' e e' Ai Si Aj Sj _ _ h h', absorb_sp c x _ _ _ _ hb, propagator_sp, absorb_sp c f _ _ _ _ ha, dual_sp]
  congr 1
  simp only [ab_smul_right, sb_smul_right, ab_add_right, sb_add_right, Matrix.mulVec_smul, mb_lower, mb_upper]
  ring
/-- a Higgs boson, then a vector boson -/
theorem compton_hv (h : after .higgs f = some x) (h' : after b x = some g) (hb : b ≠ .higgs) :
    star (compton c f g l (spY e' Aj Sj) (spX e Ai Si) ⟨.higgs, k, ε⟩ ⟨b, k', star (pv A' S')⟩) =
    c.yuk f * (c.hR x b * ab A' Ai * mb S' (plus l k) Aj - e * c.mass x * c.hL x b * sb S' Si * ab Aj A' +
      e' * (c.mass x * c.hR x b * ab A' Ai * sb Sj S' - e * c.hL x b * sb S' Si * mb Sj (plus l k) A')) / ((msq (plus l k) - c.mass x ^ 2 : ℝ) : ℂ) := by
  rw [compton_star c l k k' e e' Ai Si Aj Sj _ _ h h', absorb_sp c x _ _ _ _ hb, propagator_sp, absorb_higgs_sp, dual_sp]
  congr 1
  simp only [ab_smul_right, sb_smul_right, ab_add_right, sb_add_right, Matrix.mulVec_smul, mb_lower, mb_upper]
  ring
/-- a vector boson, then a Higgs boson -/
theorem compton_vh (h : after a f = some x) (h' : after .higgs x = some g) (ha : a ≠ .higgs) :
    star (compton c f g l (spY e' Aj Sj) (spX e Ai Si) ⟨a, k, star (pv A S)⟩ ⟨.higgs, k', ε'⟩) =
    c.yuk x * (c.hL f a * ab Aj A * (mb S (plus l k) Ai - e * c.mass x * sb S Si) + e' * c.hR f a * sb Sj S * (c.mass x * ab A Ai - e * mb Si (plus l k) A)) / ((msq (plus l k) - c.mass x ^ 2 : ℝ) : ℂ) := by
  rw [compton_star c l k k' e e' Ai Si Aj Sj _ _ h h', absorb_higgs_sp, propagator_sp, absorb_sp c f _ _ _ _ ha, dual_sp]
  congr 1
  simp only [ab_smul_right, sb_smul_right, ab_add_right, sb_add_right, Matrix.mulVec_smul, mb_lower, mb_upper]
  ring
/-- two Higgs bosons -/
theorem compton_hh (h : after .higgs f = some x) (h' : after .higgs x = some g) :
    star (compton c f g l (spY e' Aj Sj) (spX e Ai Si) ⟨.higgs, k, ε⟩ ⟨.higgs, k', ε'⟩) =
    c.yuk f * c.yuk x * (c.mass x * (ab Aj Ai - e * e' * sb Sj Si) + e' * mb Sj (plus l k) Ai - e * mb Si (plus l k) Aj) / ((msq (plus l k) - c.mass x ^ 2 : ℝ) : ℂ) := by
  rw [compton_star c l k k' e e' Ai Si Aj Sj _ _ h h', absorb_higgs_sp, propagator_sp, absorb_higgs_sp, dual_sp]
  congr 1
  simp only [ab_smul_right, sb_smul_right, ab_add_right, sb_add_right, Matrix.mulVec_smul, mb_lower, mb_upper]
  ring

/-! ### bosons that become one boson -/

/-- a line absorbs a vector -/
noncomputable def lineV (gL gR : ℝ) (E : Vec) : ℂ := e' * gR * sb Sj (upV E Ai) - e * gL * ab Aj (lowV E Si)
noncomputable def lineH : ℂ := ab Aj Ai - e * e' * sb Sj Si

theorem vertex_v {a : Boson} (h : after a f = some g) (ha : a ≠ .higgs) (E : Vec) : star (vertex c f g (spY e' Aj Sj) (spX e Ai Si) (star E) a) = lineV e e' Ai Si Aj Sj (c.hL f a) (c.hR f a) E := by
  rw [vertex, if_pos h, star_line, absorb_general c f _ _ _ ha, dual_sp]
  have : lowV E ((-e : ℂ) • Si) = (-e : ℂ) • lowV E Si := by ext i; fin_cases i <;> simp [lowV] <;> ring
  rw [this]
  simp only [ab_smul_right, sb_smul_right, lineV]
  ring
theorem vertex_h (h : after .higgs f = some g) (ε : Vec) : star (vertex c f g (spY e' Aj Sj) (spX e Ai Si) ε .higgs) = c.yuk f * lineH e e' Ai Si Aj Sj := by
  rw [vertex, if_pos h, star_line, absorb_higgs_sp, dual_sp]
  simp only [ab_smul_right, sb_smul_right, lineH]
  ring
theorem vertex_none (w w' : Spinor) {a : Boson} (h : after a f ≠ some g) : vertex c f g w w' ε a = 0 := by
  rw [vertex, if_neg h]

theorem lineV_pv (gL gR : ℝ) : lineV e e' Ai Si Aj Sj gL gR (pv A S) = e' * gR * ab A Ai * sb Sj S - e * gL * sb S Si * ab Aj A := by
  simp only [lineV, lowV_pv, upV_pv, ab_smul_right, sb_smul_right]; ring
theorem lineV_four (gL gR : ℝ) (k : V4 ℝ) : lineV e e' Ai Si Aj Sj gL gR (four k) = e' * gR * mb Sj k Ai - e * gL * mb Si k Aj := by
  simp only [lineV, lowV_four, upV_four, mb_lower, mb_upper]
theorem lineV_add (gL gR : ℝ) (E E' : Vec) : lineV e e' Ai Si Aj Sj gL gR (E + E') = lineV e e' Ai Si Aj Sj gL gR E + lineV e e' Ai Si Aj Sj gL gR E' := by
  simp only [lineV, lowV_add, upV_add, ab_add_right, sb_add_right]; ring
theorem lineV_smul (gL gR : ℝ) (t : ℂ) (E : Vec) : lineV e e' Ai Si Aj Sj gL gR (t • E) = t * lineV e e' Ai Si Aj Sj gL gR E := by
  simp only [lineV, lowV_smul, upV_smul, ab_smul_right, sb_smul_right]; ring

end

/-! conjugation of the bosonic vertices -/

theorem star_contract (u v : Vec) : star (contract (star u) (star v)) = contract u v := by
  simp [contract, metric, Fin.sum_univ_four]
theorem star_contract_four (k : V4 ℝ) (v : Vec) : star (contract (four k) (star v)) = contract (four k) v := by
  simp [contract, metric, four, Fin.sum_univ_four]
theorem star_four (k : V4 ℝ) : star (four k) = four k := by
  ext i; fin_cases i <;> simp [four]
theorem yangMills_star (k₁ k₂ : V4 ℝ) (u v : Vec) : yangMills k₁ (star u) k₂ (star v) = star (yangMills k₁ u k₂ v) := by
  ext i
  fin_cases i <;> simp [yangMills, contract, metric, four, Fin.sum_univ_four]

/-- propagator with the conjugate denominator -/
noncomputable def carry (c : Constants) (x : Boson) (q : V4 ℝ) (J : Vec) : Vec :=
  (pole (c.bosonMass x) (c.bosonWidth x) q)⁻¹ • (-J + if x.massive then (contract (four q) J / (c.bosonMass x ^ 2 : ℝ)) • four q else 0)

theorem propagate_star (c : Constants) (x : Boson) (q : V4 ℝ) (J : Vec) : propagate c x q (star J) = star (carry c x q J) := by
  have e : contract (four q) (star J) = star (contract (four q) J) := by rw [← star_contract_four, star_star]
  unfold propagate carry
  rw [star_smul, star_add, star_neg, star_inv₀, e]
  have : star (pole (c.bosonMass x) (c.bosonWidth x) q) = denominator c x q := by rw [pole, star_star]; rfl
  rw [this]
  congr 2
  split_ifs
  · rw [star_smul, star_four, star_div₀]; simp
  · simp

theorem toVector_star (c : Constants) (a b : Line) (x : Boson) : toVector c ⟨a.boson, a.k, star a.ε⟩ ⟨b.boson, b.k, star b.ε⟩ x = star (toVector c a b x) := by
  unfold toVector
  split_ifs
  · simp [star_smul]
  · simp [star_smul]
  · rw [yangMills_star]; simp [star_smul]

theorem toHiggs_star (c : Constants) (a b : Line) : star (toHiggs c ⟨a.boson, a.k, star a.ε⟩ ⟨b.boson, b.k, star b.ε⟩) = toHiggs c a b := by
  unfold toHiggs
  simp only
  split_ifs
  · simp
  · rw [star_mul', star_contract]; simp

end Spec
end Spinas
