import Verif.SM.Gauge
import Verif.SM.Light
import Verif.SM.FourBosons

/-! Lemmas for the classes with one fermion line and massless bosons. -/

namespace Spinas
open Spec Props Matrix

/-! ### spinor products with two momenta -/

section
variable [FPEnv]

theorem zchain_two_square (p : Nat → V4 ℝ) (m : Nat → ℝ) (i n n' k : Nat) (j j' : Int) :
    zchain p m ⟨false, i, true, [n, n'], k, true⟩ j j' = mb (zend (p i) (m i) .rsquare true j) (p n) (slashLower (p n') *ᵥ zend (p k) (m k) .rsquare true j') := by
  have := (left_eq_right (p i) (m i) true j).2
  have hk : kindR false [n, n'].length = .rsquare := by simp [kindR]
  simp only [zchain, kindL, hk, slashProd, Matrix.mul_one, Bool.false_eq_true, if_false, Bool.not_false, if_true]
  rw [this]
  generalize zend (p i) (m i) .rsquare true j = v
  generalize zend (p k) (m k) .rsquare true j' = w
  simp only [mb_eq, slashUpper, slashLower, K, dotProduct, Fin.sum_univ_two, vecMul, mulVec, Matrix.mul_apply, Pi.neg_apply, Matrix.of_apply, Matrix.cons_val', Matrix.cons_val_zero, Matrix.cons_val_one, Matrix.cons_val_fin_one]
  ring
theorem zchain_two_angle (p : Nat → V4 ℝ) (m : Nat → ℝ) (i n n' k : Nat) (j j' : Int) :
    zchain p m ⟨true, i, true, [n, n'], k, true⟩ j j' = mb (slashUpper (p n') *ᵥ zend (p k) (m k) .rangle true j') (p n) (zend (p i) (m i) .rangle true j) := by
  have := (left_eq_right (p i) (m i) true j).1
  have hk : kindR true [n, n'].length = .rangle := by simp [kindR]
  simp only [zchain, kindL, hk, slashProd, Matrix.mul_one, Bool.false_eq_true, if_false, Bool.not_true, if_true]
  rw [this]
  generalize zend (p i) (m i) .rangle true j = v
  generalize zend (p k) (m k) .rangle true j' = w
  simp only [mb_eq, slashUpper, slashLower, K, dotProduct, Fin.sum_univ_two, vecMul, mulVec, Matrix.mul_apply, Pi.neg_apply, Matrix.of_apply, Matrix.cons_val', Matrix.cons_val_zero, Matrix.cons_val_one, Matrix.cons_val_fin_one]
  ring

theorem bra_two_square {p : Nat → V4 ℝ} {m : Nat → ℝ} {i n n' k : Nat} {j j' : Int} {s s' : Fin 2} {μ μ' : ℝ} (hi : m i = μ) (hk : m k = μ')
    (h : (μ ≠ 0 ∧ j = spinOf s) ∨ (μ = 0 ∧ s = 1)) (h' : (μ' ≠ 0 ∧ j' = spinOf s') ∨ (μ' = 0 ∧ s' = 1)) :
    zchain p m ⟨false, i, true, [n, n'], k, true⟩ j j' = mb (legS (p i) μ s) (p n) (slashLower (p n') *ᵥ legS (p k) μ' s') := by
  subst hi hk
  rw [zchain_two_square, legS_code h, legS_code h']
theorem bra_two_angle {p : Nat → V4 ℝ} {m : Nat → ℝ} {i n n' k : Nat} {j j' : Int} {s s' : Fin 2} {μ μ' : ℝ} (hi : m i = μ) (hk : m k = μ')
    (h : (μ ≠ 0 ∧ j = spinOf s) ∨ (μ = 0 ∧ s = 0)) (h' : (μ' ≠ 0 ∧ j' = spinOf s') ∨ (μ' = 0 ∧ s' = 0)) :
    zchain p m ⟨true, i, true, [n, n'], k, true⟩ j j' = mb (slashUpper (p n') *ᵥ legA (p k) μ' s') (p n) (legA (p i) μ s) := by
  subst hi hk
  rw [zchain_two_angle, legA_code h, legA_code h']
end

theorem chain_square (x y S : V2) (q q' : V4 ℝ) (S' : V2) : ab x y * mb S q (slashLower q' *ᵥ S') + mb S' q' y * mb S q x - mb S' q' x * mb S q y = 0 := by
  have := mb_schouten_right S q x y (slashLower q' *ᵥ S')
  rw [mb_lower, ab_swap x (slashLower q' *ᵥ S'), mb_lower] at this
  linear_combination this
theorem chain_angle (x y A : V2) (q q' : V4 ℝ) (A' : V2) : sb x y * mb (slashUpper q' *ᵥ A') q A + mb y q' A' * mb x q A - mb x q' A' * mb y q A = 0 := by
  have := mb_schouten_left x y (slashUpper q' *ᵥ A') q A
  rw [mb_upper, sb_swap x (slashUpper q' *ᵥ A'), mb_upper] at this
  linear_combination this

/-! ### denominators -/

namespace Light
variable {k : V4 ℝ} {z : Pair} (h : Light k z)
include h

theorem mb_dot (q : V4 ℝ) : mb z.2 q z.1 = ((2 * dot k q : ℝ) : ℂ) := by
  have := contract_four_pv q z.1 z.2
  rw [← h.split, contract_four_four] at this
  have e : dot q k = dot k q := by simp only [dot]; ring
  rw [e] at this
  push_cast
  linear_combination -2 * this
theorem msq_zero : msq k = 0 := by
  have := contract_pv z.1 z.2 z.1 z.2
  rw [← h.split, contract_four_four, ab_self, zero_mul, neg_zero, zero_div] at this
  have e : dot k k = 0 := by exact_mod_cast this
  simpa [dot, msq, sq] using e
theorem pole_add {q s : V4 ℝ} {m : ℝ} (hq : msq q = m ^ 2) (hs : msq (plus k q) = msq s) {x : ℂ} (hx : x = ((msq s - m ^ 2 : ℝ) : ℂ)) : mb z.2 q z.1 = x := by
  rw [hx, ← hs, h.mb_dot, msq_plus, h.msq_zero, hq]
  congr 1; ring
theorem pole_sub {q s : V4 ℝ} {m : ℝ} (hq : msq q = m ^ 2) (hs : msq (plus k (backward q)) = msq s) {x : ℂ} (hx : x = ((msq s - m ^ 2 : ℝ) : ℂ)) : mb z.2 q z.1 = -x := by
  have e : dot k (backward q) = -dot k q := dot_backward_right k q
  rw [hx, ← hs, h.mb_dot, msq_plus, h.msq_zero, msq_backward, hq, e, ← Complex.ofReal_neg]
  congr 1; ring
theorem pole_sub' {q s : V4 ℝ} {m : ℝ} (hq : msq q = m ^ 2) (hs : msq (plus q (backward k)) = msq s) {x : ℂ} (hx : x = ((msq s - m ^ 2 : ℝ) : ℂ)) : mb z.2 q z.1 = -x :=
  h.pole_sub hq (by rw [← hs]; simp only [msq, plus, backward]; ring) hx

end Light

/-! ### polarisation vectors -/

theorem light_plus {z : Pair} {G : Vec → ℂ} (hG : IsLinearMap ℂ G) (h0 : ab z.2 z.1 ≠ 0) {x y : ℂ} (h : x * ab z.2 z.1 = (√2 : ℝ) * y * G (pv z.2 z.2)) : x = y * G (lightE z 1) := by
  have e : lightE z 1 = ((√2 : ℝ) / ab z.2 z.1 : ℂ) • pv z.2 z.2 := rfl
  rw [e, hG.map_smul, smul_eq_mul]
  field_simp
  linear_combination h
theorem light_minus {z : Pair} {G : Vec → ℂ} (hG : IsLinearMap ℂ G) (h0 : sb z.1 z.2 ≠ 0) {x y : ℂ} (h : x * sb z.1 z.2 = (√2 : ℝ) * y * G (pv z.1 z.1)) : x = y * G (lightE z 0) := by
  have e : lightE z 0 = ((√2 : ℝ) / sb z.1 z.2 : ℂ) • pv z.1 z.1 := rfl
  rw [e, hG.map_smul, smul_eq_mul]
  field_simp
  linear_combination h

theorem norm_plus {x y : ℂ} (h : x = 1 * y) : ‖x‖ = ‖y‖ := by rw [h, one_mul]
theorem norm_minus {x y : ℂ} (h : x = -1 * y) : ‖x‖ = ‖y‖ := by rw [h, neg_one_mul, norm_neg]

namespace Spec.Reaction
variable (S : Reaction) {c : Constants} {p : Nat → V4 ℝ} [FPEnv]

/-- polarisation vectors made of the spinors of the code -/
noncomputable def codeE (c : Constants) (p : Nat → V4 ℝ) (n : Fin 4) : Fin 3 → Vec := if (S.boson n).massive then S.codeVec c p n else lightE (legA (p n) 0 0, legS (p n) 0 1)

theorem mass_light {n : Fin 4} {b : Boson} (hl : S.leg n = .boson b) (hb : b.massive = false) : S.mass c n = 0 := by
  simp only [mass, hl]
  cases b <;> first | rfl | cases hb

omit [FPEnv] in
theorem light_dot {n : Fin 4} {b : Boson} (hl : S.leg n = .boson b) (hb : b.massive = false) {u : Fin 3 → Spinor} {ε : Fin 3 → Vec} (hu : S.Complete c p n u ε) : ∃ q : V4 ℝ, dot q (p n) ≠ 0 := by
  unfold Complete at hu
  rw [hl] at hu
  cases b
  · cases hb
  · obtain ⟨q, _, h, _⟩ := hu; exact ⟨q, h⟩
  · cases hb
  · cases hb
  · cases hb
  · obtain ⟨q, _, h, _⟩ := hu; exact ⟨q, h⟩

theorem codeE_polarised (hp : ∀ n : Fin 4, OnShell (p n) (S.mass c n)) (hm : ∀ n, 0 ≤ S.mass c n) {u : Fin 4 → Fin 3 → Spinor} {ε : Fin 4 → Fin 3 → Vec} (hu : ∀ n, S.Complete c p n (u n) (ε n))
    (h0 : ∀ b : Boson, b.massive = true → c.bosonMass b ≠ 0) (n : Fin 4) (b : Boson) (hl : S.leg n = .boson b) : Polarised c (p n) b (S.codeE c p n) := by
  have eb : S.boson n = b := by simp [boson, hl]
  unfold codeE
  rw [eb]
  cases hb : b.massive
  · rw [if_neg (by simp)]
    have hs := hp n
    rw [S.mass_light hl hb] at hs
    obtain ⟨q, hq⟩ := S.light_dot hl hb (hu n)
    exact (light_code hs).polarised c (by simpa using onShell_msq hs) hq hb
  · rw [if_pos rfl]
    exact S.codeVec_polarised hp hm hl hb fun _ => h0 b hb

/-- the spinors of a massless boson -/
theorem code_light (hp : ∀ n : Fin 4, OnShell (p n) (S.mass c n)) {u : Fin 4 → Fin 3 → Spinor} {ε : Fin 4 → Fin 3 → Vec} (hu : ∀ n, S.Complete c p n (u n) (ε n)) {n : Fin 4} {b : Boson} (hl : S.leg n = .boson b) (hb : b.massive = false) :
    Light (p n) (legA (p n) 0 0, legS (p n) 0 1) ∧ ab (legS (p n) 0 1) (legA (p n) 0 0) ≠ 0 ∧ sb (legA (p n) 0 0) (legS (p n) 0 1) ≠ 0 := by
  have hs := hp n
  rw [S.mass_light hl hb] at hs
  have l := light_code hs
  obtain ⟨q, hq⟩ := S.light_dot hl hb (hu n)
  exact ⟨l, l.angle_ne (light_energy l.msq_zero hq)⟩

end Spec.Reaction
/-! ### the vertex of a photon and two W bosons -/

section
variable {k k' : V4 ℝ} {A S A' S' : V2} (h : mb S k A = 0) (h' : mb S' k' A' = 0)
include h h'
theorem yangMills_transverse : yangMills k (pv A S) k' (pv A' S') = (-(ab A A' * sb S S') / 2) • (four k + (-1 : ℂ) • four k') + (mb S k' A) • pv A' S' + (-mb S' k A') • pv A S := by
  have c1 : contract (four k + 2 * four k') (pv A S) = mb S k' A := by
    have : four k + 2 * four k' = four k + (2 : ℂ) • four k' := by ext i; simp
    rw [this, (Lin.contract_left _).map_add, (Lin.contract_left _).map_smul, contract_four_pv, contract_four_pv, h, smul_eq_mul]; ring
  have c2 : contract (2 * four k + four k') (pv A' S') = mb S' k A' := by
    have : 2 * four k + four k' = (2 : ℂ) • four k + four k' := by ext i; simp
    rw [this, (Lin.contract_left _).map_add, (Lin.contract_left _).map_smul, contract_four_pv, contract_four_pv, h', smul_eq_mul]; ring
  ext μ
  rw [yangMills, c1, c2, contract_pv]
  simp only [Pi.add_apply, Pi.smul_apply, smul_eq_mul]
  ring
theorem lineV_transverse (e e' : ℝ) (Ai Si Aj Sj : V2) (gL gR : ℝ) : lineV e e' Ai Si Aj Sj gL gR (yangMills k (pv A S) k' (pv A' S')) =
    (-(ab A A' * sb S S') / 2) * (lineV e e' Ai Si Aj Sj gL gR (four k) - lineV e e' Ai Si Aj Sj gL gR (four k')) + mb S k' A * lineV e e' Ai Si Aj Sj gL gR (pv A' S') - mb S' k A' * lineV e e' Ai Si Aj Sj gL gR (pv A S) := by
  rw [yangMills_transverse h h']
  simp only [lineV_add, lineV_smul]
  ring
theorem four_transverse : contract (four (plus k k')) (yangMills k (pv A S) k' (pv A' S')) = -(ab A A' * sb S S') / 2 * ((msq k : ℝ) - (msq k' : ℝ)) := by
  have f : four (plus k k') = four k + four k' := by ext i; fin_cases i <;> simp [four, plus]
  rw [yangMills_transverse h h', f]
  simp only [contract_add, contract_smul, (Lin.contract_left _).map_add, contract_four_pv, contract_four_four, h, h']
  have d : ∀ q : V4 ℝ, ((dot q q : ℝ) : ℂ) = ((msq q : ℝ) : ℂ) := fun q => by simp only [dot, msq]; push_cast; ring
  have d' : dot k' k = dot k k' := by simp only [dot]; ring
  rw [d, d, d']
  ring
end
theorem Bold.mb_zero' {p : V4 ℝ} {m : ℝ} {z : Pair} (h : Bold p m z) : mb z.2 p z.1 = 0 := by have := h.transverse; rw [contract_four_pv] at this; simpa using this
theorem mb_back_zero {q : V4 ℝ} {A S : V2} (h : mb S q A = 0) : mb S (backward q) A = 0 := by rw [mb_backward, h, neg_zero]
theorem Light.mb_plus {p : V4 ℝ} {z : Pair} (h : Light p z) (ρ : V2) : mb z.2 p ρ = 0 := by rw [h.mb_eq, sb_self, mul_zero]
theorem Light.mb_minus {p : V4 ℝ} {z : Pair} (h : Light p z) (ρ : V2) : mb ρ p z.1 = 0 := by rw [h.mb_eq, ab_self, zero_mul]

end Spinas
