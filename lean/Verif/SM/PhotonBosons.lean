import Verif.SM.FourBosons
import Verif.SM.LightLine

/-! Amplitudes of photons, W bosons and other bosons: symmetry, Ward identity, and photons on W bosons in spinors. -/

namespace Spinas
open Spec Matrix Props

noncomputable section

namespace Spec

/-! ### the amplitude of four bosons is symmetric -/

theorem seagull_comm₁ (c : Constants) (a b d e : Line) : seagull c b a d e = seagull c a b d e := by
  unfold seagull; simp only [and_comm]
theorem seagull_comm₂ (c : Constants) (a b d e : Line) : seagull c a b e d = seagull c a b d e := by
  unfold seagull; rw [higgs2_comm, contract_swap]
theorem gauge4_comm₁ (c : Constants) (a b d e : Line) : gauge4 c b a d e = gauge4 c a b d e := by
  unfold gauge4
  simp only [carriers, List.map_cons, List.map_nil, List.sum_cons, List.sum_nil, gauge3_swap c a.boson b.boson]
  push_cast; ring
theorem gauge4_comm₂ (c : Constants) (a b d e : Line) : gauge4 c a b e d = gauge4 c a b d e := by
  unfold gauge4
  simp only [carriers, List.map_cons, List.map_nil, List.sum_cons, List.sum_nil, gauge3_swap c d.boson e.boson]
  push_cast; ring
theorem gauge4_flip (c : Constants) (a b d e : Line) : gauge4 c d e a b = gauge4 c a b d e := by
  unfold gauge4
  simp only [carriers, List.map_cons, List.map_nil, List.sum_cons, List.sum_nil, Boson.anti, contract_swap d.ε a.ε, contract_swap e.ε b.ε, contract_swap d.ε b.ε, contract_swap e.ε a.ε]
  push_cast; ring
theorem mediated_comm₁ (c : Constants) (a b d e : Line) : mediated c b a d e = mediated c a b d e := by
  unfold mediated; rw [toHiggs_comm, plus_comm]; simp only [toVector_comm c b a]
theorem mediated_comm₂ (c : Constants) (a b d e : Line) : mediated c a b e d = mediated c a b d e := by
  unfold mediated; rw [toHiggs_comm c e d]; simp only [toVector_comm c e d]

theorem contract_four_back (k : V4 ℝ) (v : Vec) : contract (four (backward k)) v = -contract (four k) v := by
  simp only [contract, Fin.sum_univ_four, four, backward]; simp; ring
theorem denominator_back (c : Constants) (x : Boson) (q : V4 ℝ) : denominator c x (backward q) = denominator c x q := by
  unfold denominator breitWigner; rw [msq_backward]

theorem propagate_flip (c : Constants) {x y : Boson} (h : y = x.anti) {q r : V4 ℝ} (hq : r = backward q) (J K : Vec) : contract (propagate c x q J) K = contract (propagate c y r K) J := by
  have e : denominator c y r = denominator c x q := by subst h hq; rw [denominator_back]; cases x <;> rfl
  have e1 : y.massive = x.massive := by subst h; cases x <;> rfl
  have e2 : c.bosonMass y = c.bosonMass x := by subst h; cases x <;> rfl
  have f : four r = (-1 : ℂ) • four q := by subst hq; ext i; fin_cases i <;> simp [four, backward]
  have n : ∀ V : Vec, -V = (-1 : ℂ) • V := fun V => (neg_one_smul ..).symm
  unfold propagate
  rw [e, e1, e2, contract_smul_left, contract_smul_left, contract_add_left, contract_add_left, n J, n K, contract_smul_left, contract_smul_left, contract_swap K J, f]
  split_ifs
  · simp only [contract_smul_left]; ring
  · rw [contract_zero_left, contract_zero_left]

theorem mediated_flip (c : Constants) {a b d e : Line} (h : plus d.k e.k = backward (plus a.k b.k)) : mediated c d e a b = mediated c a b d e := by
  have eh : denominator c .higgs (plus d.k e.k) = denominator c .higgs (plus a.k b.k) := by rw [h, denominator_back]
  unfold mediated
  simp only [carriers, List.map_cons, List.map_nil, List.sum_cons, List.sum_nil, Boson.anti, eh]
  rw [propagate_flip c (x := .photon) (y := .photon) rfl h (toVector c a b .photon), propagate_flip c (x := .z) (y := .z) rfl h (toVector c a b .z), propagate_flip c (x := .wPlus) (y := .wMinus) rfl h (toVector c a b .wPlus),
    propagate_flip c (x := .wMinus) (y := .wPlus) rfl h (toVector c a b .wMinus)]
  ring

theorem fourBosons_swap₁₂ (c : Constants) (a b d e : Line) : fourBosons c a d b e = fourBosons c a b d e := by
  unfold fourBosons contact
  rw [mediated_comm₂ c a e b d, gauge4_comm₂ c a e b d, seagull_comm₂ c a e b d, seagull_comm₁ c b d a e]
  simp only [and_left_comm (a := d.boson = .higgs) (b := b.boson = .higgs)]
  ring
theorem fourBosons_swap₂₃ (c : Constants) (a b d e : Line) : fourBosons c a b e d = fourBosons c a b d e := by
  unfold fourBosons contact
  rw [mediated_comm₂ c a b d e, gauge4_comm₂ c a b d e, seagull_comm₂ c a b d e, seagull_comm₁ c d e a b]
  simp only [and_comm (a := e.boson = .higgs) (b := d.boson = .higgs)]
  ring
theorem fourBosons_swap₀₁ (c : Constants) {a b d e : Line} (h : plus (plus a.k b.k) (plus d.k e.k) = ⟨0, 0, 0, 0⟩) : fourBosons c b a d e = fourBosons c a b d e := by
  have h1 : plus b.k d.k = backward (plus a.k e.k) := by
    simp only [plus, V4.mk.injEq] at h; simp only [plus, backward, V4.mk.injEq]; obtain ⟨h0, h1, h2, h3⟩ := h
    refine ⟨?_, ?_, ?_, ?_⟩ <;> linarith
  have h2 : plus b.k e.k = backward (plus a.k d.k) := by
    simp only [plus, V4.mk.injEq] at h; simp only [plus, backward, V4.mk.injEq]; obtain ⟨h0, h1, h2, h3⟩ := h
    refine ⟨?_, ?_, ?_, ?_⟩ <;> linarith
  unfold fourBosons contact
  rw [mediated_comm₁ c a b d e, mediated_flip c h1, mediated_flip c h2, gauge4_comm₁ c a b d e, gauge4_flip c a e b d, gauge4_flip c a d b e, seagull_comm₁ c a b d e, seagull_comm₂ c d e a b]
  simp only [and_left_comm (a := b.boson = .higgs) (b := a.boson = .higgs)]
  ring

/-! ### Ward identity -/

section
variable (c : Constants) {k q l r : V4 ℝ} {η ζ ε : Vec}

/-- a photon polarised along its momentum on a W boson -/
theorem mediated_ward {x : Boson} (hx : x = .wPlus ∨ x = .wMinus) (hM : c.MW ≠ 0) (hW : c.WW = 0) (hk : msq k = 0) (hq : msq q = c.MW ^ 2) (hη : contract (four q) η = 0) (hD : denominator c x (plus k q) ≠ 0) (d e : Line) :
    mediated c ⟨.photon, k, four k⟩ ⟨x, q, η⟩ d e = -(gauge3 c .photon x x.anti : ℂ) * contract η (toVector c d e x.anti) := by
  have key : ∀ t : ℂ, propagate c x (plus k q) (t • yangMills k (four k) q η) = (-t) • η := fun t => by
    rw [(propagate_lin c x _).map_smul, propagate_w c hx hM hW hk hq hη hD, smul_neg, neg_smul]
  have z : ∀ x, propagate c x (plus k q) 0 = 0 := fun x => (propagate_lin c x _).map_zero
  unfold mediated
  rcases hx with rfl | rfl <;>
  simp only [carriers, List.map_cons, List.map_nil, List.sum_cons, List.sum_nil, toVector, toHiggs, higgs2, Boson.anti, gauge3, reduceCtorEq, if_false, Complex.ofReal_zero, zero_smul, z, key, contract_zero_left, contract_smul_left, false_and] <;> ring

/-- photon, Higgs boson and two W bosons -/
theorem ward_higgs (hM : c.MW ≠ 0) (hW : c.WW = 0) (hk : msq k = 0) (hq : msq q = c.MW ^ 2) (hr : msq r = c.MW ^ 2) (hη : contract (four q) η = 0) (hζ : contract (four r) ζ = 0)
    (h₁ : denominator c .wMinus (plus k q) ≠ 0) (h₂ : denominator c .wPlus (plus k r) ≠ 0) :
    fourBosons c ⟨.photon, k, four k⟩ ⟨.higgs, l, ε⟩ ⟨.wMinus, q, η⟩ ⟨.wPlus, r, ζ⟩ = 0 := by
  have z : ∀ x q, propagate c x q 0 = 0 := fun x q => (propagate_lin c x _).map_zero
  unfold fourBosons
  rw [mediated_ward c (.inr rfl) hM hW hk hq hη h₁, mediated_ward c (.inl rfl) hM hW hk hr hζ h₂]
  simp [mediated, contact, seagull, gauge4, carriers, toVector, toHiggs, higgs2, gauge3, Boson.anti, z, contract_zero_left, contract_smul, contract_swap ζ η]

/-- two photons, or a photon and a Z boson, and two W bosons -/
theorem ward_vector {x : Boson} (hx : x = .photon ∨ x = .z) (hM : c.MW ≠ 0) (hW : c.WW = 0) (hk : msq k = 0) (hq : msq q = c.MW ^ 2) (hr : msq r = c.MW ^ 2) (hε : contract (four l) ε = 0) (hη : contract (four q) η = 0) (hζ : contract (four r) ζ = 0)
    (hs : plus (plus k l) (plus q r) = ⟨0, 0, 0, 0⟩) (h₁ : denominator c .wMinus (plus k q) ≠ 0) (h₂ : denominator c .wPlus (plus k r) ≠ 0) :
    fourBosons c ⟨.photon, k, four k⟩ ⟨x, l, ε⟩ ⟨.wMinus, q, η⟩ ⟨.wPlus, r, ζ⟩ = 0 := by
  have z : ∀ x q, propagate c x q 0 = 0 := fun x q => (propagate_lin c x _).map_zero
  have hl : four l = (-1 : ℂ) • (four k + four q + four r) := by
    simp only [plus, V4.mk.injEq] at hs
    obtain ⟨s0, s1, s2, s3⟩ := hs
    have e0 : l.t = -(k.t + q.t + r.t) := by linarith
    have e1 : l.x = -(k.x + q.x + r.x) := by linarith
    have e2 : l.y = -(k.y + q.y + r.y) := by linarith
    have e3 : l.z = -(k.z + q.z + r.z) := by linarith
    ext i; fin_cases i <;> simp [four, e0, e1, e2, e3] <;> ring
  have ym : ∀ {a b : V4 ℝ} {u v : Vec}, contract (four a) u = 0 → contract (four b) v = 0 → ∀ w, contract w (yangMills a u b v) = contract u v * (contract w (four a) - contract w (four b)) + 2 * contract (four b) u * contract w v - 2 * contract (four a) v * contract w u := by
    intro a b u v ha hb w
    simp only [contract, Fin.sum_univ_four, yangMills] at ha hb ⊢
    simp only [Pi.add_apply, Pi.mul_apply, Pi.ofNat_apply]
    linear_combination (metric 0 * w 0 * v 0 + metric 1 * w 1 * v 1 + metric 2 * w 2 * v 2 + metric 3 * w 3 * v 3) * ha - (metric 0 * w 0 * u 0 + metric 1 * w 1 * u 1 + metric 2 * w 2 * u 2 + metric 3 * w 3 * u 3) * hb
  have hε' : contract (four k) ε + contract (four q) ε + contract (four r) ε = 0 := by
    rw [hl, contract_smul_left, contract_add_left, contract_add_left] at hε; linear_combination -hε
  unfold fourBosons
  rw [mediated_ward c (.inr rfl) hM hW hk hq hη h₁, mediated_ward c (.inl rfl) hM hW hk hr hζ h₂]
  rcases hx with rfl | rfl <;>
  · simp only [mediated, contact, seagull, gauge4, carriers, toVector, toHiggs, higgs2, gauge3, Boson.anti, z, contract_zero_left, contract_smul, List.map_cons, List.map_nil, List.sum_cons, List.sum_nil, reduceCtorEq, if_false, false_and, and_false,
      ym hε hζ, ym hε hη, hl, contract_add, contract_swap η (four q), hη, contract_swap ζ (four r), hζ, contract_add_left, contract_smul_left, contract_swap ζ η, contract_swap η ε, contract_swap ζ ε, contract_swap η (four r), contract_swap η (four k), contract_swap ζ (four q), contract_swap ζ (four k),
      Complex.ofReal_zero, zero_smul]
    push_cast
    first | linear_combination (-2 * c.e ^ 2 * contract η ζ : ℂ) * hε' | linear_combination (-2 * c.e ^ 2 * c.CW / c.SW * contract η ζ : ℂ) * hε'
end

/-! ### a photon on a W boson -/

/-- numerator of the propagator -/
theorem dressed {k q : V4 ℝ} {ε η : Vec} {m : ℝ} (hm : m ≠ 0) (hk : msq k = 0) (hq : msq q = m ^ 2) (hε : contract (four k) ε = 0) (hη : contract (four q) η = 0) :
    -yangMills k ε q η + (contract (four (plus k q)) (yangMills k ε q η) / (m ^ 2 : ℝ)) • four (plus k q) = (-2 * contract (four q) ε) • η + (2 * contract (four k) η) • ε + (-2 * contract ε η) • four k := by
  have y : yangMills k ε q η = contract ε η • four k + (-contract ε η) • four q + (2 * contract (four q) ε) • η + (-2 * contract (four k) η) • ε := by
    ext μ
    have e1 : contract (four k + 2 * four q) ε = 2 * contract (four q) ε := by
      have : four k + 2 * four q = four k + (2 : ℂ) • four q := by ext i; simp
      rw [this, contract_add_left, contract_smul_left, hε, zero_add]
    have e2 : contract (2 * four k + four q) η = 2 * contract (four k) η := by
      have : 2 * four k + four q = (2 : ℂ) • four k + four q := by ext i; simp
      rw [this, contract_add_left, contract_smul_left, hη, add_zero]
    simp only [yangMills, e1, e2, Pi.add_apply, Pi.smul_apply, smul_eq_mul]
    ring
  have e : contract (four (plus k q)) (yangMills k ε q η) = -contract ε η * (m ^ 2 : ℝ) := by
    rw [y, four_plus]
    simp only [contract_add, contract_smul, contract_add_left, hε, hη, contract_four_four, dot_same, hk, hq, dot_comm q k]
    push_cast; ring
  have hm' : ((m ^ 2 : ℝ) : ℂ) ≠ 0 := by exact_mod_cast pow_ne_zero 2 hm
  rw [e, mul_div_cancel_right₀ _ hm', y, four_plus]
  ext μ
  simp only [Pi.add_apply, Pi.neg_apply, Pi.smul_apply, smul_eq_mul]
  ring

section
variable (c : Constants) {x : Boson} (hx : x = .wPlus ∨ x = .wMinus) (hM : c.MW ≠ 0) {k q : V4 ℝ} {z : Pair} (hl : Light k z) (hq : msq q = c.MW ^ 2) {A S : V2} (hη : mb S q A = 0)
include hx hM hl hq hη

theorem dress_plus (g : ℂ) (ρ : V2) (K : Vec) : contract (carry c x (plus k q) (g • yangMills k (pv ρ z.2) q (pv A S))) K =
    g * (-mb z.2 q ρ * contract (pv A S) K + sb z.2 S * ab ρ z.1 * contract (pv A z.2) K) / pole c.MW c.WW (plus k q) := by
  have hm : x.massive = true := by rcases hx with rfl | rfl <;> rfl
  have hb : c.bosonMass x = c.MW := by rcases hx with rfl | rfl <;> rfl
  have hw : c.bosonWidth x = c.WW := by rcases hx with rfl | rfl <;> rfl
  have d := dressed (ε := pv ρ z.2) (η := pv A S) hM hl.msq_zero hq (by rw [contract_four_pv, hl.mb_plus, zero_div]) (by rw [contract_four_pv, hη, zero_div])
  have s : (2 * contract (four k) (pv A S)) • pv ρ z.2 + (-2 * contract (pv ρ z.2) (pv A S)) • four k = (sb z.2 S * ab ρ z.1) • pv A z.2 := by
    have e : (ab z.1 A) • ρ + (ab A ρ) • z.1 + (ab ρ z.1) • A = 0 := by
      ext i; fin_cases i <;> simp [ab] <;> ring
    have f := congrArg (fun v => pv v z.2) e
    simp only [pv_add_left, pv_smul_left] at f
    have f0 : pv (0 : V2) z.2 = 0 := by ext i; fin_cases i <;> simp [pv]
    rw [f0] at f
    rw [contract_four_pv, contract_pv, hl.split, hl.mb_eq]
    ext μ
    have g := congrFun f μ
    simp only [Pi.add_apply, Pi.smul_apply, smul_eq_mul, Pi.zero_apply] at g ⊢
    have s1 : sb z.2 S = -sb S z.2 := by simp only [sb]; ring
    have s2 : ab ρ A = -ab A ρ := by simp only [ab]; ring
    rw [s1, s2]
    linear_combination sb S z.2 * g
  rw [carry, if_pos hm, hb, hw, ← smul_neg, contract_smul, mul_div_assoc, ← smul_smul, ← smul_add, d, contract_smul_left, contract_smul_left, add_assoc, s, contract_add_left, contract_smul_left, contract_smul_left, contract_four_pv]
  ring

theorem dress_minus (g : ℂ) (ρ : V2) (K : Vec) : contract (carry c x (plus k q) (g • yangMills k (pv z.1 ρ) q (pv A S))) K =
    g * (-mb ρ q z.1 * contract (pv A S) K + ab z.1 A * sb ρ z.2 * contract (pv z.1 S) K) / pole c.MW c.WW (plus k q) := by
  have hm : x.massive = true := by rcases hx with rfl | rfl <;> rfl
  have hb : c.bosonMass x = c.MW := by rcases hx with rfl | rfl <;> rfl
  have hw : c.bosonWidth x = c.WW := by rcases hx with rfl | rfl <;> rfl
  have d := dressed (ε := pv z.1 ρ) (η := pv A S) hM hl.msq_zero hq (by rw [contract_four_pv, hl.mb_minus, zero_div]) (by rw [contract_four_pv, hη, zero_div])
  have s : (2 * contract (four k) (pv A S)) • pv z.1 ρ + (-2 * contract (pv z.1 ρ) (pv A S)) • four k = (ab z.1 A * sb ρ z.2) • pv z.1 S := by
    have e : (sb S z.2) • ρ + (sb ρ S) • z.2 + (sb z.2 ρ) • S = 0 := by
      ext i; fin_cases i <;> simp [sb] <;> ring
    have f := congrArg (fun v => pv z.1 v) e
    simp only [pv_add_right, pv_smul_right] at f
    have f0 : pv z.1 (0 : V2) = 0 := by ext i; fin_cases i <;> simp [pv]
    rw [f0] at f
    rw [contract_four_pv, contract_pv, hl.split, hl.mb_eq]
    ext μ
    have g := congrFun f μ
    simp only [Pi.add_apply, Pi.smul_apply, smul_eq_mul, Pi.zero_apply] at g ⊢
    have s1 : sb z.2 ρ = -sb ρ z.2 := by simp only [sb]; ring
    rw [s1] at g
    linear_combination ab z.1 A * g
  rw [carry, if_pos hm, hb, hw, ← smul_neg, contract_smul, mul_div_assoc, ← smul_smul, ← smul_add, d, contract_smul_left, contract_smul_left, add_assoc, s, contract_add_left, contract_smul_left, contract_smul_left, contract_four_pv]
  ring
end

theorem carry_none (c : Constants) (x : Boson) (q : V4 ℝ) : carry c x q 0 = 0 := by
  unfold carry; rw [contract_zero]; simp

end Spec

/-! ### other reference spinors -/

section
variable {p : V4 ℝ} {z : Pair} (hl : Light p z) {G : Vec → ℂ} (hG : IsLinearMap ℂ G) (h0 : G (four p) = 0)
include hl hG h0
theorem light_plus_ref (ha : ab z.2 z.1 ≠ 0) {ρ : V2} (hρ : ab ρ z.1 ≠ 0) {x y : ℂ} (h : x * ab ρ z.1 = (√2 : ℝ) * y * G (pv ρ z.2)) : x = y * G (lightE z 1) := by
  refine light_plus hG ha (mul_right_cancel₀ hρ ?_)
  have e : (ab z.2 z.1) • ρ = (ab ρ z.1) • z.2 + (ab z.2 ρ) • z.1 := by ext i; fin_cases i <;> simp [ab] <;> ring
  have f := congrArg (fun v => G (pv v z.2)) e
  simp only [pv_add_left, pv_smul_left, hG.map_add, hG.map_smul, ← hl.split, h0, smul_eq_mul, mul_zero, add_zero] at f
  linear_combination ab z.2 z.1 * h + (√2 : ℝ) * y * f
theorem light_minus_ref (hs : sb z.1 z.2 ≠ 0) {ρ : V2} (hρ : sb ρ z.2 ≠ 0) {x y : ℂ} (h : x * sb ρ z.2 = (√2 : ℝ) * y * G (pv z.1 ρ)) : x = y * G (lightE z 0) := by
  refine light_minus hG hs (mul_right_cancel₀ hρ ?_)
  have e : (sb z.1 z.2) • ρ = (sb ρ z.2) • z.1 + (sb z.1 ρ) • z.2 := by ext i; fin_cases i <;> simp [sb] <;> ring
  have f := congrArg (fun v => G (pv z.1 v)) e
  simp only [pv_add_right, pv_smul_right, hG.map_add, hG.map_smul, ← hl.split, h0, smul_eq_mul, mul_zero, add_zero] at f
  linear_combination sb z.1 z.2 * h + (√2 : ℝ) * y * f
end

/-- reference spinors made of a momentum -/
def refPlus (q : V4 ℝ) (z : Pair) : V2 := -(slashLower q *ᵥ z.2)
def refMinus (q : V4 ℝ) (z : Pair) : V2 := -(slashUpper q *ᵥ z.1)
theorem ab_ref (q : V4 ℝ) (z : Pair) (Y : V2) : ab (refPlus q z) Y = mb z.2 q Y := by
  rw [← mb_lower]; simp only [refPlus, ab, Pi.neg_apply]; ring
theorem sb_ref (q : V4 ℝ) (z : Pair) (X : V2) : sb (refMinus q z) X = mb X q z.1 := by
  rw [← mb_upper]; simp only [refMinus, sb, Pi.neg_apply]; ring

/-- two reference spinors, and one with the same momentum -/
theorem ref_plus_plus {q : V4 ℝ} {z z' : Pair} {ρ ρ' : V2} (h : ∀ Y, ab ρ Y = mb z.2 q Y) (h' : ∀ Y, ab ρ' Y = mb z'.2 q Y) : mb z.2 q ρ' = -((msq q : ℝ) : ℂ) * sb z.2 z'.2 ∧ mb z.2 q ρ = 0 := by
  have e : ρ' = refPlus q z' := by
    have h0 := (h' ![1, 0]).trans (ab_ref q z' _).symm
    have h1 := (h' ![0, 1]).trans (ab_ref q z' _).symm
    simp [ab] at h0 h1
    ext i; fin_cases i <;> simp [h0, h1]
  refine ⟨?_, by rw [← h]; simp only [ab]; ring⟩
  rw [e, refPlus]
  simp [mb_eq, slashLower, Matrix.mulVec, dotProduct, Fin.sum_univ_two, sb, msq]
  linear_combination -(z.2 0 * z'.2 1 - z.2 1 * z'.2 0) * ((q.y : ℂ) ^ 2) * Complex.I_sq
theorem ref_minus_minus {q : V4 ℝ} {z z' : Pair} {ρ ρ' : V2} (h : ∀ X, sb ρ X = mb X q z.1) (h' : ∀ X, sb ρ' X = mb X q z'.1) : mb ρ' q z.1 = -((msq q : ℝ) : ℂ) * ab z.1 z'.1 ∧ mb ρ q z.1 = 0 := by
  have e : ρ' = refMinus q z' := by
    have h0 := (h' ![1, 0]).trans (sb_ref q z' _).symm
    have h1 := (h' ![0, 1]).trans (sb_ref q z' _).symm
    simp [sb] at h0 h1
    ext i; fin_cases i <;> simp [h0, h1]
  refine ⟨?_, by rw [← h]; simp only [sb]; ring⟩
  rw [e, refMinus]
  simp [mb_eq, slashUpper, Matrix.mulVec, dotProduct, Fin.sum_univ_two, ab, msq]
  linear_combination (z.1 0 * z'.1 1 - z.1 1 * z'.1 0) * ((q.y : ℂ) ^ 2) * Complex.I_sq

end
end Spinas
