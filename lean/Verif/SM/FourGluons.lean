import Verif.Exact.FourGluons
import Verif.SM.Polar
import Verif.SM.PhotonRows
import Verif.Props.Gluons

/-! The class for two gluons into two gluons, with the reaction it is for: name of the class and of its parameter in SM/include/gggg.h, comments in SM/gggg.cpp. -/

namespace Spinas
open Spec Props Matrix

/-! ### the vectors of the code -/

theorem fieldD_star (k : V4 ℝ) (ε : Vec) (k' : V4 ℝ) (ε' : Vec) : fieldD k (star ε) k' (star ε') = star (fieldD k ε k' ε') := by
  have e : ∀ (k : V4 ℝ) (v : Vec), contract (four k) (star v) = star (contract (four k) v) := fun k v => by rw [← star_contract_four, star_star]
  have e' : ∀ u v : Vec, contract (star u) (star v) = star (contract u v) := fun u v => by rw [← star_contract u v, star_star]
  simp only [fieldD, e, e', star_sub, star_mul', contract_four_four, RCLike.star_def, Complex.conj_ofReal]
theorem fieldD_back_left (k : V4 ℝ) (ε : Vec) (k' : V4 ℝ) (ε' : Vec) : fieldD (backward k) ε k' ε' = -fieldD k ε k' ε' := by
  simp only [fieldD, contract_four_back]; ring
theorem fieldD_back_right (k : V4 ℝ) (ε : Vec) (k' : V4 ℝ) (ε' : Vec) : fieldD k ε (backward k') ε' = -fieldD k ε k' ε' := by
  simp only [fieldD, contract_four_back, contract_comm (four k) (four (backward k')), contract_comm (four k) (four k')]; ring

namespace Light
variable {k k' : V4 ℝ} {z z' : Pair} (h : Light k z) (h' : Light k' z')
include h h'

theorem angle_square : ab z.1 z'.1 = -star (sb z.2 z'.2) ∧ sb z.2 z'.2 * star (sb z.2 z'.2) = ((2 * dot k k' : ℝ) : ℂ) := by
  have e : ab z.1 z'.1 = -star (sb z.2 z'.2) := by
    rw [h.conj, h'.conj]; simp [ab, sb]; ring
  refine ⟨e, ?_⟩
  have := contract_four_four k k'
  rw [h.split, h'.split, contract_pv, e] at this
  push_cast
  linear_combination 2 * this

/-- two gluons of the same helicity -/
theorem fieldD_norm (h0 : k.t ≠ 0) (h0' : k'.t ≠ 0) {t : Fin 3} (ht : t = 0 ∨ t = 1) : ‖fieldD k (lightE z t) k' (lightE z' t)‖ ^ 2 = dot k k' ^ 2 := by
  obtain ⟨e, n⟩ := h.angle_square h'
  have d : ∀ {k : V4 ℝ} {z : Pair}, Light k z → k.t ≠ 0 → ab z.2 z.1 ≠ 0 ∧ sb z.1 z.2 ≠ 0 := by
    intro k z h h0
    have ht := h.components.1
    have d1 : sb z.1 z.2 = -(2 * k.t) := by rw [ht, h.conj]; simp [sb]; ring
    have d2 : ab z.2 z.1 = -(2 * k.t) := by rw [ht, h.conj]; simp [ab]; ring
    have h1 : (k.t : ℂ) ≠ 0 := by exact_mod_cast h0
    rw [d1, d2]
    exact ⟨neg_ne_zero.2 (mul_ne_zero two_ne_zero h1), neg_ne_zero.2 (mul_ne_zero two_ne_zero h1)⟩
  obtain ⟨a1, s1⟩ := d h h0
  obtain ⟨a2, s2⟩ := d h' h0'
  have r2 : ((√2 : ℝ) : ℂ) * (√2 : ℝ) = 2 := by rw [← Complex.ofReal_mul, Real.mul_self_sqrt (by norm_num)]; norm_num
  have nn : ‖sb z.2 z'.2‖ ^ 2 = 2 * dot k k' := by
    rw [← Complex.normSq_eq_norm_sq]
    exact Complex.ofReal_injective (by rw [← n, ← Complex.mul_conj]; rfl)
  have fin : ∀ {x : ℂ}, x = -(sb z.2 z'.2 ^ 2 / 2) ∨ x = -(star (sb z.2 z'.2) ^ 2 / 2) → ‖x‖ ^ 2 = dot k k' ^ 2 := by
    intro x hx
    have : ‖x‖ = ‖sb z.2 z'.2‖ ^ 2 / 2 := by rcases hx with rfl | rfl <;> simp
    rw [this, nn]; ring
  have g : ∀ (c c' : ℂ) (u v : Vec), fieldD k (c • u) k' (c' • v) = c * c' * fieldD k u k' v := by
    intro c c' u v; simp only [fieldD, contract_smul, contract_smul_left]; ring
  rcases ht with rfl | rfl
  · have e0 : ∀ z : Pair, lightE z 0 = ((√2 : ℝ) / sb z.1 z.2 : ℂ) • pv z.1 z.1 := fun _ => rfl
    refine fin (.inr ?_)
    have E : star (sb z.2 z'.2) ^ 2 = ab z.1 z'.1 ^ 2 := by rw [e]; ring
    rw [E, e0, e0, g, fieldD, contract_four_pv, contract_four_pv, contract_pv, h.mb_eq, h'.mb_eq, contract_four_four', ← contract_four_four, h.split, h'.split, contract_pv]
    have S := sb_schouten z'.1 z.2 z'.2 z.1
    have T : (sb z'.1 z.2 * sb z.1 z'.2 + sb z.2 z'.2 * sb z.1 z'.1) = sb z.1 z.2 * sb z'.1 z'.2 := by
      rw [sb_swap z'.1 z'.2] at S; linear_combination S
    have X : ab z.1 z'.1 * sb z'.1 z.2 / 2 * (ab z'.1 z.1 * sb z.1 z'.2 / 2) - -(ab z.1 z'.1 * sb z.2 z'.2) / 2 * (-(ab z.1 z'.1 * sb z.1 z'.1) / 2) = -(ab z.1 z'.1 ^ 2 / 4) * (sb z.1 z.2 * sb z'.1 z'.2) := by
      rw [← T, ab_swap z.1 z'.1]; ring
    rw [X]
    field_simp
    linear_combination -2 * ab z.1 z'.1 ^ 2 * r2
  · have e0 : ∀ z : Pair, lightE z 1 = ((√2 : ℝ) / ab z.2 z.1 : ℂ) • pv z.2 z.2 := fun _ => rfl
    refine fin (.inl ?_)
    rw [e0, e0, g, fieldD, contract_four_pv, contract_four_pv, contract_pv, h.mb_eq, h'.mb_eq, contract_four_four', ← contract_four_four, h.split, h'.split, contract_pv]
    have S := ab_schouten z'.2 z.1 z'.1 z.2
    have T : ab z.1 z'.2 * ab z'.1 z.2 + ab z.1 z'.1 * ab z.2 z'.2 = ab z.2 z.1 * ab z'.2 z'.1 := by
      rw [ab_swap z'.2 z'.1, ab_swap z.2 z'.1, ab_swap z.1 z'.2] at *; linear_combination S
    have X : ab z.1 z'.2 * sb z'.2 z.2 / 2 * (ab z'.1 z.2 * sb z.2 z'.2 / 2) - -(ab z.1 z'.1 * sb z.2 z'.2) / 2 * (-(ab z.2 z'.2 * sb z.2 z'.2) / 2) = -(sb z.2 z'.2 ^ 2 / 4) * (ab z.2 z.1 * ab z'.2 z'.1) := by
      rw [← T, sb_swap z.2 z'.2]; ring
    rw [X]
    field_simp
    linear_combination -2 * sb z.2 z'.2 ^ 2 * r2

end Light

/-! ### the amplitude -/

theorem fieldD_pure_left (k : V4 ℝ) (σ : ℂ) (k' : V4 ℝ) (ε' : Vec) : fieldD k (σ • four k) k' ε' = 0 := by
  simp only [fieldD, contract_smul, contract_smul_left, contract_comm (four k') (four k)]; ring
theorem fieldD_pure_right (k : V4 ℝ) (σ : ℂ) (k' : V4 ℝ) (ε' : Vec) : fieldD k' ε' k (σ • four k) = 0 := by
  simp only [fieldD, contract_smul, contract_comm ε' (four k)]; ring
theorem fieldP_pure_left (k : V4 ℝ) (σ : ℂ) (k' : V4 ℝ) (ε' : Vec) : fieldP k (σ • four k) k' ε' = 0 := by
  rw [fieldP_eq]; simp [four]; ring
theorem fieldP_pure_right (k : V4 ℝ) (σ : ℂ) (k' : V4 ℝ) (ε' : Vec) : fieldP k' ε' k (σ • four k) = 0 := by
  rw [fieldP_eq]; simp [four]; ring

/-- A gluon with its momentum as polarisation vector has no field. -/
theorem fields_pure {k : Fin 4 → V4 ℝ} {ε : Fin 4 → Vec} {n : Fin 4} {σ : ℂ} (h : ε n = σ • four (k n)) : fields k ε = 0 := by
  unfold fields
  fin_cases n <;> simp only [Fin.zero_eta, Fin.mk_one, Fin.reduceFinMk] at h <;> simp only [h, fieldD_pure_left, fieldD_pure_right, fieldP_pure_left, fieldP_pure_right, zero_mul, mul_zero, add_zero]

/-- Gluons take part in no other process. -/
theorem fourBosons_gluons (c : Constants) {a b d e : Line} (ha : a.boson = .gluon) (hb : b.boson = .gluon) (hd : d.boson = .gluon) (he : e.boson = .gluon) : fourBosons c a b d e = 0 := by
  have m : ∀ {a b d e : Line}, a.boson = .gluon → b.boson = .gluon → d.boson = .gluon → e.boson = .gluon → mediated c a b d e = 0 := by
    intro a b d e ha hb hd he
    have h1 : toHiggs c a b = 0 := by simp [toHiggs, ha, hb, higgs2]
    have h2 : ∀ x : Boson, toVector c d e x = 0 := by intro x; cases x <;> simp [toVector, hd, he, gauge3, Boson.anti]
    simp only [mediated, h1, h2, contract_zero]
    simp [carriers]
  have g : ∀ {a b d e : Line}, a.boson = .gluon → b.boson = .gluon → gauge4 c a b d e = 0 := by
    intro a b d e ha hb
    simp [gauge4, carriers, ha, hb, gauge3, Boson.anti]
  rw [fourBosons, contact, m ha hb hd he, m ha hd hb he, m ha he hb hd, g ha hb, g ha hd, g ha he]
  simp [seagull, ha, hb, hd]

namespace SM
open XR Spec.Reaction
namespace Rows

def gggg : BRow := ⟨Cls.gggg, ⟨![.boson .gluon, .boson .gluon, .boson .gluon, .boson .gluon]⟩, [some .gs], []⟩

section
variable {c : Constants} {p : Nat → V4 ℝ}

/-- momenta coming in -/
def gggg.k (p : Nat → V4 ℝ) (n : Fin 4) : V4 ℝ := if arrives n then p n else backward (p n)
/-- vectors coming in -/
noncomputable def gggg.e (ε : Fin 4 → Vec) (n : Fin 4) : Vec := if arrives n then ε n else star (ε n)

theorem gggg.line (ε : Fin 4 → Vec) (n : Fin 4) : gggg.react.line p ε n = ⟨.gluon, gggg.k p n, gggg.e ε n⟩ := by
  fin_cases n <;> rfl

theorem gggg.amplitude (κ : Fin 4 → Fin 3) (γ : Fin 4 → Fin 8) (w : Fin 4 → Spinor) (ε : Fin 4 → Vec) : gggg.react.amplitude c p κ γ w ε =
    fourGluons c (γ 0) (γ 1) (γ 2) (γ 3) ⟨.gluon, gggg.k p 0, gggg.e ε 0⟩ ⟨.gluon, gggg.k p 1, gggg.e ε 1⟩ ⟨.gluon, gggg.k p 2, gggg.e ε 2⟩ ⟨.gluon, gggg.k p 3, gggg.e ε 3⟩ := by
  have h : gggg.react.amplitude c p κ γ w ε = fourBosons c (gggg.react.line p ε 0) (gggg.react.line p ε 1) (gggg.react.line p ε 2) (gggg.react.line p ε 3) +
    fourGluons c (γ 0) (γ 1) (γ 2) (γ 3) (gggg.react.line p ε 0) (gggg.react.line p ε 1) (gggg.react.line p ε 2) (gggg.react.line p ε 3) := rfl
  rw [h]
  simp only [gggg.line]
  rw [fourBosons_gluons c rfl rfl rfl rfl, zero_add]

theorem gggg.poles (hr : gggg.react.Regular c p) : msq (plus (gggg.k p 0) (gggg.k p 1)) ≠ 0 ∧ msq (plus (gggg.k p 0) (gggg.k p 2)) ≠ 0 ∧ msq (plus (gggg.k p 0) (gggg.k p 3)) ≠ 0 := by
  obtain ⟨f1, f2, f3⟩ := gggg.react.regular_four (by decide) (by decide) (by decide) hr
  have h1 := f1 .gluon rfl rfl
  have h2 := f2 .gluon rfl rfl
  have h3 := f3 .gluon rfl rfl
  rw [denominator_gluon] at h1 h2 h3
  exact ⟨by exact_mod_cast h1, by exact_mod_cast h2, by exact_mod_cast h3⟩

theorem gggg.msq_k (hm : ∀ n : Fin 4, msq (p n) = 0) (n : Fin 4) : msq (gggg.k p n) = 0 := by
  unfold gggg.k; split_ifs
  · exact hm n
  · rw [msq_backward]; exact hm n

theorem gggg.four (hb : Balanced p) (hm : ∀ n : Fin 4, msq (p n) = 0) {ε : Fin 4 → Vec} (hε : ∀ n : Fin 4, contract (four (p n)) (ε n) = 0) : Four (gggg.k p) (gggg.e ε) := by
  refine ⟨balanced_in hb, gggg.msq_k hm, fun n => ?_⟩
  unfold gggg.k gggg.e
  split_ifs
  · exact hε n
  · rw [contract_four_back, ← star_eq_zero, star_neg, star_contract_four, hε n, neg_zero]

theorem gggg.gauge (hb : Balanced p) (hm : ∀ n : Fin 4, msq (p n) = 0) (hr : gggg.react.Regular c p) : gggg.react.Gauge c p := by
  intro n b hl hx κ γ w ε hε
  obtain ⟨hS, hT, hU⟩ := gggg.poles hr
  have hn : ∀ n, gggg.react.leg n = .boson .gluon := by intro n; fin_cases n <;> rfl
  have ht : ∀ m : Fin 4, contract (Spec.four (p m)) (Function.update ε n (Spec.four (p n)) m) = 0 := by
    intro m
    rcases eq_or_ne m n with rfl | h
    · rw [Function.update_self, contract_four_four]
      have := hm m
      have e : dot (p m) (p m) = msq (p m) := by simp only [dot, msq]; ring
      rw [e, this]; simp
    · rw [Function.update_of_ne h]
      exact shell_in (hn m) (by decide) (hε m h)
  rw [gggg.amplitude]
  refine (gggg.four hb hm ht).vanishes c _ _ _ _ ?_ hS hT hU
  refine fields_pure (n := n) (σ := if arrives n then 1 else -1) ?_
  unfold gggg.e gggg.k
  rw [Function.update_self]
  split_ifs
  · rw [one_smul]
  · rw [star_four]
    ext μ
    fin_cases μ <;> simp [Spec.four, backward]

/-- no momentum is zero -/
theorem gggg.energy (hm : ∀ n : Fin 4, msq (p n) = 0) (hr : gggg.react.Regular c p) (n : Fin 4) : (p n).t ≠ 0 := by
  obtain ⟨hS, hT, hU⟩ := gggg.poles hr
  have z : ∀ n : Fin 4, (p n).t = 0 → (p n).x = 0 ∧ (p n).y = 0 ∧ (p n).z = 0 := by
    intro n h
    have := hm n
    simp only [msq, h] at this
    refine ⟨?_, ?_, ?_⟩ <;> nlinarith [sq_nonneg (p n).x, sq_nonneg (p n).y, sq_nonneg (p n).z]
  intro h
  obtain ⟨hx, hy, hz⟩ := z n h
  have m0 := hm 0
  have m1 := hm 1
  have m2 := hm 2
  have m3 := hm 3
  simp only [msq, plus, gggg.k, arrives, backward] at hS hT hU m0 m1 m2 m3
  fin_cases n <;> simp at h hx hy hz hS hT hU m0 m1 m2 m3
  · refine hS ?_; rw [h, hx, hy, hz]; linear_combination m1
  · refine hS ?_; rw [h, hx, hy, hz]; linear_combination m0
  · refine hT ?_; rw [h, hx, hy, hz]; linear_combination m0
  · refine hU ?_; rw [h, hx, hy, hz]; linear_combination m0

variable [FPEnv]

/-- what the methods of the class see -/
noncomputable abbrev gggg.N (c : Constants) (p : Nat → V4 ℝ) : Env := gggg.proc.env (gggg.rho c) p

/-- spin in the code, in halves -/
def spinG (t : Fin 3) : Int := if t = 1 then 2 else -2

theorem gggg.massNum_zero : gggg.proc.massNum (gggg.rho c) = fun _ => 0 := by
  funext i
  match i with
  | 0 | 1 | 2 | 3 => exact Nat.cast_zero
  | n + 4 => rfl

theorem gggg.v_eq : (gggg.N c p).v = braTab (fun a => Cls.gggg.sym.bind fun S => S.gsp a) p fun _ => 0 := by
  rw [← gggg.massNum_zero (c := c)]; rfl

theorem gggg.r_eq : (gggg.N c p).r 0 = c.gs ∧ (gggg.N c p).r 1 = mandelstamS p ∧ (gggg.N c p).r 2 = mandelstamT p ∧ (gggg.N c p).r 3 = mandelstamU p := by
  have e1 : (gggg.N c p).r 1 = (poleDist ((0 : Nat) : ℝ) ((0 : Nat) : ℝ) ((VExp.add 0 1).sum p)).re := rfl
  have e2 : (gggg.N c p).r 2 = (poleDist ((0 : Nat) : ℝ) ((0 : Nat) : ℝ) ((VExp.sub 0 2).sum p)).re := rfl
  have e3 : (gggg.N c p).r 3 = (poleDist ((0 : Nat) : ℝ) ((0 : Nat) : ℝ) ((VExp.sub 0 3).sum p)).re := rfl
  rw [e1, e2, e3]
  refine ⟨rfl, ?_, ?_, ?_⟩ <;> simp [poleDist, VExp.sum, mandelstamS, mandelstamT, mandelstamU]

omit [FPEnv] in
theorem gggg.stu : msq (plus (gggg.k p 0) (gggg.k p 1)) = mandelstamS p ∧ msq (plus (gggg.k p 0) (gggg.k p 2)) = mandelstamT p ∧ msq (plus (gggg.k p 0) (gggg.k p 3)) = mandelstamU p := by
  simp [plus, gggg.k, arrives, backward, mandelstamS, mandelstamT, mandelstamU, msq, sub_eq_add_neg]

/-- the vectors of the code -/
noncomputable abbrev gggg.E (p : Nat → V4 ℝ) (n : Fin 4) : Fin 3 → Vec := lightE (legA (p n) 0 0, legS (p n) 0 1)

variable (hs : ∀ i : Fin 4, OnShell (p i) 0) (hb : Balanced p) (hr : gggg.react.Regular c p)
include hs hr

theorem gggg.turns (n : Fin 4) {t : Fin 3} (ht : t = 0 ∨ t = 1) : Turns (gggg.k p n) (decide (t = 1)) (star (gggg.E p n t)) := by
  have h := (light_code (hs n)).circular (gggg.energy (fun n => by simpa using onShell_msq (hs n)) hr n)
  have : Turns (p n) (decide (t = 1)) (star (gggg.E p n t)) := by
    rcases ht with rfl | rfl
    · exact .of h.2
    · exact .of h.1
  unfold gggg.k
  split_ifs
  · exact this
  · exact this.back

theorem gggg.field (i j : Fin 4) {t t' : Fin 3} (ht : t = 0 ∨ t = 1) (e : t = t') : ‖fieldD (gggg.k p i) (star (gggg.E p i t)) (gggg.k p j) (star (gggg.E p j t'))‖ ^ 2 = dot (p i) (p j) ^ 2 := by
  subst e
  have en := gggg.energy (fun n => by simpa using onShell_msq (hs n)) hr
  rw [fieldD_star, norm_star, ← (light_code (hs i)).fieldD_norm (light_code (hs j)) (en i) (en j) ht]
  unfold gggg.k
  split_ifs <;> simp only [fieldD_back_left, fieldD_back_right, norm_neg]

include hb

/-- the squared amplitude in a spin state, summed over colours -/
theorem gggg.state {s : Fin 4 → Fin 3} (h : s ∈ Fintype.piFinset gggg.react.spins) : gggg.react.stateSum c p (gggg.react.codeE c p) s =
    Gluons.weight (gggg.N c p) * ‖Cls.gggg.m_amp.mean (gggg.N c p) (callMean (gggg.N c p) []) .c [spinG (s 0), spinG (s 1), spinG (s 2), spinG (s 3)]‖ ^ 2 := by
  have hm : ∀ n : Fin 4, msq (p n) = 0 := fun n => by simpa using onShell_msq (hs n)
  obtain ⟨hS, hT, hU⟩ := gggg.poles hr
  have h01 : ∀ n, s n = 0 ∨ s n = 1 := by
    intro n
    have := Fintype.mem_piFinset.1 h n
    have e : gggg.react.spins n = {0, 1} := by fin_cases n <;> rfl
    rw [e] at this
    simpa using this
  have hs' : ∀ i, i < 4 → OnShell (p i) 0 := fun i hi => hs ⟨i, hi⟩
  have hF : Four (gggg.k p) (fun n => star (gggg.E p n (s n))) := by
    refine ⟨balanced_in hb, gggg.msq_k hm, fun n => ?_⟩
    have := (light_code (hs n)).transverse (s n)
    unfold gggg.k
    split_ifs
    · rw [← star_eq_zero, star_contract_four, this]
    · rw [contract_four_back, ← star_eq_zero, star_neg, star_contract_four, this, neg_zero]
  have e1 : gggg.react.stateSum c p (gggg.react.codeE c p) s = ∑ g₀, ∑ g₁, ∑ g₂, ∑ g₃, ‖fourGluons c g₀ g₁ g₂ g₃ ⟨.gluon, gggg.k p 0, star (gggg.E p 0 (s 0))⟩ ⟨.gluon, gggg.k p 1, star (gggg.E p 1 (s 1))⟩
      ⟨.gluon, gggg.k p 2, star (gggg.E p 2 (s 2))⟩ ⟨.gluon, gggg.k p 3, star (gggg.E p 3 (s 3))⟩‖ ^ 2 := by
    unfold stateSum
    have hγ : gggg.react.gluons = fun _ => Finset.univ := by funext n; fin_cases n <;> rfl
    have hc : gggg.react.colours = fun _ => {0} := by funext n; fin_cases n <;> rfl
    simp only [hγ, hc, Fintype.piFinset_singleton, Finset.sum_singleton, Fintype.piFinset_univ, gggg.amplitude]
    rw [sum_quad]
    rfl
  rw [e1, hF.colours c hS hT hU, Four.helicities fun n => gggg.turns hs hr n (h01 n)]
  obtain ⟨q0, q1, q2, q3⟩ := gggg.r_eq (c := c) (p := p)
  obtain ⟨d01, d23, d02, d13, d03, d12, -⟩ := massless_dots hs' hb
  obtain ⟨eS, eT, eU⟩ := gggg.stu (p := p)
  have hg : ∀ t : Fin 3, t = 0 ∨ t = 1 → spinG t = 2 ∨ spinG t = -2 := by rintro t (rfl | rfl) <;> decide
  rw [Gluons.norms (gggg.N c p) _ hs' hb gggg.v_eq _ _ _ _ (hg _ (h01 0)) (hg _ (h01 1)) (hg _ (h01 2)) (hg _ (h01 3)), Gluons.weight, q0, q1, q2, q3, eS, eT, eU]
  have nD : ∀ i j i' j' : Fin 4, s i = s j → s i' = s j' → ‖8 * (fieldD (gggg.k p i) (star (gggg.E p i (s i))) (gggg.k p j) (star (gggg.E p j (s j))) * fieldD (gggg.k p i') (star (gggg.E p i' (s i'))) (gggg.k p j') (star (gggg.E p j' (s j'))))‖ ^ 2 =
      64 * (dot (p i) (p j) ^ 2 * dot (p i') (p j') ^ 2) := by
    intro i j i' j' e e'
    rw [norm_mul, norm_mul, mul_pow, mul_pow, gggg.field hs hr i j (h01 i) e, gggg.field hs hr i' j' (h01 i') e']
    norm_num
  have v0 := h01 0
  have v1 := h01 1
  have v2 := h01 2
  have v3 := h01 3
  have nS := nD 0 1 2 3
  have nT := nD 0 2 1 3
  have nU := nD 0 3 1 2
  have xS : (dot (p 0) (p 1)) ^ 2 * (dot (p 2) (p 3)) ^ 2 = mandelstamS p ^ 4 / 16 := by
    rw [show dot (p 0) (p 1) = mandelstamS p / 2 by linarith, show dot (p 2) (p 3) = mandelstamS p / 2 by linarith]; ring
  have xT : (dot (p 0) (p 2)) ^ 2 * (dot (p 1) (p 3)) ^ 2 = mandelstamT p ^ 4 / 16 := by
    rw [show dot (p 0) (p 2) = -mandelstamT p / 2 by linarith, show dot (p 1) (p 3) = -mandelstamT p / 2 by linarith]; ring
  have xU : (dot (p 0) (p 3)) ^ 2 * (dot (p 1) (p 2)) ^ 2 = mandelstamU p ^ 4 / 16 := by
    rw [show dot (p 0) (p 3) = -mandelstamU p / 2 by linarith, show dot (p 1) (p 2) = -mandelstamU p / 2 by linarith]; ring
  have nS : s 0 = s 1 → s 2 = s 3 → _ := fun a b => (nS a b).trans (congrArg (64 * ·) xS)
  have nT : s 0 = s 2 → s 1 = s 3 → _ := fun a b => (nT a b).trans (congrArg (64 * ·) xT)
  have nU : s 0 = s 3 → s 1 = s 2 → _ := fun a b => (nU a b).trans (congrArg (64 * ·) xU)
  have cond : ∀ a b d e : Fin 3, (decide (a = 1) = decide (b = 1) ∧ decide (d = 1) = !decide (a = 1) ∧ decide (e = 1) = !decide (a = 1)) ↔ (spinG a = spinG b ∧ spinG d = -spinG a ∧ spinG e = -spinG a) := by decide
  have inj : ∀ i j, spinG (s i) = spinG (s j) → s i = s j := by
    intro i j e
    rcases h01 i with h | h <;> rcases h01 j with h' | h' <;> rw [h, h'] at e ⊢ <;> revert e <;> decide
  simp only [cond (s 0) (s 1) (s 2) (s 3), cond (s 0) (s 2) (s 1) (s 3), cond (s 0) (s 3) (s 1) (s 2)]
  split_ifs with a1 a2 a3
  · rw [nS (inj _ _ a1.1) (inj _ _ (a1.2.1.trans a1.2.2.symm))]; push_cast; ring
  · rw [nT (inj _ _ a2.1) (inj _ _ (a2.2.1.trans a2.2.2.symm))]; push_cast; ring
  · rw [nU (inj _ _ a3.1) (inj _ _ (a3.2.1.trans a3.2.2.symm))]; push_cast; ring
  · simp

omit hs hb hr in
theorem gggg.mass_eq (i : Fin 4) : gggg.proc.massNum (gggg.rho c) i = gggg.react.mass c i := by
  fin_cases i <;> exact Nat.cast_zero
end

variable [FPEnv]

theorem gggg.nonzero {c : Constants} {p : Nat → V4 ℝ} (hr : gggg.react.Regular c p) : (∀ n, (Ty.r, n) ∈ gggg.proc.divides → (gggg.proc.env (gggg.rho c) p).r n ≠ 0) ∧ (∀ n, (Ty.c, n) ∈ gggg.proc.divides → (gggg.proc.env (gggg.rho c) p).c n ≠ 0) := by
  have hd : ∀ x ∈ gggg.proc.divides, x = (Ty.r, 1) ∨ x = (Ty.r, 2) ∨ x = (Ty.r, 3) := by decide +kernel
  obtain ⟨q0, q1, q2, q3⟩ := gggg.r_eq (c := c) (p := p)
  obtain ⟨hS, hT, hU⟩ := gggg.poles hr
  obtain ⟨eS, eT, eU⟩ := gggg.stu (p := p)
  refine ⟨fun n hn => ?_, fun n hn => ?_⟩
  · rcases hd _ hn with h | h | h <;> cases h
    · rwa [eS, ← q1] at hS
    · rwa [eT, ← q2] at hT
    · rwa [eU, ← q3] at hU
  · rcases hd _ hn with h | h | h <;> cases h

/-- what `amp2` returns -/
theorem gggg.value (N : Env) : meaning N .r Cls.gggg.methods Cls.gggg.amp2 [] = Gluons.sum4 (fun a b c d => ‖Cls.gggg.m_amp.mean N (callMean N []) .c [a, b, c, d]‖ ^ 2 * Gluons.weight N) ((0 : Nat) : ℝ) / ((512 : Nat) : ℝ) :=
  Gluons.mean_amp2 N (callMean N [Cls.gggg.m_amp2_Feynman, Cls.gggg.m_amp])

/-- `amp2` -/
theorem gggg.agrees : gggg.Agrees := by
  refine BRow.agrees_of (D := []) (E := []) (by simp [all, gggg]) (by decide +kernel) (by decide) (by decide +kernel) (fun c hc hh => ⟨List.forall_mem_nil _, List.forall_mem_nil _⟩) (fun c hc i => gggg.mass_eq i) (by decide +kernel) ?_
  intro c p u ε hc hh hw h0 hs hb hr hu
  have hs0 : ∀ i : Fin 4, OnShell (p i) 0 := by intro i; have := hs i; fin_cases i <;> exact this
  refine ⟨(gggg.nonzero hr).1, (gggg.nonzero hr).2, ?_⟩
  have hG := gggg.gauge hb (fun n => by simpa using onShell_msq (hs0 n)) hr
  have s0 : gggg.react.states 0 = 16 := by decide +kernel
  have s1 : gggg.react.states 1 = 16 := by decide +kernel
  have sy : gggg.react.symmetry = 2 := by decide
  have p0 : ∀ n, gggg.react.spins n = {0, 1} := by intro n; fin_cases n <;> rfl
  rw [gggg.react.squared_states hs h0 (fun _ b _ hb _ => (BRow.boson_pos hc hh hb).ne') hG (E := gggg.react.codeE c p) (fun n b hl => gggg.react.codeE_polarised hs h0 hu (fun b hb => (BRow.boson_pos hc hh hb).ne') n b hl) hu
    (fun s h => gggg.state hs0 hb hr h), sum_colours, s0, s1, sy]
  show meaning (gggg.N c p) .r Cls.gggg.methods Cls.gggg.amp2 [] = _
  rw [gggg.value]
  simp only [p0, Finset.sum_pair (show (0 : Fin 3) ≠ 1 by decide), Matrix.cons_val_zero, Matrix.cons_val_one, Matrix.cons_val, show spinG 0 = -2 from rfl, show spinG 1 = 2 from rfl, Gluons.sum4, Gluons.sum2, Gluons.sum, List.foldl]
  push_cast
  ring

/-- `amp2_gplus_gplus` -/
theorem gggg.amp2_gplus_gplus_polarises : gggg.Polarises 3 ![some true, some true, none, none] := by
  refine BRow.polarises_of (D := []) (E := []) (by unfold Reaction.Lights; decide) (by decide) (by simp [all, gggg]) (by decide +kernel) (by decide) (by decide +kernel) (fun c hc hh => ⟨List.forall_mem_nil _, List.forall_mem_nil _⟩) (fun c hc i => gggg.mass_eq i) (by decide +kernel) ?_
  intro c p hc hh hw h0 hs hb hr hu
  have hs0 : ∀ i : Fin 4, OnShell (p i) 0 := by intro i; have := hs i; fin_cases i <;> exact this
  refine ⟨(gggg.nonzero hr).1, (gggg.nonzero hr).2, gggg.gauge hb (fun n => by simpa using onShell_msq (hs0 n)) hr, _, _, fun s h => gggg.state hs0 hb hr h, ?_⟩
  have s0 : gggg.react.someStates ![some true, some true, none, none] 0 = 8 := by decide +kernel
  have s1 : gggg.react.someStates ![some true, some true, none, none] 1 = 8 := by decide +kernel
  have sy : gggg.react.symmetry = 2 := by decide
  have p0 : gggg.react.pick ![some true, some true, none, none] 0 = {1} := rfl
  have p1 : gggg.react.pick ![some true, some true, none, none] 1 = {1} := rfl
  have p2 : gggg.react.pick ![some true, some true, none, none] 2 = {0, 1} := rfl
  have p3 : gggg.react.pick ![some true, some true, none, none] 3 = {0, 1} := rfl
  show Method.mean (gggg.N c p) (callMean (gggg.N c p) [Cls.gggg.m_amp2, Cls.gggg.m_amp2_Feynman, Cls.gggg.m_amp]) Cls.gggg.m_amp2_gplus_gplus .r [] = _
  rw [Gluons.mean_pp, s0, s1, sy]
  have e : ∀ a b d e, callMean (gggg.N c p) [Cls.gggg.m_amp2, Cls.gggg.m_amp2_Feynman, Cls.gggg.m_amp] 0 [a, b, d, e] = Method.mean (gggg.N c p) (callMean (gggg.N c p) []) Cls.gggg.m_amp .c [a, b, d, e] := fun _ _ _ _ => rfl
  simp only [e, p0, p1, p2, p3, Finset.sum_singleton, Finset.sum_pair (show (0 : Fin 3) ≠ 1 by decide), Matrix.cons_val_zero, Matrix.cons_val_one, Matrix.cons_val, show spinG 0 = -2 from rfl, show spinG 1 = 2 from rfl, Gluons.sum2, Gluons.sum, List.foldl]
  push_cast
  ring

/-- `amp2_gplus_gminus` -/
theorem gggg.amp2_gplus_gminus_polarises : gggg.Polarises 4 ![some true, some false, none, none] := by
  refine BRow.polarises_of (D := []) (E := []) (by unfold Reaction.Lights; decide) (by decide) (by simp [all, gggg]) (by decide +kernel) (by decide) (by decide +kernel) (fun c hc hh => ⟨List.forall_mem_nil _, List.forall_mem_nil _⟩) (fun c hc i => gggg.mass_eq i) (by decide +kernel) ?_
  intro c p hc hh hw h0 hs hb hr hu
  have hs0 : ∀ i : Fin 4, OnShell (p i) 0 := by intro i; have := hs i; fin_cases i <;> exact this
  refine ⟨(gggg.nonzero hr).1, (gggg.nonzero hr).2, gggg.gauge hb (fun n => by simpa using onShell_msq (hs0 n)) hr, _, _, fun s h => gggg.state hs0 hb hr h, ?_⟩
  have s0 : gggg.react.someStates ![some true, some false, none, none] 0 = 8 := by decide +kernel
  have s1 : gggg.react.someStates ![some true, some false, none, none] 1 = 8 := by decide +kernel
  have sy : gggg.react.symmetry = 2 := by decide
  have p0 : gggg.react.pick ![some true, some false, none, none] 0 = {1} := rfl
  have p1 : gggg.react.pick ![some true, some false, none, none] 1 = {0} := rfl
  have p2 : gggg.react.pick ![some true, some false, none, none] 2 = {0, 1} := rfl
  have p3 : gggg.react.pick ![some true, some false, none, none] 3 = {0, 1} := rfl
  show Method.mean (gggg.N c p) (callMean (gggg.N c p) Cls.gggg.methods.tail.tail.tail) Cls.gggg.m_amp2_gplus_gminus .r [] = _
  rw [Gluons.mean_pm, s0, s1, sy]
  have e : ∀ a b d e, callMean (gggg.N c p) Cls.gggg.methods.tail.tail.tail 0 [a, b, d, e] = Method.mean (gggg.N c p) (callMean (gggg.N c p) []) Cls.gggg.m_amp .c [a, b, d, e] := fun _ _ _ _ => rfl
  simp only [e, p0, p1, p2, p3, Finset.sum_singleton, Finset.sum_pair (show (0 : Fin 3) ≠ 1 by decide), Matrix.cons_val_zero, Matrix.cons_val_one, Matrix.cons_val, show spinG 0 = -2 from rfl, show spinG 1 = 2 from rfl, Gluons.sum2, Gluons.sum, List.foldl]
  push_cast
  ring

/-- `amp2_gminus_gplus` -/
theorem gggg.amp2_gminus_gplus_polarises : gggg.Polarises 5 ![some false, some true, none, none] := by
  refine BRow.polarises_of (D := []) (E := []) (by unfold Reaction.Lights; decide) (by decide) (by simp [all, gggg]) (by decide +kernel) (by decide) (by decide +kernel) (fun c hc hh => ⟨List.forall_mem_nil _, List.forall_mem_nil _⟩) (fun c hc i => gggg.mass_eq i) (by decide +kernel) ?_
  intro c p hc hh hw h0 hs hb hr hu
  have hs0 : ∀ i : Fin 4, OnShell (p i) 0 := by intro i; have := hs i; fin_cases i <;> exact this
  refine ⟨(gggg.nonzero hr).1, (gggg.nonzero hr).2, gggg.gauge hb (fun n => by simpa using onShell_msq (hs0 n)) hr, _, _, fun s h => gggg.state hs0 hb hr h, ?_⟩
  have s0 : gggg.react.someStates ![some false, some true, none, none] 0 = 8 := by decide +kernel
  have s1 : gggg.react.someStates ![some false, some true, none, none] 1 = 8 := by decide +kernel
  have sy : gggg.react.symmetry = 2 := by decide
  have p0 : gggg.react.pick ![some false, some true, none, none] 0 = {0} := rfl
  have p1 : gggg.react.pick ![some false, some true, none, none] 1 = {1} := rfl
  have p2 : gggg.react.pick ![some false, some true, none, none] 2 = {0, 1} := rfl
  have p3 : gggg.react.pick ![some false, some true, none, none] 3 = {0, 1} := rfl
  show Method.mean (gggg.N c p) (callMean (gggg.N c p) Cls.gggg.methods.tail.tail) Cls.gggg.m_amp2_gminus_gplus .r [] = _
  rw [Gluons.mean_mp, s0, s1, sy]
  have e : ∀ a b d e, callMean (gggg.N c p) Cls.gggg.methods.tail.tail 0 [a, b, d, e] = Method.mean (gggg.N c p) (callMean (gggg.N c p) []) Cls.gggg.m_amp .c [a, b, d, e] := fun _ _ _ _ => rfl
  simp only [e, p0, p1, p2, p3, Finset.sum_singleton, Finset.sum_pair (show (0 : Fin 3) ≠ 1 by decide), Matrix.cons_val_zero, Matrix.cons_val_one, Matrix.cons_val, show spinG 0 = -2 from rfl, show spinG 1 = 2 from rfl, Gluons.sum2, Gluons.sum, List.foldl]
  push_cast
  ring

/-- `amp2_gminus_gminus` -/
theorem gggg.amp2_gminus_gminus_polarises : gggg.Polarises 6 ![some false, some false, none, none] := by
  refine BRow.polarises_of (D := []) (E := []) (by unfold Reaction.Lights; decide) (by decide) (by simp [all, gggg]) (by decide +kernel) (by decide) (by decide +kernel) (fun c hc hh => ⟨List.forall_mem_nil _, List.forall_mem_nil _⟩) (fun c hc i => gggg.mass_eq i) (by decide +kernel) ?_
  intro c p hc hh hw h0 hs hb hr hu
  have hs0 : ∀ i : Fin 4, OnShell (p i) 0 := by intro i; have := hs i; fin_cases i <;> exact this
  refine ⟨(gggg.nonzero hr).1, (gggg.nonzero hr).2, gggg.gauge hb (fun n => by simpa using onShell_msq (hs0 n)) hr, _, _, fun s h => gggg.state hs0 hb hr h, ?_⟩
  have s0 : gggg.react.someStates ![some false, some false, none, none] 0 = 8 := by decide +kernel
  have s1 : gggg.react.someStates ![some false, some false, none, none] 1 = 8 := by decide +kernel
  have sy : gggg.react.symmetry = 2 := by decide
  have p0 : gggg.react.pick ![some false, some false, none, none] 0 = {0} := rfl
  have p1 : gggg.react.pick ![some false, some false, none, none] 1 = {0} := rfl
  have p2 : gggg.react.pick ![some false, some false, none, none] 2 = {0, 1} := rfl
  have p3 : gggg.react.pick ![some false, some false, none, none] 3 = {0, 1} := rfl
  show Method.mean (gggg.N c p) (callMean (gggg.N c p) Cls.gggg.methods.tail) Cls.gggg.m_amp2_gminus_gminus .r [] = _
  rw [Gluons.mean_mm, s0, s1, sy]
  have e : ∀ a b d e, callMean (gggg.N c p) Cls.gggg.methods.tail 0 [a, b, d, e] = Method.mean (gggg.N c p) (callMean (gggg.N c p) []) Cls.gggg.m_amp .c [a, b, d, e] := fun _ _ _ _ => rfl
  simp only [e, p0, p1, p2, p3, Finset.sum_singleton, Finset.sum_pair (show (0 : Fin 3) ≠ 1 by decide), Matrix.cons_val_zero, Matrix.cons_val_one, Matrix.cons_val, show spinG 0 = -2 from rfl, show spinG 1 = 2 from rfl, Gluons.sum2, Gluons.sum, List.foldl]
  push_cast
  ring
end Rows
end SM

end Spinas
