import Verif.SM.ThreeBosons

/-! Amplitudes of four bosons in the spinors of the code. -/

namespace Spinas
open Spec Props Matrix

noncomputable section

/-! ### two-component spinors -/

theorem mb_det (S S' : V2) (q : V4 ℝ) (A A' : V2) : mb S q A * mb S' q A' - mb S q A' * mb S' q A = -((msq q : ℝ) : ℂ) * sb S S' * ab A A' := by
  simp only [mb_eq, ab, sb, msq]
  push_cast
  linear_combination (S 0 * S' 1 - S 1 * S' 0) * (A 0 * A' 1 - A 1 * A' 0) * ((q.y : ℂ) ^ 2) * Complex.I_sq

theorem contract_comm (u v : Vec) : contract u v = contract v u := by
  unfold contract
  exact Finset.sum_congr rfl fun i _ => by ring
theorem contract_up (V : Vec) (A S : V2) : contract V (pv A S) = sb S (upV V A) / 2 := by
  simp [contract, metric, pv, upV, sb, Fin.sum_univ_four]
  ring

section
variable {k k' : V4 ℝ} {m m' : ℝ} {z z' : Pair} (h : Bold k m z) (h' : Bold k' m' z')
include h h'
theorem contract_yangMills_pv (x y : V2) : contract (yangMills k (pv z.1 z.2) k' (pv z'.1 z'.2)) (pv x y) = ym k k' m m' z z' x y / 2 := by
  rw [contract_up, sandwich_yangMills h h']
theorem contract_pv_yangMills (x y : V2) : contract (pv x y) (yangMills k (pv z.1 z.2) k' (pv z'.1 z'.2)) = ym k k' m m' z z' x y / 2 := by
  rw [contract_comm, contract_yangMills_pv h h']
end

theorem contract_pv_four (k : V4 ℝ) (A S : V2) : contract (pv A S) (four k) = mb S k A / 2 := by rw [contract_comm, contract_four_pv]
theorem contract_zero_left (v : Vec) : contract 0 v = 0 := by rw [contract_comm, contract_zero]
theorem contract_smul_left (t : ℂ) (v w : Vec) : contract (t • v) w = t * contract v w := by rw [contract_comm, contract_smul, contract_comm]

theorem contract_add_left (v v' w : Vec) : contract (v + v') w = contract v w + contract v' w := (Lin.contract_left w).map_add v v'
theorem sb_schouten (x y z w : V2) : sb w x * sb y z + sb w y * sb z x + sb w z * sb x y = 0 := by simp only [sb]; ring
theorem dot_backward_left (k l : V4 ℝ) : dot (backward k) l = -dot k l := by simp only [dot, backward]; ring
theorem dot_backward_right (k l : V4 ℝ) : dot k (backward l) = -dot k l := by simp only [dot, backward]; ring
theorem dot_plus_left (k l q : V4 ℝ) : dot (plus k l) q = dot k q + dot l q := by simp only [dot, plus]; ring
theorem dot_same (k : V4 ℝ) : dot k k = msq k := by simp only [dot, msq]; ring
theorem dot_comm (k l : V4 ℝ) : dot k l = dot l k := by simp only [dot]; ring

/-- scalar products of the momenta in terms of the squares of two sums -/
theorem dots_balanced {p : Nat → V4 ℝ} (hb : Balanced p) {m₀ m₁ m₂ m₃ s t : ℝ} (h₀ : msq (p 0) = m₀ ^ 2) (h₁ : msq (p 1) = m₁ ^ 2) (h₂ : msq (p 2) = m₂ ^ 2) (h₃ : msq (p 3) = m₃ ^ 2)
    (hs : msq (plus (p 0) (p 1)) = s) (ht : msq (plus (p 0) (backward (p 2))) = t) :
    dot (p 0) (p 1) = (s - m₀ ^ 2 - m₁ ^ 2) / 2 ∧ dot (p 2) (p 3) = (s - m₂ ^ 2 - m₃ ^ 2) / 2 ∧ dot (p 0) (p 2) = -(t - m₀ ^ 2 - m₂ ^ 2) / 2 ∧ dot (p 1) (p 3) = -(t - m₁ ^ 2 - m₃ ^ 2) / 2 ∧
    dot (p 0) (p 3) = (s + t - m₁ ^ 2 - m₂ ^ 2) / 2 ∧ dot (p 1) (p 2) = (s + t - m₀ ^ 2 - m₃ ^ 2) / 2 ∧
    msq (plus (p 0) (backward (p 3))) = m₀ ^ 2 + m₁ ^ 2 + m₂ ^ 2 + m₃ ^ 2 - s - t := by
  have e := balanced_three hb
  rw [← h₀, ← h₁, ← h₂, ← h₃, ← hs, ← ht, e]
  simp only [dot, msq, plus, backward]
  refine ⟨?_, ?_, ?_, ?_, ?_, ?_, ?_⟩ <;> ring

theorem Spec.Constants.Physical.mix {c : Constants} (hc : c.Physical) : c.SW ^ 2 + c.CW ^ 2 = 1 := by
  have h : c.CW ^ 2 = 1 - c.SW * c.SW := Real.sq_sqrt (by have := hc.SW_lt; nlinarith)
  rw [h]; ring

/-- a particle of zero width -/
theorem pole_narrow {m w t : ℝ} {q : V4 ℝ} (hw : w = 0) (h : msq q = t) : pole m w q = ((t - m ^ 2 : ℝ) : ℂ) := by
  subst hw h
  apply Complex.ext <;> simp [pole, breitWigner, ← Complex.ofReal_pow]

/-! ### diagrams -/

namespace Spec

section
variable (c : Constants) (x : Boson) (q : V4 ℝ)

/-- a massive boson between two currents ... -/
theorem carry_massive (hx : x.massive = true) (J K : Vec) : contract (carry c x q J) K =
    (-contract J K + contract (four q) J / (c.bosonMass x ^ 2 : ℝ) * contract (four q) K) / pole (c.bosonMass x) (c.bosonWidth x) q := by
  have e : -J = (-1 : ℂ) • J := (neg_one_smul ..).symm
  rw [carry, if_pos hx, contract_smul_left, (Lin.contract_left _).map_add, e, contract_smul_left, contract_smul_left]
  ring
/-- ... or a massless one -/
theorem carry_massless (hx : x.massive = false) (J K : Vec) : contract (carry c x q J) K = -contract J K / pole (c.bosonMass x) (c.bosonWidth x) q := by
  have e : -J = (-1 : ℂ) • J := (neg_one_smul ..).symm
  rw [carry, if_neg (by simp [hx]), add_zero, contract_smul_left, e, contract_smul_left]
  ring

/-- `mediated` with conjugate propagators -/
def between (a b d e : Line) : ℂ :=
  toHiggs c a b / pole c.MH c.WH (plus a.k b.k) * toHiggs c d e +
  (contract (carry c .photon (plus a.k b.k) (toVector c a b .photon)) (toVector c d e .photon) + contract (carry c .z (plus a.k b.k) (toVector c a b .z)) (toVector c d e .z) +
   contract (carry c .wPlus (plus a.k b.k) (toVector c a b .wPlus)) (toVector c d e .wMinus) + contract (carry c .wMinus (plus a.k b.k) (toVector c a b .wMinus)) (toVector c d e .wPlus))

/-- with conjugate polarisation vector -/
abbrev Line.bar (a : Line) : Line := ⟨a.boson, a.k, star a.ε⟩

theorem star_contract_star (u v : Vec) : star (contract u v) = contract (star u) (star v) := by
  conv_lhs => rw [← star_star u, ← star_star v]
  exact star_contract _ _

theorem mediated_star (a b d e : Line) : star (mediated c a.bar b.bar d.bar e.bar) = between c a b d e := by
  have hd : star (denominator c .higgs (plus a.k b.k)) = pole c.MH c.WH (plus a.k b.k) := rfl
  unfold mediated between
  simp only [carriers, List.map_cons, List.map_nil, List.sum_cons, List.sum_nil, add_zero, star_add, star_mul', star_inv₀, Line.bar, toHiggs_star, hd, toVector_star, propagate_star, star_contract, Boson.anti]
  ring
theorem seagull_star (a b d e : Line) : star (seagull c a.bar b.bar d.bar e.bar) = seagull c a b d e := by
  unfold seagull
  simp only [Line.bar]
  split_ifs
  · rw [star_mul', star_contract]; simp
  · simp
theorem gauge4_star (a b d e : Line) : star (gauge4 c a.bar b.bar d.bar e.bar) = gauge4 c a b d e := by
  unfold gauge4
  simp only [Line.bar, star_mul', star_sub, star_contract]
  congr 1
  exact Complex.conj_ofReal _
theorem fourBosons_star (a b d e : Line) : star (fourBosons c a.bar b.bar d.bar e.bar) = contact c a b d e - (between c a b d e + between c a d b e + between c a e b d) := by
  have hq : star (if a.boson = .higgs ∧ b.boson = .higgs ∧ d.boson = .higgs ∧ e.boson = .higgs then ((-(3 * c.MH ^ 2 * c.invVev ^ 2) : ℝ) : ℂ) else 0) =
      if a.boson = .higgs ∧ b.boson = .higgs ∧ d.boson = .higgs ∧ e.boson = .higgs then ((-(3 * c.MH ^ 2 * c.invVev ^ 2) : ℝ) : ℂ) else 0 := by
    split_ifs
    · exact Complex.conj_ofReal _
    · simp
  unfold fourBosons contact
  simp only [star_sub, star_add, mediated_star, seagull_star, gauge4_star]
  rw [hq]
end

namespace Reaction
variable (S : Reaction) (c : Constants) (p : Nat → V4 ℝ)

/-- `bareFour` with the vectors one by one -/
def bare4 (E₀ E₁ E₂ E₃ : Vec) : ℂ := star (fourBosons c (S.into p 0 E₀) (S.into p 1 E₁) (S.into p 2 E₂) (S.into p 3 E₃))
theorem bareFour_eq (E : Fin 4 → Vec) : S.bareFour c p E = S.bare4 c p (E 0) (E 1) (E 2) (E 3) := rfl

/-- contact and exchange in three channels -/
theorem bare4_parts {b₀ b₁ b₂ b₃ : Boson} (h₀ : S.boson 0 = b₀) (h₁ : S.boson 1 = b₁) (h₂ : (S.boson 2).anti = b₂) (h₃ : (S.boson 3).anti = b₃) (E₀ E₁ E₂ E₃ : Vec) : S.bare4 c p E₀ E₁ E₂ E₃ =
    contact c ⟨b₀, p 0, E₀⟩ ⟨b₁, p 1, E₁⟩ ⟨b₂, backward (p 2), E₂⟩ ⟨b₃, backward (p 3), E₃⟩ -
    (between c ⟨b₀, p 0, E₀⟩ ⟨b₁, p 1, E₁⟩ ⟨b₂, backward (p 2), E₂⟩ ⟨b₃, backward (p 3), E₃⟩ + between c ⟨b₀, p 0, E₀⟩ ⟨b₂, backward (p 2), E₂⟩ ⟨b₁, p 1, E₁⟩ ⟨b₃, backward (p 3), E₃⟩ +
     between c ⟨b₀, p 0, E₀⟩ ⟨b₃, backward (p 3), E₃⟩ ⟨b₁, p 1, E₁⟩ ⟨b₂, backward (p 2), E₂⟩) := by
  subst h₀ h₁ h₂ h₃
  exact fourBosons_star c ⟨S.boson 0, p 0, E₀⟩ ⟨S.boson 1, p 1, E₁⟩ ⟨(S.boson 2).anti, backward (p 2), E₂⟩ ⟨(S.boson 3).anti, backward (p 3), E₃⟩

theorem bare4_lin₀ (h : S.boson 0 ≠ .higgs) (F G H : Vec) : IsLinearMap ℂ (fun E => S.bare4 c p E F G H) := by
  have e : (fun E => S.bare4 c p E F G H) = fun E => star (fourBosons c ((S.into p 0 0).put (star E)) (S.into p 1 F) (S.into p 2 G) (S.into p 3 H)) := by funext E; rw [bare4, S.into_put p 0 E]
  rw [e]
  exact lin_star ((fourBosons_fine₁ c (S.into p 0 0) _ _ _).1 (by rwa [ne_eq, into_boson]))
theorem bare4_lin₁ (h : S.boson 1 ≠ .higgs) (F G H : Vec) : IsLinearMap ℂ (fun E => S.bare4 c p F E G H) := by
  have e : (fun E => S.bare4 c p F E G H) = fun E => star (fourBosons c (S.into p 0 F) ((S.into p 1 0).put (star E)) (S.into p 2 G) (S.into p 3 H)) := by funext E; rw [bare4, S.into_put p 1 E]
  rw [e]
  exact lin_star ((fourBosons_fine₂ c _ (S.into p 1 0) _ _).1 (by rwa [ne_eq, into_boson]))
theorem bare4_lin₂ (h : S.boson 2 ≠ .higgs) (F G H : Vec) : IsLinearMap ℂ (fun E => S.bare4 c p F G E H) := by
  have e : (fun E => S.bare4 c p F G E H) = fun E => star (fourBosons c (S.into p 0 F) (S.into p 1 G) ((S.into p 2 0).put (star E)) (S.into p 3 H)) := by funext E; rw [bare4, S.into_put p 2 E]
  rw [e]
  exact lin_star ((fourBosons_fine₃ c _ _ (S.into p 2 0) _).1 (by rwa [ne_eq, into_boson]))
theorem bare4_lin₃ (h : S.boson 3 ≠ .higgs) (F G H : Vec) : IsLinearMap ℂ (fun E => S.bare4 c p F G H E) := by
  have e : (fun E => S.bare4 c p F G H E) = fun E => star (fourBosons c (S.into p 0 F) (S.into p 1 G) (S.into p 2 H) ((S.into p 3 0).put (star E))) := by funext E; rw [bare4, S.into_put p 3 E]
  rw [e]
  exact lin_star ((fourBosons_fine₄ c _ _ _ (S.into p 3 0)).1 (by rwa [ne_eq, into_boson]))

end Reaction
end Spec

/-! ### states -/

section
variable {p₀ p₁ p₂ p₃ : V4 ℝ} {m₀ m₁ m₂ m₃ : ℝ} {A₀ S₀ A₁ S₁ A₂ S₂ A₃ S₃ : Fin 2 → V2} (h₀ : ∀ s, Bold p₀ m₀ (A₀ s, S₀ s)) (h₁ : ∀ s, Bold p₁ m₁ (A₁ s, S₁ s))
  (h₂ : ∀ s, Bold p₂ m₂ (A₂ s, S₂ s)) (h₃ : ∀ s, Bold p₃ m₃ (A₃ s, S₃ s))
include h₀ h₁ h₂

/-- three vector bosons -/
theorem three_vectors {B : Pair → Pair → Pair → Pair → Pair → Pair → ℂ} (a1 : ∀ x y a b d e f, B (x + y) a b d e f = B x a b d e f + B y a b d e f)
    (a2 : ∀ x y a b d e f, B a (x + y) b d e f = B a x b d e f + B a y b d e f) (a3 : ∀ x y a b d e f, B a b (x + y) d e f = B a b x d e f + B a b y d e f)
    (a4 : ∀ x y a b d e f, B a b d (x + y) e f = B a b d x e f + B a b d y e f) (a5 : ∀ x y a b d e f, B a b d e (x + y) f = B a b d e x f + B a b d e y f)
    (a6 : ∀ x y a b d e f, B a b d e f (x + y) = B a b d e f x + B a b d e f y) {G : Vec → Vec → Vec → ℂ} (g1 : ∀ F H, IsLinearMap ℂ (fun E => G E F H)) (g2 : ∀ E H, IsLinearMap ℂ (fun F => G E F H)) (g3 : ∀ E F, IsLinearMap ℂ (G E F)) (k : ℂ)
    (h : ∀ z z' z'', Bold p₀ m₀ z → Bold p₁ m₁ z' → Bold p₂ m₂ z'' → B z z z' z' z'' z'' = k * (((2 * √2 / (m₀ * m₁ * m₂) : ℝ) : ℂ) * G (pv z.1 z.2) (pv z'.1 z'.2) (pv z''.1 z''.2))) (t t' t'' : Fin 3) :
    comb t (fun a b => comb t' (fun a' b' => comb t'' (fun a'' b'' => B (A₀ a, S₀ a) (A₀ b, S₀ b) (A₁ a', S₁ a') (A₁ b', S₁ b') (A₂ a'', S₂ a'') (A₂ b'', S₂ b'')))) = k * G (polE A₀ S₀ m₀ t) (polE A₁ S₁ m₁ t') (polE A₂ S₂ m₂ t'') := by
  refine comb_polar h₀ (B := fun x y => comb t' (fun a' b' => comb t'' (fun a'' b'' => B x y (A₁ a', S₁ a') (A₁ b', S₁ b') (A₂ a'', S₂ a'') (A₂ b'', S₂ b'')))) (fun x y z => ?_) (fun x y z => ?_) (lin_mul k (g1 _ _)) (fun z hb => ?_) t
  · simp only [a1, comb_add]
  · simp only [a2, comb_add]
  · refine two_vectors h₁ h₂ (B := fun x y x' y' => B z z x y x' y') (fun _ _ _ _ _ => a3 ..) (fun _ _ _ _ _ => a4 ..) (fun _ _ _ _ _ => a5 ..) (fun _ _ _ _ _ => a6 ..) (G := fun F H => G (((√2 / m₀ : ℝ) : ℂ) • pv z.1 z.2) F H) (fun H => g2 _ H) (fun F => g3 _ F) k
      (fun z' z'' hb' hb'' => ?_) t' t''
    rw [h z z' z'' hb hb' hb'', (g1 _ _).map_smul, smul_eq_mul, ← mul_assoc (((2 / (m₁ * m₂) : ℝ) : ℂ))]
    congr 2
    rw [← Complex.ofReal_mul, div_mul_div_comm]
    congr 2
    ring

include h₃ in
/-- four vector bosons -/
theorem four_vectors {B : Pair → Pair → Pair → Pair → Pair → Pair → Pair → Pair → ℂ} (a1 : ∀ x y a b d e f g i, B (x + y) a b d e f g i = B x a b d e f g i + B y a b d e f g i)
    (a2 : ∀ x y a b d e f g i, B a (x + y) b d e f g i = B a x b d e f g i + B a y b d e f g i) (a3 : ∀ x y a b d e f g i, B a b (x + y) d e f g i = B a b x d e f g i + B a b y d e f g i)
    (a4 : ∀ x y a b d e f g i, B a b d (x + y) e f g i = B a b d x e f g i + B a b d y e f g i) (a5 : ∀ x y a b d e f g i, B a b d e (x + y) f g i = B a b d e x f g i + B a b d e y f g i)
    (a6 : ∀ x y a b d e f g i, B a b d e f (x + y) g i = B a b d e f x g i + B a b d e f y g i) (a7 : ∀ x y a b d e f g i, B a b d e f g (x + y) i = B a b d e f g x i + B a b d e f g y i)
    (a8 : ∀ x y a b d e f g i, B a b d e f g i (x + y) = B a b d e f g i x + B a b d e f g i y)
    {G : Vec → Vec → Vec → Vec → ℂ} (g1 : ∀ F H I, IsLinearMap ℂ (fun E => G E F H I)) (g2 : ∀ E H I, IsLinearMap ℂ (fun F => G E F H I)) (g3 : ∀ E F I, IsLinearMap ℂ (fun H => G E F H I)) (g4 : ∀ E F H, IsLinearMap ℂ (G E F H)) (k : ℂ)
    (h : ∀ z z' z'' z''', Bold p₀ m₀ z → Bold p₁ m₁ z' → Bold p₂ m₂ z'' → Bold p₃ m₃ z''' → B z z z' z' z'' z'' z''' z''' = k * (((4 / (m₀ * m₁ * m₂ * m₃) : ℝ) : ℂ) * G (pv z.1 z.2) (pv z'.1 z'.2) (pv z''.1 z''.2) (pv z'''.1 z'''.2)))
    (t t' t'' t''' : Fin 3) :
    comb t (fun a b => comb t' (fun a' b' => comb t'' (fun a'' b'' => comb t''' (fun d e => B (A₀ a, S₀ a) (A₀ b, S₀ b) (A₁ a', S₁ a') (A₁ b', S₁ b') (A₂ a'', S₂ a'') (A₂ b'', S₂ b'') (A₃ d, S₃ d) (A₃ e, S₃ e))))) =
      k * G (polE A₀ S₀ m₀ t) (polE A₁ S₁ m₁ t') (polE A₂ S₂ m₂ t'') (polE A₃ S₃ m₃ t''') := by
  refine comb_polar h₀ (B := fun x y => comb t' (fun a' b' => comb t'' (fun a'' b'' => comb t''' (fun d e => B x y (A₁ a', S₁ a') (A₁ b', S₁ b') (A₂ a'', S₂ a'') (A₂ b'', S₂ b'') (A₃ d, S₃ d) (A₃ e, S₃ e))))) (fun x y z => ?_) (fun x y z => ?_) (lin_mul k (g1 _ _ _)) (fun z hb => ?_) t
  · simp only [a1, comb_add]
  · simp only [a2, comb_add]
  · refine three_vectors h₁ h₂ h₃ (B := fun x y x' y' x'' y'' => B z z x y x' y' x'' y'') (fun _ _ _ _ _ _ _ => a3 ..) (fun _ _ _ _ _ _ _ => a4 ..) (fun _ _ _ _ _ _ _ => a5 ..) (fun _ _ _ _ _ _ _ => a6 ..) (fun _ _ _ _ _ _ _ => a7 ..) (fun _ _ _ _ _ _ _ => a8 ..)
      (G := fun F H I => G (((√2 / m₀ : ℝ) : ℂ) • pv z.1 z.2) F H I) (fun H I => g2 _ H I) (fun F I => g3 _ F I) (fun F H => g4 _ F H) k (fun z' z'' z''' hb' hb'' hb''' => ?_) t' t'' t'''
    rw [h z z' z'' z''' hb hb' hb'' hb''', (g1 _ _ _).map_smul, smul_eq_mul, ← mul_assoc (((2 * √2 / (m₁ * m₂ * m₃) : ℝ) : ℂ))]
    congr 2
    rw [← Complex.ofReal_mul, div_mul_div_comm, mul_assoc 2, Real.mul_self_sqrt (by norm_num)]
    congr 2
    · norm_num
    · ring
end

end
end Spinas
