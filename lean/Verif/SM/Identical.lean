import Verif.SM.PhotonBosons
import Verif.SM.FourFermion

/-! Exchanging identical particles: the amplitudes of the Feynman rules change at most their sign. -/

namespace Spinas
open Spec Matrix

noncomputable section

namespace Spec

/-- momenta with those of two legs exchanged -/
def exchanged (n m : Nat) (p : Nat → V4 ℝ) (i : Nat) : V4 ℝ := if i = n then p m else if i = m then p n else p i

/-- a pair of incoming or of outgoing legs -/
def beams : List (Fin 4 × Fin 4) := [(0, 1), (2, 3)]

section
variable {n m : Fin 4}

theorem exchanged_swap (p : Nat → V4 ℝ) (i : Fin 4) : exchanged n m p i = p (Equiv.swap n m i) := by
  unfold exchanged
  simp only [Equiv.swap_apply_def, ← Fin.ext_iff]
  split_ifs <;> rfl

theorem exchanged_balanced (h : (n, m) ∈ beams) {p : Nat → V4 ℝ} (hb : Balanced p) : Balanced (exchanged n m p) := by
  simp only [beams, List.mem_cons, Prod.mk.injEq, List.not_mem_nil, or_false] at h
  obtain ⟨ht, hx, hy, hz⟩ := hb
  rcases h with ⟨rfl, rfl⟩ | ⟨rfl, rfl⟩ <;> constructor <;> simp [exchanged] <;> linarith

theorem sum_swap {α β : Type} [DecidableEq α] [AddCommMonoid β] {A : Fin 4 → Finset α} (hA : ∀ i, A (Equiv.swap n m i) = A i) (F : (Fin 4 → α) → β) :
    ∑ s ∈ Fintype.piFinset A, F (fun i => s (Equiv.swap n m i)) = ∑ s ∈ Fintype.piFinset A, F s := by
  refine Finset.sum_nbij' (fun s i => s (Equiv.swap n m i)) (fun s i => s (Equiv.swap n m i)) ?_ ?_ ?_ ?_ ?_
  · intro s hs
    rw [Fintype.mem_piFinset] at hs ⊢
    intro i
    rw [← hA i]; exact hs _
  · intro s hs
    rw [Fintype.mem_piFinset] at hs ⊢
    intro i
    rw [← hA i]; exact hs _
  · intro s _; simp
  · intro s _; simp
  · intro s _; rfl
end

/-! ### bosons -/

theorem meets_comm (a b x : Boson) : Reaction.meets a b x = Reaction.meets b a x := by cases a <;> cases b <;> cases x <;> rfl

theorem structureConstant_swap (a b d : Fin 8) : structureConstant b a d = -structureConstant a b d := by
  unfold structureConstant
  rw [← neg_sub, Matrix.neg_mul]
  simp only [Matrix.neg_apply, Finset.sum_neg_distrib]
  ring

theorem adjoint_comm₁ (a b d e : Fin 8) : adjoint b a d e = -adjoint a b d e := by
  unfold adjoint
  rw [← Finset.sum_neg_distrib]
  exact Finset.sum_congr rfl fun x _ => by rw [structureConstant_swap]; ring
theorem adjoint_flip (a b d e : Fin 8) : adjoint d e a b = adjoint a b d e := Finset.sum_congr rfl fun x _ => mul_comm ..
theorem adjoint_comm₂ (a b d e : Fin 8) : adjoint a b e d = -adjoint a b d e := by rw [adjoint_flip, adjoint_comm₁, adjoint_flip]

theorem gluonFusion_comm (c : Constants) (f g : Flavour) (w w' : Spinor) (a b : Line) : gluonFusion c f g w w' b a = -gluonFusion c f g w w' a b := by
  unfold gluonFusion
  have e : (c.gs : ℂ) • yangMills b.k b.ε a.k a.ε = (-1 : ℂ) • (c.gs : ℂ) • yangMills a.k a.ε b.k b.ε := by rw [yangMills_swap, smul_neg, neg_one_smul]
  rw [e, (propagate_lin c .gluon _).map_smul, plus_comm b.k a.k]
  simp only [and_comm (a := b.boson = .gluon) (b := a.boson = .gluon)]
  split_ifs
  · have := (vertex_lin c f g w w' (x := .gluon) (by simp)).map_smul (-1 : ℂ) (propagate c .gluon (plus a.k b.k) ((c.gs : ℂ) • yangMills a.k a.ε b.k b.ε))
    rw [this, neg_one_smul]
  · simp

theorem annihilation_comm (c : Constants) (f g : Flavour) (w w' : Spinor) (a b : Line) : annihilation c f g w w' b a = annihilation c f g w w' a b := by
  unfold annihilation
  rw [toHiggs_comm, plus_comm]
  simp only [toVector_comm c b a]

theorem gluonExchange_comm₁ (c : Constants) (a b d e : Line) : gluonExchange c b a d e = -gluonExchange c a b d e := by
  unfold gluonExchange
  have h : yangMills b.k b.ε a.k a.ε = (-1 : ℂ) • yangMills a.k a.ε b.k b.ε := by rw [yangMills_swap, neg_one_smul]
  rw [h, (propagate_lin c .gluon _).map_smul, plus_comm b.k a.k, contract_smul_left]
  ring
theorem gluonExchange_comm₂ (c : Constants) (a b d e : Line) : gluonExchange c a b e d = -gluonExchange c a b d e := by
  unfold gluonExchange
  have h : yangMills e.k e.ε d.k d.ε = (-1 : ℂ) • yangMills d.k d.ε e.k e.ε := by rw [yangMills_swap, neg_one_smul]
  rw [h, contract_smul]
  ring
theorem gluonExchange_flip (c : Constants) {a b d e : Line} (h : plus d.k e.k = backward (plus a.k b.k)) : gluonExchange c d e a b = gluonExchange c a b d e := by
  unfold gluonExchange
  rw [propagate_flip c (x := .gluon) (y := .gluon) rfl h (yangMills a.k a.ε b.k b.ε), contract_swap d.ε a.ε, contract_swap e.ε b.ε, contract_swap d.ε b.ε, contract_swap e.ε a.ε]
  ring

/-- momenta that add up to zero -/
theorem back_of_sum {k l q r : V4 ℝ} (h : plus (plus k l) (plus q r) = ⟨0, 0, 0, 0⟩) : plus l q = backward (plus k r) ∧ plus l r = backward (plus k q) ∧ plus q r = backward (plus k l) := by
  simp only [plus, V4.mk.injEq] at h
  obtain ⟨h0, h1, h2, h3⟩ := h
  simp only [plus, backward, V4.mk.injEq]
  refine ⟨⟨?_, ?_, ?_, ?_⟩, ⟨?_, ?_, ?_, ?_⟩, ?_, ?_, ?_, ?_⟩ <;> linarith

theorem fourGluons_swap₀₁ (c : Constants) (g₀ g₁ g₂ g₃ : Fin 8) {a b d e : Line} (h : plus (plus a.k b.k) (plus d.k e.k) = ⟨0, 0, 0, 0⟩) :
    fourGluons c g₁ g₀ g₂ g₃ b a d e = fourGluons c g₀ g₁ g₂ g₃ a b d e := by
  obtain ⟨h1, h2, -⟩ := back_of_sum h
  unfold fourGluons
  rw [adjoint_comm₁, gluonExchange_comm₁, adjoint_flip g₀ g₃ g₁ g₂, adjoint_flip g₀ g₂ g₁ g₃, gluonExchange_flip c h1, gluonExchange_flip c h2]
  simp only [and_left_comm (a := b.boson = .gluon) (b := a.boson = .gluon)]
  split_ifs
  · ring
  · rfl
theorem fourGluons_swap₂₃ (c : Constants) (g₀ g₁ g₂ g₃ : Fin 8) (a b d e : Line) : fourGluons c g₀ g₁ g₃ g₂ a b e d = fourGluons c g₀ g₁ g₂ g₃ a b d e := by
  unfold fourGluons
  rw [adjoint_comm₂, gluonExchange_comm₂]
  simp only [and_comm (a := e.boson = .gluon) (b := d.boson = .gluon)]
  split_ifs
  · ring
  · rfl

namespace Reaction

/-- two identical particles that both come in or both go out -/
structure Identical (S : Reaction) (n m : Fin 4) : Prop where
  beam : (n, m) ∈ beams
  leg : S.leg n = S.leg m

namespace Identical
variable {S : Reaction} {n m : Fin 4} (h : S.Identical n m)
include h

theorem same (i : Fin 4) : S.leg (Equiv.swap n m i) = S.leg i := by
  have := h.leg
  rw [Equiv.swap_apply_def]
  split_ifs <;> simp_all
theorem way (i : Fin 4) : arrives (Equiv.swap n m i) = arrives i := by
  have h := h.beam
  simp only [beams, List.mem_cons, Prod.mk.injEq, List.not_mem_nil, or_false] at h
  rcases h with ⟨rfl, rfl⟩ | ⟨rfl, rfl⟩ <;> revert i <;> decide

theorem flavours (i : Fin 4) : S.flavour (Equiv.swap n m i) = S.flavour i := by unfold flavour; rw [h.same]
theorem bosonTypes (i : Fin 4) : S.boson (Equiv.swap n m i) = S.boson i := by unfold boson; rw [h.same]
theorem mass (c : Constants) (i : Fin 4) : S.mass c (Equiv.swap n m i) = S.mass c i := by unfold Reaction.mass; rw [h.same]
theorem alongs (p : Nat → V4 ℝ) (i : Fin 4) : S.along (exchanged n m p) i = S.along p (Equiv.swap n m i) := by unfold along antifermion; rw [h.same, exchanged_swap]
theorem lines (p : Nat → V4 ℝ) (ε : Fin 4 → Vec) (i : Fin 4) : S.line (exchanged n m p) (fun i => ε (Equiv.swap n m i)) i = S.line p ε (Equiv.swap n m i) := by
  unfold line
  rw [h.way, h.bosonTypes, exchanged_swap]
theorem lines₀ (p : Nat → V4 ℝ) (i : Fin 4) : S.line (exchanged n m p) (fun _ => 0) i = S.line p (fun _ => 0) (Equiv.swap n m i) := h.lines p (fun _ => 0) i
theorem coloured (γ : Fin 4 → Fin 8) (i : Fin 4) : S.colour (fun i => γ (Equiv.swap n m i)) i = S.colour γ (Equiv.swap n m i) := by unfold colour; rw [h.bosonTypes]

theorem mem_ends {i : Fin 4} (hi : i ∈ S.ends) : Equiv.swap n m i ∈ S.ends := by
  unfold ends at hi ⊢
  rw [List.mem_filter] at hi ⊢
  refine ⟨by generalize Equiv.swap n m i = j; revert j; decide, ?_⟩
  rw [← hi.2]; unfold isEnd; rw [h.same, h.way]
theorem mem_starts {i : Fin 4} (hi : i ∈ S.starts) : Equiv.swap n m i ∈ S.starts := by
  unfold starts at hi ⊢
  rw [List.mem_filter] at hi ⊢
  refine ⟨by generalize Equiv.swap n m i = j; revert j; decide, ?_⟩
  rw [← hi.2]; unfold isStart; rw [h.same, h.way]
theorem mem_bosons {i : Fin 4} (hi : i ∈ S.bosons) : Equiv.swap n m i ∈ S.bosons := by
  unfold bosons at hi ⊢
  rw [List.mem_filter] at hi ⊢
  refine ⟨by generalize Equiv.swap n m i = j; revert j; decide, ?_⟩
  rw [← hi.2]; unfold isBoson; rw [h.same]

theorem pair {a b : Fin 4} (e : S.bosons = [a, b]) : (Equiv.swap n m a = a ∧ Equiv.swap n m b = b) ∨ (Equiv.swap n m a = b ∧ Equiv.swap n m b = a) := by
  have h1 := h.mem_bosons (i := a) (by simp [e])
  have h2 := h.mem_bosons (i := b) (by simp [e])
  have hn : S.bosons.Nodup := List.Nodup.filter _ (by decide)
  rw [e] at h1 h2 hn
  have hab : a ≠ b := by simpa using hn
  have hne : Equiv.swap n m a ≠ Equiv.swap n m b := fun hh => hab ((Equiv.swap n m).injective hh)
  simp only [List.mem_cons, List.not_mem_nil, or_false] at h1 h2
  rcases h1 with h1 | h1 <;> rcases h2 with h2 | h2 <;> rw [h1, h2] at hne ⊢ <;> simp_all

omit h in
theorem four {n₀ n₁ n₂ n₃ : Fin 4} (e : S.bosons = [n₀, n₁, n₂, n₃]) : n₀ = 0 ∧ n₁ = 1 ∧ n₂ = 2 ∧ n₃ = 3 := by
  have hs : List.Sublist S.bosons [0, 1, 2, 3] := List.filter_sublist
  have := hs.eq_of_length (by rw [e]; rfl)
  rw [e] at this
  simpa using this

omit h in
theorem momentum {p : Nat → V4 ℝ} (hb : Balanced p) (ε : Fin 4 → Vec) : plus (plus (S.line p ε 0).k (S.line p ε 1).k) (plus (S.line p ε 2).k (S.line p ε 3).k) = ⟨0, 0, 0, 0⟩ := by
  obtain ⟨ht, hx, hy, hz⟩ := hb
  simp only [line, arrives, Fin.isValue, plus, V4.mk.injEq]
  simp [backward]
  refine ⟨?_, ?_, ?_, ?_⟩ <;> linarith

theorem amplitude_exchange {p : Nat → V4 ℝ} (hb : Balanced p) (c : Constants) (κ : Fin 4 → Fin 3) (γ : Fin 4 → Fin 8) (w : Fin 4 → Spinor) (ε : Fin 4 → Vec) :
    S.amplitude c (exchanged n m p) (fun i => κ (Equiv.swap n m i)) (fun i => γ (Equiv.swap n m i)) (fun i => w (Equiv.swap n m i)) (fun i => ε (Equiv.swap n m i)) = S.amplitude c p κ γ w ε := by
  unfold amplitude
  split
  · rename_i i j a b e1 e2 e3
    have hi : Equiv.swap n m i = i := by have := h.mem_ends (i := i) (by simp [e1]); rw [e1] at this; simpa using this
    have hj : Equiv.swap n m j = j := by have := h.mem_starts (i := j) (by simp [e2]); rw [e2] at this; simpa using this
    unfold oneLine
    simp only [h.lines, h.alongs, h.coloured, hi, hj]
    rcases h.pair e3 with ⟨ea, eb⟩ | ⟨ea, eb⟩
    · rw [ea, eb]
    · rw [ea, eb, annihilation_comm, gluonFusion_comm]
      simp only [Matrix.sub_apply]
      ring
  · rename_i n₀ n₁ n₂ n₃ e1 e2 e3
    obtain ⟨rfl, rfl, rfl, rfl⟩ := four e3
    have hm := momentum (S := S) hb ε
    simp only [h.lines]
    have hbm := h.beam
    simp only [beams, List.mem_cons, Prod.mk.injEq, List.not_mem_nil, or_false] at hbm
    rcases hbm with ⟨rfl, rfl⟩ | ⟨rfl, rfl⟩
    · have s2 : Equiv.swap (0 : Fin 4) 1 2 = 2 := by decide
      have s3 : Equiv.swap (0 : Fin 4) 1 3 = 3 := by decide
      simp only [Equiv.swap_apply_left, Equiv.swap_apply_right, s2, s3]
      rw [fourBosons_swap₀₁ c hm, fourGluons_swap₀₁ c _ _ _ _ hm]
    · have s0 : Equiv.swap (2 : Fin 4) 3 0 = 0 := by decide
      have s1 : Equiv.swap (2 : Fin 4) 3 1 = 1 := by decide
      simp only [Equiv.swap_apply_left, Equiv.swap_apply_right, s0, s1]
      rw [fourBosons_swap₂₃, fourGluons_swap₂₃]
  · rfl

theorem regular_exchange {p : Nat → V4 ℝ} (hb : Balanced p) {c : Constants} (hr : S.Regular c p) : S.Regular c (exchanged n m p) := by
  unfold Regular at hr ⊢
  split at hr
  · rename_i i j a b e1 e2 e3
    have hi : Equiv.swap n m i = i := by have := h.mem_ends (i := i) (by simp [e1]); rw [e1] at this; simpa using this
    have hj : Equiv.swap n m j = j := by have := h.mem_starts (i := j) (by simp [e2]); rw [e2] at this; simpa using this
    simp only [Fermionic, Bosonic, h.lines₀, h.alongs, hi, hj] at hr ⊢
    obtain ⟨h1, h2, h3⟩ := hr
    rcases h.pair e3 with ⟨ea, eb⟩ | ⟨ea, eb⟩
    · rw [ea, eb]; exact ⟨h1, h2, h3⟩
    · rw [ea, eb]
      refine ⟨h2, h1, fun x hx => ?_⟩
      rw [plus_comm]
      exact h3 x (by rw [meets_comm]; exact hx)
  · rename_i n₀ n₁ n₂ n₃ e1 e2 e3
    obtain ⟨rfl, rfl, rfl, rfl⟩ := four e3
    have hm := momentum (S := S) hb (fun _ => 0)
    obtain ⟨b1, b2, b3⟩ := back_of_sum hm
    obtain ⟨h1, h2, h3⟩ := hr
    simp only [Mediating, h.lines₀] at h1 h2 h3 ⊢
    have den : ∀ x k, denominator c x.anti (backward k) = denominator c x k := fun x k => by rw [denominator_back]; cases x <;> rfl
    have aa : ∀ x : Boson, x.anti.anti = x := fun x => by cases x <;> rfl
    have hbm := h.beam
    simp only [beams, List.mem_cons, Prod.mk.injEq, List.not_mem_nil, or_false] at hbm
    rcases hbm with ⟨rfl, rfl⟩ | ⟨rfl, rfl⟩
    · have s2 : Equiv.swap (0 : Fin 4) 1 2 = 2 := by decide
      have s3 : Equiv.swap (0 : Fin 4) 1 3 = 3 := by decide
      simp only [Equiv.swap_apply_left, Equiv.swap_apply_right, s2, s3]
      refine ⟨fun x hx hy => ?_, fun x hx hy => ?_, fun x hx hy => ?_⟩
      · rw [plus_comm]
        exact h1 x (by rw [meets_comm]; exact hx) hy
      · have := h3 x.anti (by rw [aa]; exact hy) hx
        rw [← den, aa, ← b1] at this
        exact this
      · have := h2 x.anti (by rw [aa]; exact hy) hx
        rw [← den, aa, ← b2] at this
        exact this
    · have s0 : Equiv.swap (2 : Fin 4) 3 0 = 0 := by decide
      have s1 : Equiv.swap (2 : Fin 4) 3 1 = 1 := by decide
      simp only [Equiv.swap_apply_left, Equiv.swap_apply_right, s0, s1]
      refine ⟨fun x hx hy => h1 x hx (by rw [meets_comm]; exact hy), h3, h2⟩
  · trivial

theorem complete_exchange {p : Nat → V4 ℝ} {c : Constants} {u : Fin 4 → Fin 3 → Spinor} {ε : Fin 4 → Fin 3 → Vec} (hu : ∀ i, S.Complete c p i (u i) (ε i)) (i : Fin 4) :
    S.Complete c (exchanged n m p) i (u (Equiv.swap n m i)) (ε (Equiv.swap n m i)) := by
  have := hu (Equiv.swap n m i)
  unfold Complete at this ⊢
  rw [h.same] at this
  rw [exchanged_swap]
  exact this

theorem squared_exchange {p : Nat → V4 ℝ} (hb : Balanced p) (c : Constants) (u : Fin 4 → Fin 3 → Spinor) (ε : Fin 4 → Fin 3 → Vec) :
    S.squared c (exchanged n m p) (fun i => u (Equiv.swap n m i)) (fun i => ε (Equiv.swap n m i)) = S.squared c p u ε := by
  unfold squared
  congr 1
  rw [← sum_swap (n := n) (m := m) (A := S.spins) (fun i => by unfold spins; rw [h.same])]
  refine Finset.sum_congr rfl fun s _ => ?_
  rw [← sum_swap (n := n) (m := m) (A := S.colours) (fun i => by unfold colours; rw [h.same])]
  refine Finset.sum_congr rfl fun κ _ => ?_
  rw [← sum_swap (n := n) (m := m) (A := S.gluons) (fun i => by unfold gluons; rw [h.bosonTypes])]
  refine Finset.sum_congr rfl fun γ _ => ?_
  rw [h.amplitude_exchange hb c κ γ (fun i => u i (s i)) (fun i => ε i (s i))]

end Identical
end Reaction

/-! ### four fermions -/

namespace Scattering

/-- two identical particles that both come in or both go out -/
structure Identical (S : Scattering) (n m : Fin 4) : Prop where
  beam : (n, m) ∈ beams
  leg : S.leg n = S.leg m

variable {S : Scattering}

theorem msq_sub {q r : V4 ℝ} (h : r = backward q) : msq r = msq q := by rw [h, msq_backward]
theorem four_backward (q : V4 ℝ) : four (backward q) = -four q := by ext i; fin_cases i <;> simp [four, backward]

theorem exchangeMassless_flip (a b c d : Spinor) {q r : V4 ℝ} (h : r = backward q) : exchangeMassless c d a b r = exchangeMassless a b c d q := by
  unfold exchangeMassless
  rw [h, msq_backward, contract_swap]
theorem exchangeMassive_flip (m w gL gR hL hR : ℝ) (a b c d : Spinor) {q r : V4 ℝ} (h : r = backward q) : exchangeMassive m w hL hR gL gR c d a b r = exchangeMassive m w gL gR hL hR a b c d q := by
  unfold exchangeMassive breitWigner
  rw [h, msq_backward, contract_swap, contract_four_back, contract_four_back]
  ring
theorem exchangeScalar_flip (m w : ℝ) (a b c d : Spinor) {q r : V4 ℝ} (h : r = backward q) : exchangeScalar m w c d a b r = exchangeScalar m w a b c d q := by
  unfold exchangeScalar breitWigner
  rw [h, msq_backward]
  ring

/-- The two lines may be named in any order. -/
theorem electroweak_flip (c : Constants) {p : Nat → V4 ℝ} (w : Fin 4 → Spinor) {i j k l : Fin 4} (h : S.transfer p k l = backward (S.transfer p i j)) : S.electroweak c p w k l i j = S.electroweak c p w i j k l := by
  have hn : S.neutral k l i j ↔ S.neutral i j k l := and_comm
  have hc : S.charged k l i j ↔ S.charged i j k l := by unfold charged; tauto
  unfold electroweak
  simp only [hn, hc, exchangeMassless_flip _ _ _ _ h, exchangeMassive_flip _ _ _ _ _ _ _ _ _ _ h, exchangeScalar_flip _ _ _ _ _ _ h]
  congr 1
  refine if_congr Iff.rfl ?_ rfl
  congr 1
  · congr 2; ring
  · refine if_congr Iff.rfl ?_ rfl
    congr 3; ring

theorem strong_flip (c : Constants) {p : Nat → V4 ℝ} (w : Fin 4 → Spinor) {i j k l : Fin 4} (h : S.transfer p k l = backward (S.transfer p i j)) : S.strong c p w k l i j = S.strong c p w i j k l := by
  have hn : S.neutral k l i j ↔ S.neutral i j k l := and_comm
  unfold strong
  rw [exchangeMassless_flip _ _ _ _ h]
  refine if_congr ?_ rfl rfl
  rw [hn]; tauto

theorem connected_flip (c : Constants) {p : Nat → V4 ℝ} (κ : Fin 4 → Fin 3) (w : Fin 4 → Spinor) {i j k l : Fin 4} (h : S.transfer p k l = backward (S.transfer p i j)) : S.connected c p κ w k l i j = S.connected c p κ w i j k l := by
  have hg : gluonColour (κ k) (κ l) (κ i) (κ j) = gluonColour (κ i) (κ j) (κ k) (κ l) := Finset.sum_congr rfl fun x _ => mul_comm ..
  unfold connected
  rw [electroweak_flip c w h, strong_flip c w h, hg]
  ring

theorem offPole_flip {c : Constants} {p : Nat → V4 ℝ} {i j k l : Fin 4} (h : S.transfer p k l = backward (S.transfer p i j)) (ho : S.OffPole c p i j k l) : S.OffPole c p k l i j := by
  have hn : S.neutral k l i j ↔ S.neutral i j k l := and_comm
  have hc : S.charged k l i j ↔ S.charged i j k l := by unfold charged; tauto
  have bw : ∀ m w, breitWigner m w (backward (S.transfer p i j)) = breitWigner m w (S.transfer p i j) := fun m w => by unfold breitWigner; rw [msq_backward]
  unfold OffPole at ho ⊢
  simp only [hn, hc, h, bw, msq_backward] at ho ⊢
  rw [mul_comm (S.leg k).flavour.charge, mul_comm (c.mass (S.leg k).flavour)]
  exact ho

/-- What one line gives off, the other takes up. -/
theorem transfer_back {p : Nat → V4 ℝ} (hb : Balanced p) {i j k l : Fin 4} (e1 : S.ends = [i, k]) (e2 : S.starts = [j, l]) :
    S.transfer p k l = backward (S.transfer p i j) ∧ S.transfer p k j = backward (S.transfer p i l) := by
  obtain ⟨ht, hx, hy, hz⟩ := hb
  rcases h0 : (S.leg 0).anti <;> rcases h1 : (S.leg 1).anti <;> rcases h2 : (S.leg 2).anti <;> rcases h3 : (S.leg 3).anti <;>
    simp [ends, starts, outgoing, h0, h1, h2, h3] at e1 e2
  all_goals
    obtain ⟨rfl, rfl⟩ := e1
    obtain ⟨rfl, rfl⟩ := e2
    simp [transfer, flow, h0, h1, h2, h3, backward]
    refine ⟨⟨?_, ?_, ?_, ?_⟩, ?_, ?_, ?_, ?_⟩ <;> linarith

namespace Identical
variable {n m : Fin 4} (h : S.Identical n m)
include h

theorem same (i : Fin 4) : S.leg (Equiv.swap n m i) = S.leg i := by
  have := h.leg
  rw [Equiv.swap_apply_def]
  split_ifs <;> simp_all
theorem way (i : Fin 4) : outgoing (Equiv.swap n m i) = outgoing i := by
  have h := h.beam
  simp only [beams, List.mem_cons, Prod.mk.injEq, List.not_mem_nil, or_false] at h
  rcases h with ⟨rfl, rfl⟩ | ⟨rfl, rfl⟩ <;> revert i <;> decide

theorem flows (p : Nat → V4 ℝ) (i : Fin 4) : S.flow (exchanged n m p) i = S.flow p (Equiv.swap n m i) := by unfold flow; rw [h.same, exchanged_swap]
theorem transfers (p : Nat → V4 ℝ) (i j : Fin 4) : S.transfer (exchanged n m p) i j = S.transfer p (Equiv.swap n m i) (Equiv.swap n m j) := by unfold transfer; rw [h.flows, h.flows]
theorem neutrals (i j k l : Fin 4) : S.neutral (Equiv.swap n m i) (Equiv.swap n m j) (Equiv.swap n m k) (Equiv.swap n m l) ↔ S.neutral i j k l := by unfold neutral; simp only [h.same]
theorem chargeds (i j k l : Fin 4) : S.charged (Equiv.swap n m i) (Equiv.swap n m j) (Equiv.swap n m k) (Equiv.swap n m l) ↔ S.charged i j k l := by unfold charged; simp only [h.same]

theorem connecteds (c : Constants) (p : Nat → V4 ℝ) (κ : Fin 4 → Fin 3) (w : Fin 4 → Spinor) (i j k l : Fin 4) :
    S.connected c (exchanged n m p) (fun i => κ (Equiv.swap n m i)) (fun i => w (Equiv.swap n m i)) i j k l = S.connected c p κ w (Equiv.swap n m i) (Equiv.swap n m j) (Equiv.swap n m k) (Equiv.swap n m l) := by
  unfold connected electroweak strong
  simp only [h.transfers, h.neutrals, h.chargeds, h.same]

theorem offPoles (c : Constants) (p : Nat → V4 ℝ) (i j k l : Fin 4) : S.OffPole c (exchanged n m p) i j k l ↔ S.OffPole c p (Equiv.swap n m i) (Equiv.swap n m j) (Equiv.swap n m k) (Equiv.swap n m l) := by
  unfold OffPole
  simp only [h.transfers, h.neutrals, h.chargeds, h.same]

theorem mem_ends {i : Fin 4} (hi : i ∈ S.ends) : Equiv.swap n m i ∈ S.ends := by
  unfold ends at hi ⊢
  rw [List.mem_filter] at hi ⊢
  refine ⟨by generalize Equiv.swap n m i = j; revert j; decide, ?_⟩
  rw [← hi.2, h.same, h.way]
theorem mem_starts {i : Fin 4} (hi : i ∈ S.starts) : Equiv.swap n m i ∈ S.starts := by
  unfold starts at hi ⊢
  rw [List.mem_filter] at hi ⊢
  refine ⟨by generalize Equiv.swap n m i = j; revert j; decide, ?_⟩
  rw [← hi.2, h.same, h.way]

omit h in
theorem pair_of {L : List (Fin 4)} (hm : ∀ i ∈ L, Equiv.swap n m i ∈ L) (hn : L.Nodup) {a b : Fin 4} (e : L = [a, b]) :
    (Equiv.swap n m a = a ∧ Equiv.swap n m b = b) ∨ (Equiv.swap n m a = b ∧ Equiv.swap n m b = a) := by
  have h1 := hm a (by simp [e])
  have h2 := hm b (by simp [e])
  rw [e] at h1 h2 hn
  have hab : a ≠ b := by simpa using hn
  have hne : Equiv.swap n m a ≠ Equiv.swap n m b := fun hh => hab ((Equiv.swap n m).injective hh)
  simp only [List.mem_cons, List.not_mem_nil, or_false] at h1 h2
  rcases h1 with h1 | h1 <;> rcases h2 with h2 | h2 <;> rw [h1, h2] at hne ⊢ <;> simp_all

/-- The amplitude changes at most its sign. -/
theorem amplitude_exchange {p : Nat → V4 ℝ} (hb : Balanced p) (c : Constants) (κ : Fin 4 → Fin 3) (w : Fin 4 → Spinor) :
    ‖S.amplitude c (exchanged n m p) (fun i => κ (Equiv.swap n m i)) (fun i => w (Equiv.swap n m i))‖ = ‖S.amplitude c p κ w‖ := by
  unfold amplitude
  split
  · rename_i i k j l e1 e2
    simp only [h.connecteds]
    obtain ⟨t1, t2⟩ := transfer_back hb e1 e2
    have f1 := connected_flip c κ w t1
    have f2 := connected_flip c κ w t2
    rcases pair_of (fun i => h.mem_ends) (List.Nodup.filter _ (by decide)) e1 with ⟨a1, a2⟩ | ⟨a1, a2⟩ <;>
    rcases pair_of (fun i => h.mem_starts) (List.Nodup.filter _ (by decide)) e2 with ⟨b1, b2⟩ | ⟨b1, b2⟩ <;>
    rw [a1, a2, b1, b2]
    · exact norm_sub_rev _ _
    · rw [f1, f2]; exact norm_sub_rev _ _
    · rw [f1, f2]
  · rfl

theorem regular_exchange {p : Nat → V4 ℝ} (hb : Balanced p) {c : Constants} (hr : S.Regular c p) : S.Regular c (exchanged n m p) := by
  unfold Regular at hr ⊢
  split at hr
  · rename_i i k j l e1 e2
    simp only [h.offPoles]
    obtain ⟨t1, t2⟩ := transfer_back hb e1 e2
    obtain ⟨r1, r2⟩ := hr
    have f1 := offPole_flip t1 r1
    have f2 := offPole_flip t2 r2
    rcases pair_of (fun i => h.mem_ends) (List.Nodup.filter _ (by decide)) e1 with ⟨a1, a2⟩ | ⟨a1, a2⟩ <;>
    rcases pair_of (fun i => h.mem_starts) (List.Nodup.filter _ (by decide)) e2 with ⟨b1, b2⟩ | ⟨b1, b2⟩ <;>
    rw [a1, a2, b1, b2]
    · exact ⟨r1, r2⟩
    · exact ⟨r2, r1⟩
    · exact ⟨f2, f1⟩
    · exact ⟨f1, f2⟩
  · trivial

theorem complete_exchange {p : Nat → V4 ℝ} {c : Constants} {u : Fin 4 → Fin 2 → Spinor} (hu : ∀ i, S.Complete c p i (u i)) (i : Fin 4) : S.Complete c (exchanged n m p) i (u (Equiv.swap n m i)) := by
  have := hu (Equiv.swap n m i)
  unfold Complete at this ⊢
  rw [h.same] at this
  rw [exchanged_swap]
  exact this

theorem squared_exchange {p : Nat → V4 ℝ} (hb : Balanced p) (c : Constants) (u : Fin 4 → Fin 2 → Spinor) : S.squared c (exchanged n m p) (fun i => u (Equiv.swap n m i)) = S.squared c p u := by
  unfold squared
  refine congrArg₂ (· / ·) ?_ rfl
  have hF : ∀ F : (Fin 4 → Fin 2) → ℝ, ∑ s, F s = ∑ s : Fin 4 → Fin 2, F fun i => s (Equiv.swap n m i) := by
    intro F
    have := sum_swap (n := n) (m := m) (A := fun _ => (Finset.univ : Finset (Fin 2))) (fun i => rfl) F
    rw [Fintype.piFinset_univ] at this
    exact this.symm
  rw [hF]
  refine Finset.sum_congr rfl fun s _ => ?_
  rw [← sum_swap (n := n) (m := m) (A := fun i => (S.leg i).flavour.colours) (fun i => by rw [h.same])]
  refine Finset.sum_congr rfl fun κ _ => ?_
  rw [h.amplitude_exchange hb c κ (fun i => u i (s i))]

end Identical
end Scattering
end Spec
end
end Spinas
