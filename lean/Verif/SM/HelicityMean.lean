import Verif.SM.Polar

/-! An average over the spins is one over the two helicities of an incoming photon or gluon. -/

namespace Spinas
open Spec Matrix

namespace Spec.Reaction
variable (S : Reaction) {c : Constants} {p : Nat → V4 ℝ}

/-- leg `n` has the helicity `r` -/
def onlyLeg (n : Fin 4) (r : Bool) (m : Fin 4) : Option Bool := if m = n then some r else none

/-- also leg `n` has the helicity `r` -/
def alsoLeg (H : Fin 4 → Option Bool) (n : Fin 4) (r : Bool) (m : Fin 4) : Option Bool := if m = n then some r else H m

/-- all states of leg `n` are the state `t` -/
def hold {α : Type} (n : Fin 4) (t : Fin 3) (f : Fin 4 → Fin 3 → α) (m : Fin 4) (s : Fin 3) : α := if m = n then f m t else f m s

variable {S}

theorem light_spins {b : Boson} (hb : b.massive = false) : b.spins = {0, 1} := by cases b <;> first | rfl | cases hb

theorem sum_hold {H : Fin 4 → Option Bool} {n : Fin 4} (h0 : H n = none) {r : Bool} (t : Fin 3) (ht : t ∈ S.spins n) (F : (Fin 4 → Fin 3) → ℝ) :
    ∑ s ∈ (Fintype.piFinset (S.someSpins H)).filter (fun s => s n = t), F s = ∑ s ∈ Fintype.piFinset (S.someSpins (alsoLeg H n r)), F (Function.update s n t) := by
  symm
  refine Finset.sum_nbij (fun s => Function.update s n t) (fun s hs => ?_) (fun s hs s' hs' e => ?_) (fun s hs => ?_) (fun s hs => rfl)
  · rw [Finset.mem_filter, Fintype.mem_piFinset]
    refine ⟨fun m => ?_, by simp⟩
    by_cases hm : m = n
    · rw [hm, Function.update_self]; simpa [someSpins, h0] using ht
    · rw [Function.update_of_ne hm]
      have := Fintype.mem_piFinset.1 hs m
      simpa [someSpins, alsoLeg, hm] using this
  · rw [Finset.mem_coe, Fintype.mem_piFinset] at hs hs'
    funext m
    by_cases hm : m = n
    · have h1 := hs m
      have h2 := hs' m
      simp [someSpins, alsoLeg, hm] at h1 h2
      rw [hm, h1, h2]
    · have := congrFun e m
      simpa [Function.update_of_ne hm] using this
  · rw [Finset.mem_coe, Finset.mem_filter, Fintype.mem_piFinset] at hs
    refine ⟨Function.update s n 0, ?_, by simp [← hs.2]⟩
    rw [Finset.mem_coe, Fintype.mem_piFinset]
    intro m
    by_cases hm : m = n
    · simp [someSpins, alsoLeg, hm]
    · simpa [someSpins, alsoLeg, hm, Function.update_of_ne hm] using hs.1 m

theorem hold_update {α : Type} (n : Fin 4) (t : Fin 3) (f : Fin 4 → Fin 3 → α) (s : Fin 4 → Fin 3) : (fun m => f m (Function.update s n t m)) = fun m => hold n t f m (s m) := by
  funext m
  by_cases hm : m = n
  · subst hm; simp [hold]
  · simp [hold, hm]

/-- A mean over spins is the mean over the two states of an incoming photon or gluon. -/
theorem prepared_mean {H : Fin 4 → Option Bool} {n : Fin 4} (h0 : H n = none) (hn : arrives n = true) {b : Boson} (hl : S.leg n = .boson b) (hb : b.massive = false) (u : Fin 4 → Fin 3 → Spinor) (ε : Fin 4 → Fin 3 → Vec) :
    S.prepared c p H u ε = (S.prepared c p (alsoLeg H n true) (hold n 1 u) (hold n 1 ε) + S.prepared c p (alsoLeg H n false) (hold n 0 u) (hold n 0 ε)) / 2 := by
  have hS : S.someSpins H n = {0, 1} := by simp [someSpins, h0, spins, hl, light_spins hb]
  have hS' : S.spins n = {0, 1} := by simp [spins, hl, light_spins hb]
  have hst : S.states n = 2 * S.colourStates n := by simp [states, colourStates, hl, light_spins hb, colours]
  have hD : ∀ r, ((S.someStates H 0 * S.someStates H 1 * S.symmetry : ℕ) : ℝ) = 2 * ((S.someStates (alsoLeg H n r) 0 * S.someStates (alsoLeg H n r) 1 * S.symmetry : ℕ) : ℝ) := by
    intro r
    have : n = 0 ∨ n = 1 := by revert hn; fin_cases n <;> simp [arrives]
    rcases this with rfl | rfl
    · simp [someStates, alsoLeg, h0, hst]; ring
    · simp [someStates, alsoLeg, h0, hst]; ring
  have hsum : ∀ F : (Fin 4 → Fin 3) → ℝ, ∑ s ∈ Fintype.piFinset (S.someSpins H), F s =
      ∑ s ∈ Fintype.piFinset (S.someSpins (alsoLeg H n true)), F (Function.update s n 1) + ∑ s ∈ Fintype.piFinset (S.someSpins (alsoLeg H n false)), F (Function.update s n 0) := by
    intro F
    rw [← sum_hold h0 1 (by simp [hS']), ← sum_hold h0 0 (by simp [hS']),
      ← Finset.sum_fiberwise_of_maps_to (s := Fintype.piFinset (S.someSpins H)) (t := {0, 1}) (g := fun s => s n) (fun s hs => hS ▸ Fintype.mem_piFinset.1 hs n),
      Finset.sum_pair (by decide), add_comm]
  unfold prepared
  rw [hsum]
  simp only [hold_update]
  have h1 := hD true
  have h2 := hD false
  push_cast at h1 h2
  rw [add_div, add_div]
  congr 1
  · rw [h1, div_div, mul_comm]
  · rw [h2, div_div, mul_comm]

theorem squared_prepared (u : Fin 4 → Fin 3 → Spinor) (ε : Fin 4 → Fin 3 → Vec) : S.squared c p u ε = S.prepared c p (fun _ => none) u ε := by
  have e : S.someSpins (fun _ => none) = S.spins := funext fun n => by simp [someSpins]
  unfold squared prepared
  rw [e]
  simp [someStates]

/-- The squared amplitude for any spins is the mean of the ones for the two states of an incoming photon or gluon. -/
theorem squared_mean {n : Fin 4} (hn : arrives n = true) {b : Boson} (hl : S.leg n = .boson b) (hb : b.massive = false) (u : Fin 4 → Fin 3 → Spinor) (ε : Fin 4 → Fin 3 → Vec) :
    S.squared c p u ε = (S.prepared c p (onlyLeg n true) (hold n 1 u) (hold n 1 ε) + S.prepared c p (onlyLeg n false) (hold n 0 u) (hold n 0 ε)) / 2 := by
  rw [squared_prepared]
  exact prepared_mean rfl hn hl hb u ε

/-- Where a state describes a helicity, it describes also the one with more helicities given. -/
theorem prepared_hold {H : Fin 4 → Option Bool} {n : Fin 4} {r : Bool} {t : Fin 3} {u : Fin 4 → Fin 3 → Spinor} {ε : Fin 4 → Fin 3 → Vec} (hu : ∀ m, S.Prepared c p m (H m) (u m) (ε m)) (hC : Circular (p n) r (ε n t)) (m : Fin 4) :
    S.Prepared c p m (alsoLeg H n r m) (hold n t u m) (hold n t ε m) := by
  by_cases hm : m = n
  · subst hm
    simpa [Prepared, alsoLeg, hold] using hC
  · have e1 : alsoLeg H n r m = H m := by simp [alsoLeg, hm]
    have e2 : ∀ {α : Type} (t : Fin 3) (f : Fin 4 → Fin 3 → α), hold n t f m = f m := fun t f => by funext s; simp [hold, hm]
    rw [e1, e2, e2]
    exact hu m

/-- The states of the code are helicities. -/
theorem code_circular [FPEnv] {n : Fin 4} (hn : arrives n = true) {b : Boson} (hl : S.leg n = .boson b) (hb : b.massive = false) (hp : ∀ n : Fin 4, OnShell (p n) (S.mass c n)) (he : (p n).t ≠ 0) :
    Circular (p n) true (S.codeEps c p n 1) ∧ Circular (p n) false (S.codeEps c p n 0) := by
  have hs := hp n
  rw [S.mass_light hl hb] at hs
  have ht := (light_code hs).circular he
  have eb : (S.boson n).massive = false := by simpa [boson, hl] using hb
  simpa [codeEps, hn, codeE, eb] using ht

theorem code_helicity [FPEnv] {n : Fin 4} (hn : arrives n = true) {b : Boson} (hl : S.leg n = .boson b) (hb : b.massive = false) (hp : ∀ n : Fin 4, OnShell (p n) (S.mass c n)) (he : (p n).t ≠ 0) (r : Bool)
    (hu : ∀ n, S.Complete c p n (S.codeSpinor c p n) (S.codeEps c p n)) (m : Fin 4) :
    S.Prepared c p m (onlyLeg n r m) (hold n (if r then 1 else 0) (S.codeSpinor c p) m) (hold n (if r then 1 else 0) (S.codeEps c p) m) := by
  have h := code_circular hn hl hb hp he
  cases r
  · exact prepared_hold (H := fun _ => none) hu h.2 m
  · exact prepared_hold (H := fun _ => none) hu h.1 m

end Spec.Reaction
end Spinas
