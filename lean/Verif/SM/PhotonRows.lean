import Verif.SM.PhotonBosons
import Verif.SM.FermionRows

/-! The classes for reactions of four bosons with photons, with the reactions they are for: names of the classes and of their parameters in SM/include/*.h, comments in SM/*.cpp. -/

namespace Spinas

/-! ### transverse vectors -/

section
open Spec Props

theorem pv_transverse {k : V4 ℝ} {A S : V2} (h : mb S k A = 0) : contract (four k) (pv A S) = 0 := by rw [contract_four_pv, h, zero_div]
theorem Light.transverse {k : V4 ℝ} {z : Pair} (h : Light k z) (t : Fin 3) : contract (four k) (lightE z t) = 0 := by
  fin_cases t
  · exact (contract_smul _ _ _).trans (by rw [pv_transverse (h.mb_minus _), mul_zero])
  · exact (contract_smul _ _ _).trans (by rw [pv_transverse (h.mb_plus _), mul_zero])
  · exact contract_zero _
end

/-! ### gauge invariance -/

namespace Spec.Reaction
open Props
variable {S : Reaction} {c : Constants} {p : Nat → V4 ℝ}

theorem amplitude_four (he : S.ends = []) (hs : S.starts = []) (hb : S.bosons = [0, 1, 2, 3]) {n : Fin 4} (hg : S.boson n ≠ .gluon) (κ : Fin 4 → Fin 3) (γ : Fin 4 → Fin 8) (w : Fin 4 → Spinor) (ε : Fin 4 → Vec) :
    S.amplitude c p κ γ w ε = fourBosons c (S.line p ε 0) (S.line p ε 1) (S.line p ε 2) (S.line p ε 3) := by
  unfold amplitude; rw [he, hs, hb]
  simp only [S.fourGluons_other c p γ ε hg, add_zero]

theorem shell_in {n : Fin 4} {b : Boson} (hl : S.leg n = .boson b) (hb : b ≠ .higgs) {u : Spinor} {ε : Vec} (h : S.Shell c p n u ε) : contract (four (p n)) ε = 0 := by
  unfold Shell at h; rw [hl] at h; exact h hb
theorem shell_out {n : Fin 4} {b : Boson} (hl : S.leg n = .boson b) (hb : b ≠ .higgs) {u : Spinor} {ε : Vec} (h : S.Shell c p n u ε) : contract (four (backward (p n))) (star ε) = 0 := by
  rw [contract_four_back, ← star_eq_zero, star_neg, star_contract_four, shell_in hl hb h, neg_zero]

/-- momenta coming in -/
theorem balanced_in (hb : Balanced p) : plus (plus (p 0) (p 1)) (plus (backward (p 2)) (backward (p 3))) = ⟨0, 0, 0, 0⟩ := by
  rw [balanced_three hb]
  simp only [plus, backward, V4.mk.injEq]
  refine ⟨?_, ?_, ?_, ?_⟩ <;> ring
theorem balanced_in' (hb : Balanced p) : plus (plus (p 0) (backward (p 2))) (plus (p 1) (backward (p 3))) = ⟨0, 0, 0, 0⟩ := by
  rw [balanced_three hb]
  simp only [plus, backward, V4.mk.injEq]
  refine ⟨?_, ?_, ?_, ?_⟩ <;> ring

theorem in_back {a b d e : V4 ℝ} (h : plus (plus a b) (plus d e) = ⟨0, 0, 0, 0⟩) : plus b d = backward (plus a e) := by
  simp only [plus, V4.mk.injEq] at h
  simp only [plus, backward, V4.mk.injEq]
  obtain ⟨h0, h1, h2, h3⟩ := h
  refine ⟨?_, ?_, ?_, ?_⟩ <;> linarith

/-- The amplitude is the one of `fourBosons` in the vectors of the code. -/
theorem bare4_gauge (he : S.ends = []) (hs : S.starts = []) (hB : S.bosons = [0, 1, 2, 3]) (hG : S.Gauge c p) {n : Fin 4} {b : Boson} (hl : S.leg n = .boson b) (hb : b.massive = false) (E : Fin 4 → Vec)
    (hE : ∀ m, m ≠ n → ∀ x, S.leg m = .boson x → x ≠ .higgs → contract (four (p m)) (E m) = 0) (hn : E n = four (p n)) (hg : ∀ n, S.boson n ≠ .gluon := by decide) : S.bareFour c p E = 0 := by
  have hall : ∀ m, ∃ x, S.leg m = .boson x := by
    intro m
    have : S.isBoson m := (S.mem_bosons m).1 (by rw [hB]; fin_cases m <;> simp)
    unfold isBoson at this
    cases hm : S.leg m <;> simp_all
  have g := hG n b hl hb (fun _ => 0) (fun _ => 0) (fun _ => 0) (fun m => if arrives m then star (E m) else E m) (fun m hm => by
    obtain ⟨x, hx⟩ := hall m
    unfold Shell
    rw [hx]
    intro hh
    have := hE m hm x hx hh
    split_ifs
    · rw [← star_star (contract _ _), star_contract_four, this, star_zero]
    · exact this)
  have e : Function.update (fun m => if arrives m then star (E m) else E m) n (four (p n)) = fun m => if arrives m then star (E m) else E m := by
    rw [Function.update_eq_self_iff, hn, star_four, ite_self]
  rw [e, amplitude_four he hs hB (hg 0), into_line, into_line, into_line, into_line] at g
  rw [bareFour_eq, bare4, g, star_zero]
end Spec.Reaction

namespace SM
open Spec Spec.Reaction Props

namespace Rows
def AhWW : BRow := ⟨Cls.AhWW, ⟨![.boson .photon, .boson .higgs, .boson .wPlus, .boson .wMinus]⟩, [some .e, some .MH, some .MW, some .SW, some .WW], [.WW]⟩
def AWWh : BRow := ⟨Cls.AWWh, ⟨![.boson .photon, .boson .wPlus, .boson .wPlus, .boson .higgs]⟩, [some .e, some .MH, some .MW, some .SW, some .WW], [.WW]⟩
def AAWW : BRow := ⟨Cls.AAWW, ⟨![.boson .photon, .boson .photon, .boson .wPlus, .boson .wMinus]⟩, [some .e, some .MW, some .SW, some .WW], [.WW]⟩
def AWAW : BRow := ⟨Cls.AWAW, ⟨![.boson .photon, .boson .wPlus, .boson .photon, .boson .wPlus]⟩, [some .e, some .MW, some .SW, some .WW], [.WW]⟩
def AZWW : BRow := ⟨Cls.AZWW, ⟨![.boson .photon, .boson .z, .boson .wPlus, .boson .wMinus]⟩, [some .e, some .MW, some .SW, some .WW], [.WW]⟩
def AWZW : BRow := ⟨Cls.AWZW, ⟨![.boson .photon, .boson .wPlus, .boson .z, .boson .wPlus]⟩, [some .e, some .MW, some .SW, some .WW], [.WW]⟩

section
variable {c : Constants} {p : Nat → V4 ℝ} (hM : c.MW ≠ 0) (hW : c.WW = 0) (hbal : Balanced p)
include hM hW

theorem AhWW.gauge (hm : ∀ n : Fin 4, msq (p n) = AhWW.react.mass c n ^ 2) (hr : AhWW.react.Regular c p) : AhWW.react.Gauge c p := by
  have he : AhWW.react.ends = [] := by decide
  have hs : AhWW.react.starts = [] := by decide
  have hB : AhWW.react.bosons = [0, 1, 2, 3] := by decide
  obtain ⟨f1, f2, f3⟩ := AhWW.react.regular_four he hs hB hr
  intro n b hl hx κ γ w ε hε
  have hn : n = 0 := by fin_cases n <;> cases hl <;> first | rfl | cases hx
  subst hn
  rw [amplitude_four he hs hB (n := 3) (by decide)]
  exact ward_higgs c hM hW ((hm 0).trans (show AhWW.react.mass c 0 ^ 2 = 0 from zero_pow two_ne_zero)) ((msq_backward _).trans (hm 2)) ((msq_backward _).trans (hm 3)) (shell_out rfl (by simp) (hε 2 (by simp))) (shell_out rfl (by simp) (hε 3 (by simp))) (f2 .wMinus rfl rfl) (f3 .wPlus rfl rfl)

theorem AWWh.gauge (hm : ∀ n : Fin 4, msq (p n) = AWWh.react.mass c n ^ 2) (hr : AWWh.react.Regular c p) : AWWh.react.Gauge c p := by
  have he : AWWh.react.ends = [] := by decide
  have hs : AWWh.react.starts = [] := by decide
  have hB : AWWh.react.bosons = [0, 1, 2, 3] := by decide
  obtain ⟨f1, f2, f3⟩ := AWWh.react.regular_four he hs hB hr
  intro n b hl hx κ γ w ε hε
  have hn : n = 0 := by fin_cases n <;> cases hl <;> first | rfl | cases hx
  subst hn
  rw [amplitude_four he hs hB (n := 3) (by decide)]
  rw [fourBosons_swap₁₂, fourBosons_swap₂₃, fourBosons_swap₁₂]
  exact ward_higgs c hM hW ((hm 0).trans (show AWWh.react.mass c 0 ^ 2 = 0 from zero_pow two_ne_zero)) ((msq_backward _).trans (hm 2)) (hm 1) (shell_out rfl (by simp) (hε 2 (by simp))) (shell_in rfl (by simp) (hε 1 (by simp))) (f2 .wMinus rfl rfl) (f1 .wPlus rfl rfl)

include hbal

theorem AZWW.gauge (hm : ∀ n : Fin 4, msq (p n) = AZWW.react.mass c n ^ 2) (hr : AZWW.react.Regular c p) : AZWW.react.Gauge c p := by
  have he : AZWW.react.ends = [] := by decide
  have hs : AZWW.react.starts = [] := by decide
  have hB : AZWW.react.bosons = [0, 1, 2, 3] := by decide
  obtain ⟨f1, f2, f3⟩ := AZWW.react.regular_four he hs hB hr
  intro n b hl hx κ γ w ε hε
  have hn : n = 0 := by fin_cases n <;> cases hl <;> first | rfl | cases hx
  subst hn
  rw [amplitude_four he hs hB (n := 3) (by decide)]
  exact ward_vector c (.inr rfl) hM hW ((hm 0).trans (show AZWW.react.mass c 0 ^ 2 = 0 from zero_pow two_ne_zero)) ((msq_backward _).trans (hm 2)) ((msq_backward _).trans (hm 3)) (shell_in rfl (by simp) (hε 1 (by simp))) (shell_out rfl (by simp) (hε 2 (by simp))) (shell_out rfl (by simp) (hε 3 (by simp))) (balanced_in hbal) (f2 .wMinus rfl rfl) (f3 .wPlus rfl rfl)

theorem AWZW.gauge (hm : ∀ n : Fin 4, msq (p n) = AWZW.react.mass c n ^ 2) (hr : AWZW.react.Regular c p) : AWZW.react.Gauge c p := by
  have he : AWZW.react.ends = [] := by decide
  have hs : AWZW.react.starts = [] := by decide
  have hB : AWZW.react.bosons = [0, 1, 2, 3] := by decide
  obtain ⟨f1, f2, f3⟩ := AWZW.react.regular_four he hs hB hr
  intro n b hl hx κ γ w ε hε
  have hn : n = 0 := by fin_cases n <;> cases hl <;> first | rfl | cases hx
  subst hn
  rw [amplitude_four he hs hB (n := 3) (by decide)]
  rw [fourBosons_swap₁₂, fourBosons_swap₂₃]
  exact ward_vector c (.inr rfl) hM hW ((hm 0).trans (show AWZW.react.mass c 0 ^ 2 = 0 from zero_pow two_ne_zero)) ((msq_backward _).trans (hm 3)) (hm 1) (shell_out rfl (by simp) (hε 2 (by simp))) (shell_out rfl (by simp) (hε 3 (by simp))) (shell_in rfl (by simp) (hε 1 (by simp))) ((congrArg _ (plus_comm _ _)).trans (balanced_in' hbal)) (f3 .wMinus rfl rfl) (f1 .wPlus rfl rfl)

theorem AAWW.gauge (hm : ∀ n : Fin 4, msq (p n) = AAWW.react.mass c n ^ 2) (hr : AAWW.react.Regular c p) : AAWW.react.Gauge c p := by
  have he : AAWW.react.ends = [] := by decide
  have hs : AAWW.react.starts = [] := by decide
  have hB : AAWW.react.bosons = [0, 1, 2, 3] := by decide
  obtain ⟨f1, f2, f3⟩ := AAWW.react.regular_four he hs hB hr
  intro n b hl hx κ γ w ε hε
  have hn : n = 0 ∨ n = 1 := by fin_cases n <;> cases hl <;> first | exact .inl rfl | exact .inr rfl | cases hx
  rw [amplitude_four he hs hB (n := 3) (by decide)]
  rcases hn with rfl | rfl
  · exact ward_vector c (.inl rfl) hM hW ((hm 0).trans (show AAWW.react.mass c 0 ^ 2 = 0 from zero_pow two_ne_zero)) ((msq_backward _).trans (hm 2)) ((msq_backward _).trans (hm 3)) (shell_in rfl (by simp) (hε 1 (by simp))) (shell_out rfl (by simp) (hε 2 (by simp))) (shell_out rfl (by simp) (hε 3 (by simp))) (balanced_in hbal) (f2 .wMinus rfl rfl) (f3 .wPlus rfl rfl)
  · rw [fourBosons_swap₀₁ c ((congrArg (plus · _) (plus_comm _ _)).trans (balanced_in hbal))]
    have e1 : plus (p 1) (backward (p 2)) = backward (plus (p 0) (backward (p 3))) := in_back (balanced_in hbal)
    have e2 : plus (p 1) (backward (p 3)) = backward (plus (p 0) (backward (p 2))) := in_back (by rw [plus_comm (backward (p 3))]; exact balanced_in hbal)
    exact ward_vector c (.inl rfl) hM hW ((hm 1).trans (show AAWW.react.mass c 1 ^ 2 = 0 from zero_pow two_ne_zero)) ((msq_backward _).trans (hm 2)) ((msq_backward _).trans (hm 3)) (shell_in rfl (by simp) (hε 0 (by simp))) (shell_out rfl (by simp) (hε 2 (by simp))) (shell_out rfl (by simp) (hε 3 (by simp))) ((congrArg (plus · _) (plus_comm _ _)).trans (balanced_in hbal)) (fun h => f3 .wPlus rfl rfl ((denominator_back c _ _).symm.trans ((congrArg (denominator c .wPlus) e1.symm).trans h))) (fun h => f2 .wMinus rfl rfl ((denominator_back c _ _).symm.trans ((congrArg (denominator c .wMinus) e2.symm).trans h)))

theorem AWAW.gauge (hm : ∀ n : Fin 4, msq (p n) = AWAW.react.mass c n ^ 2) (hr : AWAW.react.Regular c p) : AWAW.react.Gauge c p := by
  have he : AWAW.react.ends = [] := by decide
  have hs : AWAW.react.starts = [] := by decide
  have hB : AWAW.react.bosons = [0, 1, 2, 3] := by decide
  obtain ⟨f1, f2, f3⟩ := AWAW.react.regular_four he hs hB hr
  intro n b hl hx κ γ w ε hε
  have hn : n = 0 ∨ n = 2 := by fin_cases n <;> cases hl <;> first | exact .inl rfl | exact .inr rfl | cases hx
  rw [amplitude_four he hs hB (n := 3) (by decide)]
  rcases hn with rfl | rfl
  · rw [fourBosons_swap₁₂, fourBosons_swap₂₃]
    exact ward_vector c (.inl rfl) hM hW ((hm 0).trans (show AWAW.react.mass c 0 ^ 2 = 0 from zero_pow two_ne_zero)) ((msq_backward _).trans (hm 3)) (hm 1) (shell_out rfl (by simp) (hε 2 (by simp))) (shell_out rfl (by simp) (hε 3 (by simp))) (shell_in rfl (by simp) (hε 1 (by simp))) ((congrArg _ (plus_comm _ _)).trans (balanced_in' hbal)) (f3 .wMinus rfl rfl) (f1 .wPlus rfl rfl)
  · rw [fourBosons_swap₁₂, fourBosons_swap₀₁ c ((congrArg (plus · _) (plus_comm _ _)).trans (balanced_in' hbal)), fourBosons_swap₂₃]
    have e1 : plus (backward (p 2)) (backward (p 3)) = backward (plus (p 0) (p 1)) := in_back (by rw [plus_comm (backward (p 3)), plus_comm (p 0)]; exact (congrArg (plus · _) (plus_comm _ _)).trans (balanced_in' hbal))
    have e2 : plus (backward (p 2)) (p 1) = backward (plus (p 0) (backward (p 3))) := in_back (balanced_in' hbal)
    have g := ward_vector c (.inl rfl) hM hW ((msq_backward _).trans ((hm 2).trans (show AWAW.react.mass c 2 ^ 2 = 0 from zero_pow two_ne_zero))) ((msq_backward _).trans (hm 3)) (hm 1) (shell_in rfl (by simp) (hε 0 (by simp))) (shell_out rfl (by simp) (hε 3 (by simp))) (shell_in rfl (by simp) (hε 1 (by simp))) ((congrArg _ (plus_comm _ _)).trans ((congrArg (plus · _) (plus_comm _ _)).trans (balanced_in' hbal))) (fun h => f1 .wPlus rfl rfl ((denominator_back c _ _).symm.trans ((congrArg (denominator c .wPlus) e1.symm).trans h))) (fun h => f3 .wMinus rfl rfl ((denominator_back c _ _).symm.trans ((congrArg (denominator c .wMinus) e2.symm).trans h)))
    have hf : star (four (p 2)) = (-1 : ℂ) • four (backward (p 2)) := by rw [star_four]; ext i; fin_cases i <;> simp [four, backward]
    have L := (fourBosons_fine₁ c ⟨.photon, backward (p 2), 0⟩ ⟨.photon, p 0, ε 0⟩ ⟨.wMinus, backward (p 3), star (ε 3)⟩ ⟨.wPlus, p 1, ε 1⟩).1 (by simp)
    have e := L.map_smul (-1) (four (backward (p 2)))
    rw [← hf] at e
    exact e.trans ((congrArg _ g).trans (smul_zero _))
end
end Rows

open Rows in
/-- classes with four bosons of which some are photons -/
def withPhotons : List BRow := [AhWW, AWWh, AAWW, AWAW, AZWW, AWZW]

end SM
end Spinas
