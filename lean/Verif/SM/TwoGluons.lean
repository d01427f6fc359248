import Verif.Exact.Jacobi
import Verif.Exact.Colours
import Verif.SM.GluonLine

/-! One fermion line with two gluons: spins and colours separate. -/

namespace Spinas
open Spec Props Matrix

namespace Spec.Reaction
variable [FPEnv] (S : Reaction) {c : Constants} {p : Nat → V4 ℝ}

omit [FPEnv] in
theorem line_transverse {n : Fin 4} {u : Spinor} {ε : Fin 4 → Vec} (hg : S.leg n = .boson .gluon) (h : S.Shell c p n u (ε n)) : contract (four (S.line p ε n).k) (S.line p ε n).ε = 0 := by
  unfold Shell at h
  rw [hg] at h
  have h := h (by simp)
  unfold line
  split_ifs
  · exact h
  · simp only
    rw [four_backward]
    have e : contract (-four (p n)) (star (ε n)) = -contract (four (p n)) (star (ε n)) := by
      rw [contract_swap, (Lin.contract_right (star (ε n))).map_neg, contract_swap]
    rw [e, ← star_star (contract (four (p n)) (star (ε n))), star_contract_four, h]
    simp

omit [FPEnv] in
theorem into_k (n : Fin 4) (E F : Vec) : (S.into p n E).k = (S.into p n F).k := by unfold into; split_ifs <;> rfl

/-- the weights of the two orders of colour -/
noncomputable def order (c : Constants) (p : Nat → V4 ℝ) (j a b : Fin 4) : ℝ := (msq (plus (S.along p j) (S.into p b 0).k) - c.mass (S.flavour j) ^ 2) / msq (plus (S.into p a 0).k (S.into p b 0).k)

/-- an amplitude with two gluons, at given spins -/
theorem oneLine_gluons {i j a b : Fin 4} (he : S.ends = [i]) (hs : S.starts = [j]) (hb : S.bosons = [a, b]) (hn : [i, j, a, b].Nodup) (ha : S.leg a = .boson .gluon) (hb' : S.leg b = .boson .gluon) (hf : S.flavour i = S.flavour j)
    (hq : Spec.after .gluon (S.flavour j) = some (S.flavour j)) (hm : ∀ n : Fin 4, msq (p n) = S.mass c n ^ 2) (hbal : Balanced p) (hr : S.Regular c p) (κ : Fin 4 → Fin 3) (γ : Fin 4 → Fin 8) {w : Fin 4 → Spinor} {z z' : Pair} (E : Fin 4 → Vec)
    (hi : w i = spX (S.sgn i) z.1 z.2) (hj : w j = spY (S.sgn j) z'.1 z'.2) (hS : ∀ n, S.Shell c p n (w n) (if arrives n then star (E n) else E n)) :
    S.oneLine c p κ γ w (fun n => if arrives n then star (E n) else E n) i j a b =
      (gen (γ b) * gen (γ a)) (κ i) (κ j) * (S.order c p j a b * -star (S.bare c p i j a b z z' (E a) (E b))) + (gen (γ a) * gen (γ b)) (κ i) (κ j) * (S.order c p j b a * -star (S.bare c p i j a b z z' (E a) (E b))) := by
  have ei : S.isEnd i := (S.mem_ends i).1 (by rw [he]; simp)
  have ej : S.isStart j := (S.mem_starts j).1 (by rw [hs]; simp)
  have ga : S.boson a = .gluon := by simp [boson, ha]
  have gb : S.boson b = .gluon := by simp [boson, hb']
  set ε : Fin 4 → Vec := fun n => if arrives n then star (E n) else E n with hε
  have dj : Dirac (S.along p j) (c.mass (S.flavour j)) (w j) := by
    have := hS j
    unfold Shell at this
    unfold isStart at ej
    cases hlj : S.leg j with
    | boson b => rw [hlj] at ej; cases ej
    | fermion f a => rw [hlj] at this; simpa [flavour, hlj] using this
  have di : Dirac (S.along p i) (c.mass (S.flavour j)) (w i) := by
    have := hS i
    unfold Shell at this
    unfold isEnd at ei
    rw [← hf]
    cases hlj : S.leg i with
    | boson b => rw [hlj] at ei; cases ei
    | fermion f a => rw [hlj] at this; simpa [flavour, hlj] using this
  have mj : msq (S.along p j) = c.mass (S.flavour j) ^ 2 := by
    have := hm j
    unfold isStart at ej
    cases hlj : S.leg j with
    | boson b => rw [hlj] at ej; cases ej
    | fermion f a =>
      simp only [mass, hlj] at this
      unfold along flavour
      rw [hlj, ← this]
      split_ifs <;> simp [msq, backward]
  have mi : msq (S.along p i) = c.mass (S.flavour j) ^ 2 := by
    have := hm i
    rw [← hf]
    unfold isEnd at ei
    cases hlj : S.leg i with
    | boson b => rw [hlj] at ei; cases ei
    | fermion f a =>
      simp only [mass, hlj] at this
      unfold along flavour
      rw [hlj, ← this]
      split_ifs <;> simp [msq, backward]
  have ka : msq (S.line p ε a).k = 0 := by rw [line_msq, hm a, mass, ha]; simp [Constants.bosonMass]
  have kb : msq (S.line p ε b).k = 0 := by rw [line_msq, hm b, mass, hb']; simp [Constants.bosonMass]
  have bal : S.along p i = plus (S.along p j) (plus (S.line p ε a).k (S.line p ε b).k) := by
    rw [along_balanced ei ej hn hbal ε]; simp only [plus, V4.mk.injEq]; refine ⟨?_, ?_, ?_, ?_⟩ <;> ring
  rw [bal] at di mi
  obtain ⟨r1, r2, r3⟩ := S.regular_line he hs hb hr
  have ba : S.inBoson a = .gluon := by unfold inBoson; rw [ga]; split_ifs <;> rfl
  have bb : S.inBoson b = .gluon := by unfold inBoson; rw [gb]; split_ifs <;> rfl
  have D1 := r1 (S.flavour j)
  have D2 := r2 (S.flavour j)
  simp only [line_boson, ba, bb, hf] at D1 D2
  have D1 := D1 hq hq
  have D2 := D2 hq hq
  rw [line_k (fun _ => 0) ε] at D1 D2
  have D3 : msq (plus (S.line p ε a).k (S.line p ε b).k) ≠ 0 := by
    unfold Bosonic at r3
    simp only [line_boson, ba, bb, hf] at r3
    have := r3 .gluon rfl hq
    rw [line_k (fun _ => 0) ε a, line_k (fun _ => 0) ε b] at this
    intro h
    refine this ?_
    rw [denominator, breitWigner, h]
    apply Complex.ext <;> simp [Constants.bosonMass]
  have ta := S.line_transverse (u := w a) (ε := ε) ha (hS a)
  have tb := S.line_transverse (u := w b) (ε := ε) hb' (hS b)
  have la : S.line p ε a = S.into p a (E a) := into_line ..
  have lb : S.line p ε b = S.into p b (E b) := into_line ..
  have C : ∀ A B : Line, A.boson = .gluon → B.boson = .gluon → A = S.line p ε a → B = S.line p ε b →
      let M := compton c (S.flavour j) (S.flavour j) (S.along p j) (w j) (w i) A B + compton c (S.flavour j) (S.flavour j) (S.along p j) (w j) (w i) B A
      compton c (S.flavour j) (S.flavour j) (S.along p j) (w j) (w i) A B + gluonFusion c (S.flavour j) (S.flavour j) (w j) (w i) A B = -(S.order c p j a b * M) ∧
      compton c (S.flavour j) (S.flavour j) (S.along p j) (w j) (w i) B A - gluonFusion c (S.flavour j) (S.flavour j) (w j) (w i) A B = -(S.order c p j b a * M) := by
    rintro ⟨_, k, ε₁⟩ ⟨_, k', ε₂⟩ rfl rfl eA eB
    rw [← eA, ← eB] at di mi D3
    rw [← eA] at ka ta D1
    rw [← eB] at kb tb D2
    have k1 : (S.into p a 0).k = k := by rw [S.into_k a 0 (E a), ← la, ← eA]
    have k2 : (S.into p b 0).k = k' := by rw [S.into_k b 0 (E b), ← lb, ← eB]
    have := colour_orders c hq dj di mj mi ka kb ta tb D1 D2 D3
    unfold order
    rw [k1, k2, plus_comm k' k]
    exact this
  have C := C (S.line p ε a) (S.line p ε b) ((line_boson _ _).trans ba) ((line_boson _ _).trans bb) rfl rfl
  have bare_eq : star (S.bare c p i j a b z z' (E a) (E b)) = compton c (S.flavour j) (S.flavour j) (S.along p j) (w j) (w i) (S.line p ε a) (S.line p ε b) + compton c (S.flavour j) (S.flavour j) (S.along p j) (w j) (w i) (S.line p ε b) (S.line p ε a) := by
    rw [bare, star_star, la, lb, hi, hj, hf]
    simp only [joined]
    rw [annihilation_none c _ _ (by rw [S.into_massless ga]; rfl) (fun h => by rw [S.into_massless ga] at h; cases h)]
    ring
  rw [oneLine_eq, bare_eq, hf]
  simp only [joined]
  rw [annihilation_none c _ _ (by rw [line_boson, ba]; rfl) (fun h => by rw [line_boson, ba] at h; cases h), show S.colour γ a = gen (γ a) by rw [colour, if_pos ga, gen], show S.colour γ b = gen (γ b) by rw [colour, if_pos gb, gen], Matrix.sub_apply]
  linear_combination (gen (γ b) * gen (γ a)) (κ i) (κ j) * C.1 + (gen (γ a) * gen (γ b)) (κ i) (κ j) * C.2

/-- one fermion line with two gluons -/
theorem state_gluons {i j a b : Fin 4} (he : S.ends = [i]) (hs : S.starts = [j]) (hb : S.bosons = [a, b]) (hn : [i, j, a, b].Nodup) (ha : S.leg a = .boson .gluon) (hb' : S.leg b = .boson .gluon) (hf : S.flavour i = S.flavour j)
    (hq : Spec.after .gluon (S.flavour j) = some (S.flavour j)) (hbal : Balanced p) (hr : S.Regular c p)
    (hκ : ∀ x y, ((Fintype.piFinset S.colours).filter fun κ => κ i = x ∧ κ j = y).card = 1) (hγ : ∀ x y, ((Fintype.piFinset S.gluons).filter fun γ => γ a = x ∧ γ b = y).card = 1)
    (hp : ∀ n : Fin 4, OnShell (p n) (S.mass c n)) (hm : ∀ n, 0 ≤ S.mass c n)
    (h0 : ∀ n b, S.leg n = .boson b → b.massive = true → b ≠ .higgs → c.bosonMass b ≠ 0)
    {E : Fin 4 → Fin 3 → Vec} (hE : ∀ n b, S.leg n = .boson b → Polarised c (p n) b (E n)) {s : Fin 4 → Fin 3} (hsp : s ∈ Fintype.piFinset S.spins) :
    S.stateSum c p E s = (16 / 3 * (S.order c p j a b ^ 2 + S.order c p j b a ^ 2) - 4 / 3 * (S.order c p j a b * S.order c p j b a)) *
      ‖S.bare c p i j a b (S.codePair c p i (two (s i))) (S.codePair c p j (two (s j))) (E a (s a)) (E b (s b))‖ ^ 2 := by
  have hp' : ∀ n : Fin 4, msq (p n) = S.mass c n ^ 2 := fun n => onShell_msq (hp n)
  have hC := S.code_complete hp hm hE
  unfold stateSum
  have ei : S.isEnd i := (S.mem_ends i).1 (by rw [he]; simp)
  have ej : S.isStart j := (S.mem_starts j).1 (by rw [hs]; simp)
  have ej' : S.isEnd j = false := by
    unfold isStart at ej; unfold isEnd
    cases hl : S.leg j with
    | boson b => rfl
    | fermion f a => rw [hl] at ej; simpa using ej
  let M := -star (S.bare c p i j a b (S.codePair c p i (two (s i))) (S.codePair c p j (two (s j))) (E a (s a)) (E b (s b)))
  have k : ∀ κ γ, S.amplitude c p κ γ (fun n => S.codeSpinor c p n (s n)) (fun n => if arrives n then star (E n (s n)) else E n (s n)) =
      (gen (γ b) * gen (γ a)) (κ i) (κ j) * (S.order c p j a b * M) + (gen (γ a) * gen (γ b)) (κ i) (κ j) * (S.order c p j b a * M) := by
    intro κ γ
    unfold amplitude
    rw [he, hs, hb]
    exact S.oneLine_gluons he hs hb hn ha hb' hf hq hp' hbal hr κ γ (z := S.codePair c p i (two (s i))) (z' := S.codePair c p j (two (s j))) (fun n => E n (s n)) (by simp [codeSpinor, ei]) (by simp [codeSpinor, ej'])
      (fun n => S.complete_shell hp' h0 (hC n) (Fintype.mem_piFinset.1 hsp n))
  simp only [k]
  have hM : ‖S.bare c p i j a b (S.codePair c p i (two (s i))) (S.codePair c p j (two (s j))) (E a (s a)) (E b (s b))‖ = ‖M‖ := by rw [norm_neg, norm_star]
  rw [hM, ← gen_norm, ← sum_fibres (Fintype.piFinset S.colours) (fun κ => κ i) (fun κ => κ j) hκ (fun x y => ∑ γ, ∑ γ', ‖(gen γ' * gen γ) x y * (S.order c p j a b * M) + (gen γ * gen γ') x y * (S.order c p j b a * M)‖ ^ 2)]
  exact Finset.sum_congr rfl fun κ _ => sum_fibres (Fintype.piFinset S.gluons) (fun γ => γ a) (fun γ => γ b) hγ (fun γ γ' => ‖(gen γ' * gen γ) (κ i) (κ j) * (S.order c p j a b * M) + (gen γ * gen γ') (κ i) (κ j) * (S.order c p j b a * M)‖ ^ 2)
/-- an amplitude with two massless bosons without the couplings -/
noncomputable def shape (c : Constants) (p : Nat → V4 ℝ) (i j a b : Fin 4) (z w : Pair) (E F : Vec) : ℂ :=
  let f := S.flavour j
  let A := S.into p a E
  let B := S.into p b F
  numer (c.mass f) (S.along p j) (spY (S.sgn j) w.1 w.2) (spX (S.sgn i) z.1 z.2) A.k A.ε B.ε / ((msq (plus (S.along p j) A.k) - c.mass f ^ 2 : ℝ) : ℂ) +
  numer (c.mass f) (S.along p j) (spY (S.sgn j) w.1 w.2) (spX (S.sgn i) z.1 z.2) B.k B.ε A.ε / ((msq (plus (S.along p j) B.k) - c.mass f ^ 2 : ℝ) : ℂ)

omit [FPEnv] in
theorem bare_light {i j a b : Fin 4} (ha : (S.boson a).massive = false) (hb : (S.boson b).massive = false) (hf : S.flavour i = S.flavour j) (hq : Spec.after (S.boson a) (S.flavour j) = some (S.flavour j))
    (hq' : Spec.after (S.boson b) (S.flavour j) = some (S.flavour j)) (z w : Pair) (E F : Vec) :
    ‖S.bare c p i j a b z w E F‖ = ‖c.kappa (S.flavour j) (S.boson a)‖ * ‖c.kappa (S.flavour j) (S.boson b)‖ * ‖S.shape c p i j a b z w E F‖ := by
  have hA : ∀ n E, (S.boson n).massive = false → (S.into p n E).boson = S.boson n := fun n E h => by
    unfold into; split_ifs
    · rfl
    · show (S.boson n).anti = S.boson n
      revert h; cases S.boson n <;> simp [Boson.anti, Boson.massive]
  have e1 := hA a E ha
  have e2 := hA b F hb
  rw [bare, norm_star, hf]
  unfold shape
  generalize S.into p a E = A at *
  generalize S.into p b F = B at *
  obtain ⟨x, k, ε⟩ := A
  obtain ⟨y, k', ε'⟩ := B
  subst e1 e2
  simp only [joined]
  rw [annihilation_none c _ _ ha (fun _ => ⟨fun h => (by rw [show S.boson b = _ from h] at hb; cases hb), fun h => (by rw [show S.boson b = _ from h] at hb; cases hb)⟩), compton_light c ha hb hq hq', compton_light c hb ha hq' hq, ← norm_mul, ← Complex.norm_real, ← norm_mul]
  congr 1
  push_cast
  ring


theorem squared_gluons {i j a b : Fin 4} (he : S.ends = [i]) (hs : S.starts = [j]) (hb : S.bosons = [a, b]) (hn : [i, j, a, b].Nodup) (ha : S.leg a = .boson .gluon) (hb' : S.leg b = .boson .gluon) (hf : S.flavour i = S.flavour j)
    (hq : Spec.after .gluon (S.flavour j) = some (S.flavour j)) (hbal : Balanced p) (hr : S.Regular c p)
    (hκ : ∀ x y, ((Fintype.piFinset S.colours).filter fun κ => κ i = x ∧ κ j = y).card = 1) (hγ : ∀ x y, ((Fintype.piFinset S.gluons).filter fun γ => γ a = x ∧ γ b = y).card = 1)
    (hp : ∀ n : Fin 4, OnShell (p n) (S.mass c n)) (hm : ∀ n, 0 ≤ S.mass c n)
    (h0 : ∀ n b, S.leg n = .boson b → b.massive = true → b ≠ .higgs → c.bosonMass b ≠ 0) (hG : S.Gauge c p)
    {E : Fin 4 → Fin 3 → Vec} (hE : ∀ n b, S.leg n = .boson b → Polarised c (p n) b (E n)) {u : Fin 4 → Fin 3 → Spinor} {ε : Fin 4 → Fin 3 → Vec} (hu : ∀ n, S.Complete c p n (u n) (ε n)) :
    S.squared c p u ε = (16 / 3 * (S.order c p j a b ^ 2 + S.order c p j b a ^ 2) - 4 / 3 * (S.order c p j a b * S.order c p j b a)) *
      (∑ s ∈ Fintype.piFinset S.spins, ‖S.bare c p i j a b (S.codePair c p i (two (s i))) (S.codePair c p j (two (s j))) (E a (s a)) (E b (s b))‖ ^ 2) / (S.states 0 * S.states 1 * S.symmetry) :=
  S.squared_states hp hm h0 hG hE hu fun s hsp => S.state_gluons he hs hb hn ha hb' hf hq hbal hr hκ hγ hp hm h0 hE hsp
end Spec.Reaction

/-- the weights of the orders of colour as the code writes them -/
theorem colour_weights {s t u : ℝ} (hs : s ≠ 0) (ht : t ≠ 0) (hu : u ≠ 0) (h : s + t + u = 0) :
    16 / 3 * ((t / s) ^ 2 + (u / s) ^ 2) - 4 / 3 * (t / s * (u / s)) = (t * u) ^ 2 * (6 / (s * t) ^ 2 + 6 / (s * u) ^ 2 - 2 / 3 / (t * u) ^ 2) := by
  obtain rfl : s = -t - u := by linarith
  field_simp
  ring

end Spinas
