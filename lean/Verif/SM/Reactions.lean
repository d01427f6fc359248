import Verif.Exact.Massive
import Verif.SM.Exchanges

/-! Squared amplitudes of reactions with bosons in the angle and square spinors of the code. -/

namespace Spinas
open Spec Props Matrix

/-! ### products with one momentum -/

section
variable [FPEnv]

theorem zchain_mid_square (p : Nat → V4 ℝ) (m : Nat → ℝ) (i n k : Nat) (j j' : Int) :
    zchain p m ⟨false, i, true, [n], k, true⟩ j j' = mb (zend (p i) (m i) .rsquare true j) (p n) (zend (p k) (m k) .rangle true j') := by
  have := (left_eq_right (p i) (m i) true j).2
  have hk : kindR false [n].length = .rangle := rfl
  simp only [zchain, kindL, hk, slashProd, Matrix.mul_one, Bool.false_eq_true, if_false]
  simp only [this, mb_eq]
  simp only [dotProduct, Fin.sum_univ_two, vecMul, slashUpper, K, Pi.neg_apply, Matrix.of_apply, Matrix.cons_val', Matrix.cons_val_zero, Matrix.cons_val_one, Matrix.cons_val_fin_one]
  ring
theorem zchain_mid_angle (p : Nat → V4 ℝ) (m : Nat → ℝ) (i n k : Nat) (j j' : Int) :
    zchain p m ⟨true, i, true, [n], k, true⟩ j j' = mb (zend (p k) (m k) .rsquare true j') (p n) (zend (p i) (m i) .rangle true j) := by
  have := (left_eq_right (p i) (m i) true j).1
  have hk : kindR true [n].length = .rsquare := rfl
  simp only [zchain, kindL, hk, slashProd, Matrix.mul_one, if_true]
  simp only [this, mb_eq]
  simp [dotProduct, Fin.sum_univ_two, vecMul, slashLower, K, mulVec]
  ring

theorem bra_mid_square {p : Nat → V4 ℝ} {m : Nat → ℝ} {i n k : Nat} {j j' : Int} {s s' : Fin 2} {μ μ' : ℝ} (hi : m i = μ) (hk : m k = μ')
    (h : (μ ≠ 0 ∧ j = spinOf s) ∨ (μ = 0 ∧ s = 1)) (h' : (μ' ≠ 0 ∧ j' = spinOf s') ∨ (μ' = 0 ∧ s' = 0)) :
    zchain p m ⟨false, i, true, [n], k, true⟩ j j' = mb (legS (p i) μ s) (p n) (legA (p k) μ' s') := by
  subst hi hk
  rw [zchain_mid_square, legS_code h, legA_code h']
theorem bra_mid_angle {p : Nat → V4 ℝ} {m : Nat → ℝ} {i n k : Nat} {j j' : Int} {s s' : Fin 2} {μ μ' : ℝ} (hi : m i = μ) (hk : m k = μ')
    (h : (μ ≠ 0 ∧ j = spinOf s) ∨ (μ = 0 ∧ s = 0)) (h' : (μ' ≠ 0 ∧ j' = spinOf s') ∨ (μ' = 0 ∧ s' = 1)) :
    zchain p m ⟨true, i, true, [n], k, true⟩ j j' = mb (legS (p k) μ' s') (p n) (legA (p i) μ s) := by
  subst hi hk
  rw [zchain_mid_angle, legA_code h, legS_code h']

end

/-! ### loops over spins -/

/-- a loop over the spins -2, 0 and 2 (the code counts in halves) -/
def sumV (g : ℝ → Int → ℝ) (x : ℝ) : ℝ := g (g (g x (-2)) 0) 2
/-- a loop over the spins -2 and 2 -/
def sumW (g : ℝ → Int → ℝ) (x : ℝ) : ℝ := g (g x (-2)) 2
/-- spins of vector bosons -/
def spinV (t : Fin 3) : Int := ![-2, 0, 2] t
def spinW (s : Fin 2) : Int := ![-2, 2] s

theorem sumJ_sum (g : Int → ℝ) (x : ℝ) : sumJ (fun x a => x + g a) x = x + ∑ s : Fin 2, g (spinOf s) := by
  simp only [sumJ, Fin.sum_univ_two, show spinOf 0 = -1 from rfl, show spinOf 1 = 1 from rfl]; ring
theorem sumV_sum (g : Int → ℝ) (x : ℝ) : sumV (fun x a => x + g a) x = x + ∑ t : Fin 3, g (spinV t) := by
  simp only [sumV, Fin.sum_univ_three, show spinV 0 = -2 from rfl, show spinV 1 = 0 from rfl, show spinV 2 = 2 from rfl]; ring
theorem sumW_sum (g : Int → ℝ) (x : ℝ) : sumW (fun x a => x + g a) x = x + ∑ s : Fin 2, g (spinW s) := by
  simp only [sumW, Fin.sum_univ_two, show spinW 0 = -2 from rfl, show spinW 1 = 2 from rfl]; ring

/-! ### spinors and polarisation vectors -/

def two (s : Fin 3) : Fin 2 := if s = 1 then 1 else 0
theorem two_castSucc (s : Fin 2) : two s.castSucc = s := by fin_cases s <;> rfl

namespace Spec.Reaction
variable (S : Reaction) (c : Constants) (p : Nat → V4 ℝ)

/-- 1 for particles, -1 for antiparticles -/
def sgn (n : Fin 4) : ℝ := if S.antifermion n then -1 else 1
theorem sgn_cases (n : Fin 4) : S.sgn n = 1 ∨ S.sgn n = -1 := by unfold sgn; cases S.antifermion n <;> simp

/-- a boson with conjugate polarisation vector, coming in -/
noncomputable def into (n : Fin 4) (E : Vec) : Line := if arrives n then ⟨S.boson n, p n, star E⟩ else ⟨(S.boson n).anti, backward (p n), star E⟩

theorem into_line (n : Fin 4) (E : Fin 4 → Vec) : S.line p (fun n => if arrives n then star (E n) else E n) n = S.into p n (E n) := by
  unfold line into; split_ifs with h <;> simp [h]

/-- amplitude with one fermion line without colours, conjugated -/
noncomputable def bare (i j a b : Fin 4) (z w : Pair) (E F : Vec) : ℂ :=
  star (joined c (S.flavour j) (S.flavour i) (S.along p j) (spY (S.sgn j) w.1 w.2) (spX (S.sgn i) z.1 z.2) 1 1 1 0 (S.into p a E) (S.into p b F))

theorem into_boson (n : Fin 4) (E : Vec) : (S.into p n E).boson = .higgs ↔ S.boson n = .higgs := by
  unfold into; split_ifs <;> simp [Boson.anti_higgs]
theorem into_put (n : Fin 4) (E : Vec) : S.into p n E = (S.into p n 0).put (star E) := by
  unfold into; split_ifs <;> rfl

theorem lin_star {ψ : Vec → ℂ} (h : IsLinearMap ℂ ψ) : IsLinearMap ℂ (fun E => star (ψ (star E))) :=
  ⟨fun x y => by rw [star_add, h.map_add, star_add], fun a x => by rw [star_smul, h.map_smul, star_smul, star_star]⟩

theorem bare_lin₁ {i j a b : Fin 4} (z w : Pair) (F : Vec) (h : S.boson a ≠ .higgs) : IsLinearMap ℂ (fun E => S.bare c p i j a b z w E F) := by
  have e : (fun E => S.bare c p i j a b z w E F) = fun E => star (joined c (S.flavour j) (S.flavour i) (S.along p j) (spY (S.sgn j) w.1 w.2) (spX (S.sgn i) z.1 z.2) 1 1 1 0 ((S.into p a 0).put (star E)) (S.into p b F)) := by
    funext E; rw [bare, S.into_put p a E]
  rw [e]
  exact lin_star ((joined_fine₁ c _ _ _ _ _ 1 1 1 0 (S.into p a 0) (S.into p b F)).1 (by rwa [ne_eq, into_boson]))
theorem bare_lin₂ {i j a b : Fin 4} (z w : Pair) (E : Vec) (h : S.boson b ≠ .higgs) : IsLinearMap ℂ (fun F => S.bare c p i j a b z w E F) := by
  have e : (fun F => S.bare c p i j a b z w E F) = fun F => star (joined c (S.flavour j) (S.flavour i) (S.along p j) (spY (S.sgn j) w.1 w.2) (spX (S.sgn i) z.1 z.2) 1 1 1 0 (S.into p a E) ((S.into p b 0).put (star F))) := by
    funext F; rw [bare, S.into_put p b F]
  rw [e]
  exact lin_star ((joined_fine₂ c _ _ _ _ _ 1 1 1 0 (S.into p a E) (S.into p b 0)).1 (by rwa [ne_eq, into_boson]))

/-- amplitude of four bosons, conjugated -/
noncomputable def bareFour (E : Fin 4 → Vec) : ℂ := star (fourBosons c (S.into p 0 (E 0)) (S.into p 1 (E 1)) (S.into p 2 (E 2)) (S.into p 3 (E 3)))

variable [FPEnv]

/-- Dirac spinors made of the spinors of the code -/
noncomputable def codeSpinor (n : Fin 4) (s : Fin 3) : Spinor :=
  if S.isEnd n then spX (S.sgn n) (legA (p n) (S.mass c n) (two s)) (legS (p n) (S.mass c n) (two s)) else spY (S.sgn n) (legA (p n) (S.mass c n) (two s)) (legS (p n) (S.mass c n) (two s))
/-- polarisation vectors made of the spinors of the code -/
noncomputable def codeVec (n : Fin 4) (t : Fin 3) : Vec := polE (legA (p n) (S.mass c n)) (legS (p n) (S.mass c n)) (S.mass c n) t
noncomputable abbrev codePair (n : Fin 4) (s : Fin 2) : Pair := (legA (p n) (S.mass c n) s, legS (p n) (S.mass c n) s)

variable {c p}

omit [FPEnv] in
theorem polarised_star {k : V4 ℝ} {b : Boson} {E : Fin 3 → Vec} (h : Polarised c k b E) (r : Bool) : Polarised c k b (fun t => if r then star (E t) else E t) := by
  cases r
  · simpa using h
  have conj : ∀ {t : Finset (Fin 3)} {G : Fin 4 → Fin 4 → ℂ}, (∀ μ ν, ∑ s ∈ t, E s μ * star (E s ν) = G μ ν) → (∀ μ ν, star (G μ ν) = G μ ν) → ∀ μ ν, ∑ s ∈ t, star (E s) μ * star (star (E s) ν) = G μ ν := by
    intro t G h1 h2 μ ν
    rw [← h2 μ ν, ← h1, star_sum]
    exact Finset.sum_congr rfl fun s _ => by simp
  have f1 : ∀ (k : V4 ℝ) μ, (starRingEnd ℂ) (four k μ) = four k μ := fun k μ => by fin_cases μ <;> simp [four]
  have f2 : ∀ μ, (starRingEnd ℂ) (metric μ) = metric μ := fun μ => by fin_cases μ <;> simp [metric]
  simp only [if_true]
  cases b
  · trivial
  · obtain ⟨n, h1, h2, h3⟩ := h
    exact ⟨n, h1, h2, conj h3 fun μ ν => by split_ifs <;> simp [f1, f2]⟩
  · exact conj h fun μ ν => by split_ifs <;> simp [f1, f2]
  · exact conj h fun μ ν => by split_ifs <;> simp [f1, f2]
  · exact conj h fun μ ν => by split_ifs <;> simp [f1, f2]
  · obtain ⟨n, h1, h2, h3⟩ := h
    exact ⟨n, h1, h2, conj h3 fun μ ν => by split_ifs <;> simp [f1, f2]⟩

theorem onShell_msq {q : V4 ℝ} {m : ℝ} (h : OnShell q m) : msq q = m ^ 2 := by have := h.shell; unfold msq; linarith

/-- The spinors and polarisation vectors of the code are complete. -/
theorem code_complete (hp : ∀ n : Fin 4, OnShell (p n) (S.mass c n)) (hm : ∀ n, 0 ≤ S.mass c n) {E : Fin 4 → Fin 3 → Vec} (hE : ∀ n b, S.leg n = .boson b → Polarised c (p n) b (E n)) (n : Fin 4) :
    S.Complete c p n (S.codeSpinor c p n) (fun t => if arrives n then star (E n t) else E n t) := by
  have hn := hp n
  have h0 := hm n
  unfold Complete
  unfold mass at hn h0
  cases hl : S.leg n with
  | fermion f a =>
    simp only [hl] at hn h0 ⊢
    have g := (legs_grams hn h0).complete (S.sgn_cases n)
    have e : (if a then -(c.mass f) else c.mass f : ℂ) = ((S.sgn n : ℝ) * (c.mass f : ℝ) : ℂ) := by
      unfold sgn antifermion; rw [hl]; cases a <;> simp
    rw [e, sum_two]
    have em : S.mass c n = c.mass f := by simp [mass, hl]
    simp only [codeSpinor, two_castSucc, em]
    split_ifs
    · exact g.1
    · exact g.2
  | boson b => exact polarised_star (hE n b hl) _

/-- massive vector bosons -/
theorem codeVec_polarised (hp : ∀ n : Fin 4, OnShell (p n) (S.mass c n)) (hm : ∀ n, 0 ≤ S.mass c n) {n : Fin 4} {b : Boson} (hl : S.leg n = .boson b) (hb : b.massive = true) (h0 : b ≠ .higgs → c.bosonMass b ≠ 0) :
    Polarised c (p n) b (S.codeVec c p n) := by
  have em : S.mass c n = c.bosonMass b := by simp [mass, hl]
  have g := legs_grams (hp n) (hm n)
  unfold codeVec
  cases b
  · trivial
  · cases hb
  · exact fun μ ν => by rw [em] at g ⊢; exact polE_complete (by rw [← em]; exact onShell_msq (hp n)) (h0 (by simp)) g μ ν
  · exact fun μ ν => by rw [em] at g ⊢; exact polE_complete (by rw [← em]; exact onShell_msq (hp n)) (h0 (by simp)) g μ ν
  · exact fun μ ν => by rw [em] at g ⊢; exact polE_complete (by rw [← em]; exact onShell_msq (hp n)) (h0 (by simp)) g μ ν
  · cases hb

/-- spinors of a leg solve the Dirac equation -/
theorem codePair_bold (hp : ∀ n : Fin 4, OnShell (p n) (S.mass c n)) (hm : ∀ n, 0 ≤ S.mass c n) (n : Fin 4) (s : Fin 2) : Bold (p n) (S.mass c n) (S.codePair c p n s) :=
  (legs_grams (hp n) (hm n)).bold (onShell_msq (hp n)) s

/-- number of colours of a fermion line -/
def lineColours (i j : Fin 4) : Nat := ((Fintype.piFinset S.colours).filter fun κ => κ i = κ j).card

omit [FPEnv] in
theorem colour_one {n : Fin 4} (h : S.boson n ≠ .gluon) (γ : Fin 4 → Fin 8) : S.colour γ n = 1 := by simp [colour, h]

omit [FPEnv] in
/-- without massless bosons -/
theorem gauge_massive (h : ∀ n b, S.leg n = .boson b → b.massive = true) : S.Gauge c p := fun n b hl hb => by
  rw [h n b hl] at hb; cases hb

omit [FPEnv] in
/-- an amplitude without gluons, at given spins -/
theorem oneLine_bare {i j a b : Fin 4} (ha : S.boson a ≠ .gluon) (hb : S.boson b ≠ .gluon) (κ : Fin 4 → Fin 3) (γ : Fin 4 → Fin 8) {w : Fin 4 → Spinor} {z z' : Pair} (E : Fin 4 → Vec)
    (hi : w i = spX (S.sgn i) z.1 z.2) (hj : w j = spY (S.sgn j) z'.1 z'.2) :
    S.oneLine c p κ γ w (fun n => if arrives n then star (E n) else E n) i j a b = delta (κ i) (κ j) * star (S.bare c p i j a b z z' (E a) (E b)) := by
  rw [oneLine_eq, into_line, into_line, S.colour_one ha, S.colour_one hb, hi, hj, bare, star_star]
  simp only [joined, Matrix.mul_one, sub_self, Matrix.zero_apply, Matrix.one_apply, delta]
  split_ifs <;> ring

/-- The squared amplitude in a spin state of the code, summed over colours. -/
noncomputable def stateSum (c : Constants) (p : Nat → V4 ℝ) (E : Fin 4 → Fin 3 → Vec) (s : Fin 4 → Fin 3) : ℝ :=
  ∑ κ ∈ Fintype.piFinset S.colours, ∑ γ ∈ Fintype.piFinset S.gluons, ‖S.amplitude c p κ γ (fun n => S.codeSpinor c p n (s n)) (fun n => if arrives n then star (E n (s n)) else E n (s n))‖ ^ 2

theorem squared_states (hp : ∀ n : Fin 4, OnShell (p n) (S.mass c n)) (hm : ∀ n, 0 ≤ S.mass c n) (h0 : ∀ n b, S.leg n = .boson b → b.massive = true → b ≠ .higgs → c.bosonMass b ≠ 0) (hG : S.Gauge c p)
    {E : Fin 4 → Fin 3 → Vec} (hE : ∀ n b, S.leg n = .boson b → Polarised c (p n) b (E n)) {u : Fin 4 → Fin 3 → Spinor} {ε : Fin 4 → Fin 3 → Vec} (hu : ∀ n, S.Complete c p n (u n) (ε n)) {W : ℝ} {B : (Fin 4 → Fin 3) → ℝ}
    (h : ∀ s ∈ Fintype.piFinset S.spins, S.stateSum c p E s = W * B s) : S.squared c p u ε = W * (∑ s ∈ Fintype.piFinset S.spins, B s) / (S.states 0 * S.states 1 * S.symmetry) := by
  rw [S.squared_basis (fun n => onShell_msq (hp n)) h0 hG hu (S.code_complete hp hm hE)]
  unfold squared
  congr 1
  rw [Finset.mul_sum]
  exact Finset.sum_congr rfl h

/-- one fermion line without gluons -/
theorem state_line {i j a b : Fin 4} (he : S.ends = [i]) (hs : S.starts = [j]) (hb : S.bosons = [a, b]) (hg : ∀ n, S.boson n ≠ .gluon) (E : Fin 4 → Fin 3 → Vec) (s : Fin 4 → Fin 3) :
    S.stateSum c p E s = S.lineColours i j * ‖S.bare c p i j a b (S.codePair c p i (two (s i))) (S.codePair c p j (two (s j))) (E a (s a)) (E b (s b))‖ ^ 2 := by
  unfold stateSum
  have ei : S.isEnd i := (S.mem_ends i).1 (by rw [he]; simp)
  have ej : S.isStart j := (S.mem_starts j).1 (by rw [hs]; simp)
  have ej' : S.isEnd j = false := by
    unfold isStart at ej; unfold isEnd
    cases hl : S.leg j with
    | boson b => rfl
    | fermion f a => rw [hl] at ej; simpa using ej
  have hγ : S.gluons = fun _ => {0} := by funext n; simp [gluons, hg]
  have k : ∀ κ γ, S.amplitude c p κ γ (fun n => S.codeSpinor c p n (s n)) (fun n => if arrives n then star (E n (s n)) else E n (s n)) =
      delta (κ i) (κ j) * star (S.bare c p i j a b (S.codePair c p i (two (s i))) (S.codePair c p j (two (s j))) (E a (s a)) (E b (s b))) := by
    intro κ γ
    unfold amplitude
    rw [he, hs, hb]
    exact S.oneLine_bare (hg a) (hg b) κ γ (fun n => E n (s n)) (by simp [codeSpinor, ei]) (by simp [codeSpinor, ej'])
  simp only [k, hγ, Fintype.piFinset_singleton, Finset.sum_singleton, norm_mul, norm_star, mul_pow]
  rw [← Finset.sum_mul]
  congr 1
  rw [lineColours, Finset.card_filter]
  push_cast
  refine Finset.sum_congr rfl fun κ _ => ?_
  unfold delta
  split_ifs <;> simp

theorem squared_line {i j a b : Fin 4} (he : S.ends = [i]) (hs : S.starts = [j]) (hb : S.bosons = [a, b]) (hg : ∀ n, S.boson n ≠ .gluon) (hp : ∀ n : Fin 4, OnShell (p n) (S.mass c n)) (hm : ∀ n, 0 ≤ S.mass c n)
    (h0 : ∀ n b, S.leg n = .boson b → b.massive = true → b ≠ .higgs → c.bosonMass b ≠ 0) (hG : S.Gauge c p)
    {E : Fin 4 → Fin 3 → Vec} (hE : ∀ n b, S.leg n = .boson b → Polarised c (p n) b (E n)) {u : Fin 4 → Fin 3 → Spinor} {ε : Fin 4 → Fin 3 → Vec} (hu : ∀ n, S.Complete c p n (u n) (ε n)) :
    S.squared c p u ε = S.lineColours i j * (∑ s ∈ Fintype.piFinset S.spins, ‖S.bare c p i j a b (S.codePair c p i (two (s i))) (S.codePair c p j (two (s j))) (E a (s a)) (E b (s b))‖ ^ 2) /
      (S.states 0 * S.states 1 * S.symmetry) :=
  S.squared_states hp hm h0 hG hE hu fun s _ => S.state_line he hs hb hg E s

/-- four bosons without gluons -/
theorem state_four (he : S.ends = []) (hs : S.starts = []) (hb : S.bosons = [0, 1, 2, 3]) (hg : ∀ n, S.boson n ≠ .gluon) (E : Fin 4 → Fin 3 → Vec) (s : Fin 4 → Fin 3) :
    S.stateSum c p E s = ‖S.bareFour c p (fun n => E n (s n))‖ ^ 2 := by
  unfold stateSum
  have hγ : S.gluons = fun _ => {0} := by funext n; simp [gluons, hg]
  have hc : S.colours = fun _ => {0} := by
    funext n
    have : S.isBoson n := (S.mem_bosons n).1 (by rw [hb]; fin_cases n <;> simp)
    unfold isBoson at this
    unfold colours
    cases hl : S.leg n <;> simp_all
  have k : ∀ κ γ, S.amplitude c p κ γ (fun n => S.codeSpinor c p n (s n)) (fun n => if arrives n then star (E n (s n)) else E n (s n)) = star (S.bareFour c p (fun n => E n (s n))) := by
    intro κ γ
    unfold amplitude
    rw [he, hs, hb, bareFour, star_star]
    simp only [S.fourGluons_other c p γ _ (hg 0), add_zero]
    simp only [S.into_line p _ (fun n => E n (s n))]
  simp only [k, hγ, hc, Fintype.piFinset_singleton, Finset.sum_singleton, norm_star]

theorem squared_four (he : S.ends = []) (hs : S.starts = []) (hb : S.bosons = [0, 1, 2, 3]) (hg : ∀ n, S.boson n ≠ .gluon) (hp : ∀ n : Fin 4, OnShell (p n) (S.mass c n)) (hm : ∀ n, 0 ≤ S.mass c n)
    (h0 : ∀ n b, S.leg n = .boson b → b.massive = true → b ≠ .higgs → c.bosonMass b ≠ 0) (hG : S.Gauge c p)
    {E : Fin 4 → Fin 3 → Vec} (hE : ∀ n b, S.leg n = .boson b → Polarised c (p n) b (E n)) {u : Fin 4 → Fin 3 → Spinor} {ε : Fin 4 → Fin 3 → Vec} (hu : ∀ n, S.Complete c p n (u n) (ε n)) :
    S.squared c p u ε = (∑ s ∈ Fintype.piFinset S.spins, ‖S.bareFour c p (fun n => E n (s n))‖ ^ 2) / (S.states 0 * S.states 1 * S.symmetry) := by
  have := S.squared_states hp hm h0 hG hE hu (W := 1) (B := fun s => ‖S.bareFour c p (fun n => E n (s n))‖ ^ 2) fun s _ => by rw [S.state_four he hs hb hg E s, one_mul]
  rwa [one_mul] at this

omit [FPEnv] in
theorem regular_line {i j a b : Fin 4} (he : S.ends = [i]) (hs : S.starts = [j]) (hb : S.bosons = [a, b]) (h : S.Regular c p) : S.Fermionic c p i j a b ∧ S.Fermionic c p i j b a ∧ S.Bosonic c p i j a b := by
  unfold Regular at h
  rwa [he, hs, hb] at h
omit [FPEnv] in
theorem regular_four (he : S.ends = []) (hs : S.starts = []) (hb : S.bosons = [0, 1, 2, 3]) (h : S.Regular c p) : S.Mediating c p 0 1 2 3 ∧ S.Mediating c p 0 2 1 3 ∧ S.Mediating c p 0 3 1 2 := by
  unfold Regular at h
  rwa [he, hs, hb] at h

end Spec.Reaction
end Spinas
