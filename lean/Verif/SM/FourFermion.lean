import Verif.Exact.Fermions
import Verif.SM.Numbers

/-! Squared amplitudes of four fermions in the angle and square spinors of the code. -/

namespace Spinas
open Spec Props Matrix

variable [FPEnv]

/-! ### the spinors of a leg -/

/-- the spins of the code: -1 and 1 -/
def spinOf (s : Fin 2) : Int := if s = 1 then 1 else -1

/-- angle and square spinor of a particle; for a massless one the first state has an angle, the second a square spinor -/
noncomputable def legA (p : V4 ℝ) (m : ℝ) (s : Fin 2) : V2 := if m = 0 ∧ s = 1 then 0 else zend p m .rangle true (spinOf s)
noncomputable def legS (p : V4 ℝ) (m : ℝ) (s : Fin 2) : V2 := if m = 0 ∧ s = 0 then 0 else zend p m .rsquare true (spinOf s)

theorem legs_grams {p : V4 ℝ} {m : ℝ} (hp : OnShell p m) (hm : 0 ≤ m) : Grams p m (legA p m) (legS p m) := by
  have g := fun b b' => gramR_eq hp hm id b b' true
  by_cases h : m = 0
  · subst h
    have ga := g true true (fun _ => rfl)
    have gs := g false false (fun _ => rfl)
    have z : ∀ b j, zend p 0 b true j = zend p 0 b true 1 := fun b j => by simp [zend]
    simp only [if_true, rk, gramR, Bool.false_eq_true, if_false] at ga gs
    constructor
    · simp only [Fin.sum_univ_two, legA]; simp [z .rangle (spinOf 0), ga]
    · simp only [Fin.sum_univ_two, legS]; simp [z .rsquare (spinOf 1), gs]
    · simp only [Fin.sum_univ_two, legA, legS]; simp
    · simp only [Fin.sum_univ_two, legA, legS]; simp
  · have g' := fun b b' => g b b' (fun e => absurd e h)
    have a := g' true true
    have b := g' false false
    have c := g' true false
    have d := g' false true
    simp only [h, if_false, rk, gramR, if_true, Bool.false_eq_true, Bool.true_eq_false] at a b c d
    have e0 : spinOf 0 = -1 := rfl
    have e1 : spinOf 1 = 1 := rfl
    constructor <;> simp only [Fin.sum_univ_two, legA, legS, h, false_and, if_false, e0, e1] <;> assumption

/-- products with two upper indices -/
theorem zchain_angle (p : Nat → V4 ℝ) (m : Nat → ℝ) (i k : Nat) (j j' : Int) :
    zchain p m ⟨true, i, true, [], k, true⟩ j j' = ab (zend (p i) (m i) .rangle true j) (zend (p k) (m k) .rangle true j') := by
  have := (left_eq_right (p i) (m i) true j).1
  simp only [zchain, kindL, kindR, slashProd, Matrix.vecMul_one, if_true, List.length_nil]
  simp only [this, vecMul_K, ab]
  simp [dotProduct, Fin.sum_univ_two]
  ring
theorem zchain_square (p : Nat → V4 ℝ) (m : Nat → ℝ) (i k : Nat) (j j' : Int) :
    zchain p m ⟨false, i, true, [], k, true⟩ j j' = sb (zend (p i) (m i) .rsquare true j) (zend (p k) (m k) .rsquare true j') := by
  have := (left_eq_right (p i) (m i) true j).2
  simp only [zchain, kindL, kindR, slashProd, Matrix.vecMul_one, Bool.false_eq_true, if_false, List.length_nil]
  simp only [this, vecMul_K, sb]
  simp [dotProduct, Fin.sum_univ_two]
  ring

omit [FPEnv] in
theorem ab_swap (x y : V2) : ab y x = -ab x y := by simp only [ab]; ring
omit [FPEnv] in
theorem sb_swap (x y : V2) : sb y x = -sb x y := by simp only [sb]; ring

namespace Spec.Scattering
variable (S : Scattering) (c : Constants) (p : Nat → V4 ℝ)

/-- 1 for particles, -1 for antiparticles -/
def sgn (i : Fin 4) : ℝ := if (S.leg i).anti then -1 else 1

theorem sgn_cases (i : Fin 4) : S.sgn i = 1 ∨ S.sgn i = -1 := by unfold sgn; cases (S.leg i).anti <;> simp

abbrev legMass (i : Fin 4) : ℝ := c.mass (S.leg i).flavour
noncomputable abbrev angs (s : Fin 4 → Fin 2) (i : Fin 4) : V2 := legA (p i) (S.legMass c i) (s i)
noncomputable abbrev sqrs (s : Fin 4 → Fin 2) (i : Fin 4) : V2 := legS (p i) (S.legMass c i) (s i)

/-- Dirac spinors made of the spinors of the code: `r` chooses between the two ways -/
noncomputable def spinors (r : Bool) (i : Fin 4) (s : Fin 2) : Spinor :=
  if (outgoing i != (S.leg i).anti) == r then spX (S.sgn i) (legA (p i) (S.legMass c i) s) (legS (p i) (S.legMass c i) s)
  else spY (S.sgn i) (legA (p i) (S.legMass c i) s) (legS (p i) (S.legMass c i) s)

variable {c p}

theorem spinors_complete (hs : ∀ i : Fin 4, OnShell (p i) (S.legMass c i)) (hm : ∀ f, 0 ≤ c.mass f) (r : Bool) (i : Fin 4) : S.Complete c p i (S.spinors c p r i) := by
  have g := (legs_grams (hs i) (hm _)).complete (S.sgn_cases i)
  have e : (if (S.leg i).anti then -(c.mass (S.leg i).flavour) else c.mass (S.leg i).flavour : ℂ) = ((S.sgn i : ℝ) * (S.legMass c i : ℝ) : ℂ) := by
    unfold sgn; cases (S.leg i).anti <;> simp
  unfold Complete
  rw [e]
  unfold spinors
  split_ifs
  · exact g.1
  · exact g.2

theorem flow_msq (i : Fin 4) : msq (S.flow p i) = msq (p i) := by
  unfold flow; split_ifs <;> simp [msq]

theorem slash_flow (i : Fin 4) : slash (S.flow p i) = (S.sgn i : ℂ) • slash (p i) := by
  unfold flow sgn
  cases (S.leg i).anti
  · simp
  · rw [slash_apply, slash_apply]
    ext a b
    fin_cases a <;> fin_cases b <;> simp <;> ring

theorem spinors_dirac (hs : ∀ i : Fin 4, OnShell (p i) (S.legMass c i)) (hm : ∀ f, 0 ≤ c.mass f) (r : Bool) (i : Fin 4) (s : Fin 2) :
    Dirac (S.flow p i) (S.legMass c i) (S.spinors c p r i s) := by
  have h := S.spinors_complete hs hm r i
  have hq : msq (p i) = (S.sgn i * S.legMass c i) ^ 2 := by
    have := (hs i).shell
    rcases S.sgn_cases i with e | e <;> rw [e] <;> unfold msq <;> linear_combination this
  have e : (if (S.leg i).anti then -(c.mass (S.leg i).flavour) else c.mass (S.leg i).flavour : ℂ) = ((S.sgn i * S.legMass c i : ℝ) : ℂ) := by
    unfold sgn; cases (S.leg i).anti <;> simp
  unfold Complete at h
  rw [e] at h
  have d := dirac_of_complete hq h s
  unfold Dirac at d ⊢
  rw [slash_flow, Matrix.smul_mulVec, d, smul_smul]
  congr 1
  rcases S.sgn_cases i with e | e <;> rw [e] <;> simp

/-! ### exchanges -/

variable (c p)

/-- exchanges in the spinors of the code, with complex conjugation -/
noncomputable def ewC (A Q : Fin 4 → V2) (i j k l : Fin 4) : ℂ :=
  let f := (S.leg i).flavour
  let g := (S.leg k).flavour
  let q := S.transfer p i j
  let jj' := jj (S.sgn i) (S.sgn j) (S.sgn k) (S.sgn l) (A i) (Q i) (A j) (Q j) (A k) (Q k) (A l) (Q l)
  let l1 := ln (S.sgn i) (S.sgn j) (A i) (Q i) (A j) (Q j)
  let l2 := ln (S.sgn k) (S.sgn l) (A k) (Q k) (A l) (Q l)
  (if S.neutral i j k l then
    (c.e ^ 2 * f.charge * g.charge : ℝ) * (jj' 1 1 1 1 / (msq q : ℂ)) +
    (if S.theory = .standard then
      (c.e ^ 2 / (c.SW ^ 2 * c.CW ^ 2) : ℝ) * ((jj' (c.gL f) (c.gR f) (c.gL g) (c.gR g) +
        l1 (c.mass f * c.gR f - c.mass f * c.gL f) (c.mass f * c.gL f - c.mass f * c.gR f) * l2 (c.mass g * c.gR g - c.mass g * c.gL g) (c.mass g * c.gL g - c.mass g * c.gR g) / (c.MZ ^ 2 : ℝ)) /
        pole c.MZ c.WZ q) -
      (c.e ^ 2 * c.mass f * c.mass g / (4 * c.MW ^ 2 * c.SW ^ 2) : ℝ) * (l1 1 1 * l2 1 1 / pole c.MH c.WH q)
    else 0)
  else 0) +
  (if S.theory = .standard ∧ S.charged i j k l then
    (c.e ^ 2 / (2 * c.SW ^ 2) : ℝ) * ((jj' 1 0 1 0 +
      l1 (-(S.legMass c i)) (S.legMass c j) * l2 (-(S.legMass c k)) (S.legMass c l) / (c.MW ^ 2 : ℝ)) / pole c.MW c.WW q)
  else 0)

noncomputable def strongC (A Q : Fin 4 → V2) (i j k l : Fin 4) : ℂ :=
  if S.theory = .standard ∧ S.neutral i j k l ∧ (S.leg i).flavour.quark ∧ (S.leg k).flavour.quark then
    (c.gs ^ 2 : ℝ) * (jj (S.sgn i) (S.sgn j) (S.sgn k) (S.sgn l) (A i) (Q i) (A j) (Q j) (A k) (Q k) (A l) (Q l) 1 1 1 1 / (msq (S.transfer p i j) : ℂ))
  else 0

variable {c p}

section
variable {w : Fin 4 → Spinor} {A Q : Fin 4 → V2} {i j k l : Fin 4}

theorem strong_conj (hi : w i = spX (S.sgn i) (A i) (Q i)) (hj : w j = spY (S.sgn j) (A j) (Q j)) (hk : w k = spX (S.sgn k) (A k) (Q k)) (hl : w l = spY (S.sgn l) (A l) (Q l)) :
    S.strong c p w i j k l = star (S.strongC c p A Q i j k l) := by
  unfold strong strongC
  split_ifs
  · rw [hi, hj, hk, hl, massless_conj, star_mul']
    simp
  · simp

theorem ew_conj (hi : w i = spX (S.sgn i) (A i) (Q i)) (hj : w j = spY (S.sgn j) (A j) (Q j)) (hk : w k = spX (S.sgn k) (A k) (Q k)) (hl : w l = spY (S.sgn l) (A l) (Q l))
    (hd : ∀ n, Dirac (S.flow p n) (S.legMass c n) (w n)) (hq : S.transfer p i j = S.transfer p l k) :
    S.electroweak c p w i j k l = star (S.ewC c p A Q i j k l) := by
  have di := hd i
  have dj := hd j
  have dk := hd k
  have dl := hd l
  rw [hi] at di; rw [hj] at dj; rw [hk] at dk; rw [hl] at dl
  have m := fun a b x y z t => massive_conj (q := S.transfer p i j) _ _ _ _ _ _ _ _ _ _ _ _ di dj dk dl rfl hq a b x y z t
  unfold electroweak ewC
  simp only [star_add]
  congr 1
  · by_cases hn : S.neutral i j k l
    · rw [if_pos hn, if_pos hn]
      simp only [star_add, star_mul']
      congr 1
      · rw [hi, hj, hk, hl, massless_conj]
        simp
      · by_cases ht : S.theory = .standard
        · rw [if_pos ht, if_pos ht]
          simp only [star_sub, star_mul']
          congr 1
          · rw [hi, hj, hk, hl]
            have e1 : S.legMass c j = c.mass (S.leg i).flavour := by rw [hn.1]
            have e2 : S.legMass c l = c.mass (S.leg k).flavour := by rw [hn.2]
            have := m c.MZ c.WZ (c.gL (S.leg i).flavour) (c.gR (S.leg i).flavour) (c.gL (S.leg k).flavour) (c.gR (S.leg k).flavour)
            rw [e1, e2] at this
            rw [show (star ((c.e ^ 2 / (c.SW ^ 2 * c.CW ^ 2) : ℝ) : ℂ)) = ((c.e ^ 2 / (c.SW ^ 2 * c.CW ^ 2) : ℝ) : ℂ) from Complex.conj_ofReal _]
            exact congrArg _ this
          · rw [hi, hj, hk, hl, scalar_conj,
              show (star ((c.e ^ 2 * c.mass (S.leg i).flavour * c.mass (S.leg k).flavour / (4 * c.MW ^ 2 * c.SW ^ 2) : ℝ) : ℂ)) = _ from Complex.conj_ofReal _]
        · rw [if_neg ht, if_neg ht]; simp
    · rw [if_neg hn, if_neg hn]; simp
  · split_ifs with h
    · rw [hi, hj, hk, hl, star_mul']
      have := m c.MW c.WW 1 0 1 0
      simp only [mul_zero, mul_one, zero_sub, sub_zero] at this
      rw [this, show (star ((c.e ^ 2 / (2 * c.SW ^ 2) : ℝ) : ℂ)) = ((c.e ^ 2 / (2 * c.SW ^ 2) : ℝ) : ℂ) from Complex.conj_ofReal _]
    · simp

/-- W exchange without conjugation -/
theorem ew_direct (hi : w i = spY (S.sgn i) (A i) (Q i)) (hj : w j = spX (S.sgn j) (A j) (Q j)) (hk : w k = spY (S.sgn k) (A k) (Q k)) (hl : w l = spX (S.sgn l) (A l) (Q l))
    (hd : ∀ n, Dirac (S.flow p n) (S.legMass c n) (w n)) (hq : S.transfer p i j = S.transfer p l k) (hn : ¬ S.neutral i j k l) (hc : S.theory = .standard ∧ S.charged i j k l) :
    S.electroweak c p w i j k l = (c.e ^ 2 / (2 * c.SW ^ 2) : ℝ) * ((-2 * (S.sgn j * S.sgn l * (ab (A i) (A k) * sb (Q j) (Q l))) +
      lw (S.sgn i) (S.sgn j) (A i) (Q i) (A j) (Q j) (S.legMass c i) (S.legMass c j) * lw (S.sgn k) (S.sgn l) (A k) (Q k) (A l) (Q l) (S.legMass c k) (S.legMass c l) / (c.MW ^ 2 : ℝ)) /
      breitWigner c.MW c.WW (S.transfer p i j)) := by
  have di := hd i
  have dj := hd j
  have dk := hd k
  have dl := hd l
  rw [hi] at di; rw [hj] at dj; rw [hk] at dk; rw [hl] at dl
  have m := massive_direct (q := S.transfer p i j) _ _ _ _ _ _ _ _ _ _ _ _ di dj dk dl rfl hq c.MW c.WW
  unfold electroweak
  simp only [if_neg hn, if_pos hc, zero_add]
  rw [hi, hj, hk, hl, m]

end

/-! ### sums over spins and colours -/

section
variable {i j k l : Fin 4}

theorem amplitude_two (he : S.ends = [i, k]) (hs : S.starts = [j, l]) (κ : Fin 4 → Fin 3) (w : Fin 4 → Spinor) :
    S.amplitude c p κ w = S.connected c p κ w i j k l - S.connected c p κ w i l k j := by
  unfold amplitude
  rw [he, hs]

theorem spinors_end {r : Bool} (h : i ∈ S.ends) (s : Fin 2) : S.spinors c p r i s =
    if r then spX (S.sgn i) (legA (p i) (S.legMass c i) s) (legS (p i) (S.legMass c i) s) else spY (S.sgn i) (legA (p i) (S.legMass c i) s) (legS (p i) (S.legMass c i) s) := by
  have : (outgoing i != (S.leg i).anti) = true := (List.mem_filter.1 h).2
  unfold spinors
  rw [this]
  cases r <;> rfl
theorem spinors_start {r : Bool} (h : i ∈ S.starts) (s : Fin 2) : S.spinors c p r i s =
    if r then spY (S.sgn i) (legA (p i) (S.legMass c i) s) (legS (p i) (S.legMass c i) s) else spX (S.sgn i) (legA (p i) (S.legMass c i) s) (legS (p i) (S.legMass c i) s) := by
  have : (outgoing i == (S.leg i).anti) = true := (List.mem_filter.1 h).2
  have : (outgoing i != (S.leg i).anti) = false := by rw [bne, this]; rfl
  unfold spinors
  rw [this]
  cases r <;> rfl

/-- momentum conservation along the lines -/
def Flows (p : Nat → V4 ℝ) (i j k l : Fin 4) : Prop := S.transfer p i j = S.transfer p l k ∧ S.transfer p i l = S.transfer p j k

/-- closed forms for the two ways to connect the lines -/
theorem connected_conj (he : S.ends = [i, k]) (hs : S.starts = [j, l]) (hp : ∀ i : Fin 4, OnShell (p i) (S.legMass c i)) (hm : ∀ f, 0 ≤ c.mass f) (hf : S.Flows p i j k l)
    (s : Fin 4 → Fin 2) :
    S.electroweak c p (fun n => S.spinors c p true n (s n)) i j k l = star (S.ewC c p (S.angs c p s) (S.sqrs c p s) i j k l) ∧
    S.electroweak c p (fun n => S.spinors c p true n (s n)) i l k j = star (S.ewC c p (S.angs c p s) (S.sqrs c p s) i l k j) ∧
    S.strong c p (fun n => S.spinors c p true n (s n)) i j k l = star (S.strongC c p (S.angs c p s) (S.sqrs c p s) i j k l) ∧
    S.strong c p (fun n => S.spinors c p true n (s n)) i l k j = star (S.strongC c p (S.angs c p s) (S.sqrs c p s) i l k j) := by
  have hd := fun n => S.spinors_dirac hp hm true n (s n)
  have xi := S.spinors_end (c := c) (p := p) (r := true) (i := i) (by rw [he]; simp) (s i)
  have xk := S.spinors_end (c := c) (p := p) (r := true) (i := k) (by rw [he]; simp) (s k)
  have xj := S.spinors_start (c := c) (p := p) (r := true) (i := j) (by rw [hs]; simp) (s j)
  have xl := S.spinors_start (c := c) (p := p) (r := true) (i := l) (by rw [hs]; simp) (s l)
  exact ⟨S.ew_conj xi xj xk xl hd hf.1, S.ew_conj xi xl xk xj hd hf.2, S.strong_conj xi xj xk xl, S.strong_conj xi xl xk xj⟩

theorem squared_leptons_any (he : S.ends = [i, k]) (hs : S.starts = [j, l]) (hp : ∀ i : Fin 4, OnShell (p i) (S.legMass c i)) (hm : ∀ f, 0 ≤ c.mass f)
    {u : Fin 4 → Fin 2 → Spinor} (hu : ∀ n, S.Complete c p n (u n)) (r : Bool) (hq : ∀ n, (S.leg n).flavour.quark = false) :
    S.squared c p u = (∑ s : Fin 4 → Fin 2, ‖S.electroweak c p (fun n => S.spinors c p r n (s n)) i j k l - S.electroweak c p (fun n => S.spinors c p r n (s n)) i l k j‖ ^ 2) /
      (S.states * S.symmetry) := by
  rw [S.squared_basis c p hu (S.spinors_complete hp hm r)]
  unfold squared
  congr 1
  refine Finset.sum_congr rfl fun s _ => ?_
  have ht : (fun n => (S.leg n).flavour.colours) = fun _ => {0} := by funext n; simp [Flavour.colours, hq]
  rw [ht, Fintype.piFinset_singleton, Finset.sum_singleton, S.amplitude_two he hs]
  unfold connected
  have h3 : S.strong c p (fun n => S.spinors c p r n (s n)) i j k l = 0 := by unfold strong; simp [hq]
  have h4 : S.strong c p (fun n => S.spinors c p r n (s n)) i l k j = 0 := by unfold strong; simp [hq]
  rw [h3, h4]
  simp only [delta, if_true, one_mul, mul_zero, add_zero]

/-- a line of quarks and one of leptons, not exchanging their ends -/
theorem squared_mixed_annihilation (he : S.ends = [1, 2]) (hs : S.starts = [0, 3]) (hp : ∀ i : Fin 4, OnShell (p i) (S.legMass c i)) (hm : ∀ f, 0 ≤ c.mass f)
    {u : Fin 4 → Fin 2 → Spinor} (hu : ∀ n, S.Complete c p n (u n)) (r : Bool) (hq : ∀ n, (S.leg n).flavour.quark = decide (n = 0 ∨ n = 1))
    (h0 : ¬ S.neutral 1 3 2 0) (h0' : ¬ S.charged 1 3 2 0) :
    S.squared c p u = (∑ s : Fin 4 → Fin 2, 3 * ‖S.electroweak c p (fun n => S.spinors c p r n (s n)) 1 0 2 3‖ ^ 2) / (S.states * S.symmetry) := by
  rw [S.squared_basis c p hu (S.spinors_complete hp hm r)]
  unfold squared
  congr 1
  refine Finset.sum_congr rfl fun s _ => ?_
  have h2 : S.electroweak c p (fun n => S.spinors c p r n (s n)) 1 3 2 0 = 0 := by unfold electroweak; simp [h0, h0']
  have h3 : S.strong c p (fun n => S.spinors c p r n (s n)) 1 0 2 3 = 0 := by unfold strong; simp [hq]
  have h4 : S.strong c p (fun n => S.spinors c p r n (s n)) 1 3 2 0 = 0 := by unfold strong; simp [hq]
  rw [sum_colours]
  simp only [S.amplitude_two he hs, connected, h2, h3, h4, Flavour.colours, hq, mul_zero, add_zero, sub_zero]
  generalize S.electroweak c p (fun n => S.spinors c p r n (s n)) 1 0 2 3 = z
  simp [Fin.sum_univ_three, delta]
  ring

/-- the same for incoming quark and lepton, outgoing lepton and quark -/
theorem squared_mixed_scattering (he : S.ends = [2, 3]) (hs : S.starts = [0, 1]) (hp : ∀ i : Fin 4, OnShell (p i) (S.legMass c i)) (hm : ∀ f, 0 ≤ c.mass f)
    {u : Fin 4 → Fin 2 → Spinor} (hu : ∀ n, S.Complete c p n (u n)) (r : Bool) (hq : ∀ n, (S.leg n).flavour.quark = decide (n = 0 ∨ n = 3))
    (h0 : ¬ S.neutral 2 0 3 1) (h0' : ¬ S.charged 2 0 3 1) :
    S.squared c p u = (∑ s : Fin 4 → Fin 2, 3 * ‖S.electroweak c p (fun n => S.spinors c p r n (s n)) 2 1 3 0‖ ^ 2) / (S.states * S.symmetry) := by
  rw [S.squared_basis c p hu (S.spinors_complete hp hm r)]
  unfold squared
  congr 1
  refine Finset.sum_congr rfl fun s _ => ?_
  have h2 : S.electroweak c p (fun n => S.spinors c p r n (s n)) 2 0 3 1 = 0 := by unfold electroweak; simp [h0, h0']
  have h3 : S.strong c p (fun n => S.spinors c p r n (s n)) 2 0 3 1 = 0 := by unfold strong; simp [hq]
  have h4 : S.strong c p (fun n => S.spinors c p r n (s n)) 2 1 3 0 = 0 := by unfold strong; simp [hq]
  rw [sum_colours]
  simp only [S.amplitude_two he hs, connected, h2, h3, h4, Flavour.colours, hq, mul_zero, add_zero, zero_sub]
  generalize S.electroweak c p (fun n => S.spinors c p r n (s n)) 2 1 3 0 = z
  simp [Fin.sum_univ_three, delta]
  ring

variable (he : S.ends = [i, k]) (hs : S.starts = [j, l]) (hp : ∀ i : Fin 4, OnShell (p i) (S.legMass c i)) (hm : ∀ f, 0 ≤ c.mass f) (hf : S.Flows p i j k l)
  {u : Fin 4 → Fin 2 → Spinor} (hu : ∀ n, S.Complete c p n (u n))
include he hs hp hm hf hu

/-- four leptons -/
theorem squared_leptons (hq : ∀ n, (S.leg n).flavour.quark = false) :
    S.squared c p u = (∑ s, ‖S.ewC c p (S.angs c p s) (S.sqrs c p s) i j k l - S.ewC c p (S.angs c p s) (S.sqrs c p s) i l k j‖ ^ 2) / (S.states * S.symmetry) := by
  rw [S.squared_leptons_any he hs hp hm hu true hq]
  congr 1
  refine Finset.sum_congr rfl fun s _ => ?_
  obtain ⟨h1, h2, -, -⟩ := S.connected_conj he hs hp hm hf s
  rw [h1, h2, ← star_sub, norm_star]

/-- Quarks only; `σ` brings the legs in the order of the lines. -/
theorem squared_quarks (hq : ∀ n, (S.leg n).flavour.quark = true) (hn : ∀ F : (Fin 4 → Fin 3) → ℝ, ∑ κ, F κ = ∑ a, ∑ b, ∑ d, ∑ e, F (Function.update (Function.update (Function.update (Function.update 0 i a) j b) k d) l e))
    (hd : [i, j, k, l].Nodup) :
    S.squared c p u = (∑ s,
      (9 * ‖S.ewC c p (S.angs c p s) (S.sqrs c p s) i j k l‖ ^ 2 + 2 * ‖S.strongC c p (S.angs c p s) (S.sqrs c p s) i j k l‖ ^ 2 +
        9 * ‖S.ewC c p (S.angs c p s) (S.sqrs c p s) i l k j‖ ^ 2 + 2 * ‖S.strongC c p (S.angs c p s) (S.sqrs c p s) i l k j‖ ^ 2 -
        6 * (S.ewC c p (S.angs c p s) (S.sqrs c p s) i j k l * star (S.ewC c p (S.angs c p s) (S.sqrs c p s) i l k j)).re +
        4 / 3 * (S.strongC c p (S.angs c p s) (S.sqrs c p s) i j k l * star (S.strongC c p (S.angs c p s) (S.sqrs c p s) i l k j)).re -
        8 * (S.strongC c p (S.angs c p s) (S.sqrs c p s) i j k l * star (S.ewC c p (S.angs c p s) (S.sqrs c p s) i l k j)).re -
        8 * (S.strongC c p (S.angs c p s) (S.sqrs c p s) i l k j * star (S.ewC c p (S.angs c p s) (S.sqrs c p s) i j k l)).re)) / (S.states * S.symmetry) := by
  rw [S.squared_basis c p hu (S.spinors_complete hp hm true)]
  unfold squared
  congr 1
  refine Finset.sum_congr rfl fun s _ => ?_
  have ht : (fun n => (S.leg n).flavour.colours) = fun _ => Finset.univ := by funext n; simp [Flavour.colours, hq]
  obtain ⟨h1, h2, h3, h4⟩ := S.connected_conj he hs hp hm hf s
  rw [ht, Fintype.piFinset_univ, hn]
  simp only [List.nodup_cons, List.mem_cons, List.not_mem_nil, or_false, not_or, not_false_eq_true, List.nodup_nil, and_true] at hd
  obtain ⟨⟨d1, d2, d3⟩, ⟨d4, d5⟩, d6⟩ := hd
  simp only [S.amplitude_two he hs, connected, h1, h2, h3, h4, Function.update_self, Function.update_of_ne, ne_eq, d1, d2, d3, d4, d5, d6, Ne.symm d1, Ne.symm d2, Ne.symm d3, Ne.symm d4, Ne.symm d5, Ne.symm d6, not_false_eq_true]
  rw [colour_sum]
  have r : ∀ x y : ℂ, (star x * star (star y)).re = (x * star y).re := fun x y => by simp
  simp only [norm_star, r]

end

/-! ### momenta -/

theorem flows_annihilation (h : ∀ i, (S.leg i).anti = ![false, true, false, true] i) (hb : Balanced p) : S.Flows p 1 0 2 3 := by
  have h0 := h 0; have h1 := h 1; have h2 := h 2; have h3 := h 3
  simp at h0 h1 h2 h3
  obtain ⟨bt, bx, bz, by'⟩ := hb
  constructor <;> simp only [transfer, flow, h0, h1, h2, h3, if_true, Bool.false_eq_true, if_false, V4.mk.injEq] <;> refine ⟨?_, ?_, ?_, ?_⟩ <;> simp <;> linarith
theorem flows_scattering (h : ∀ i, (S.leg i).anti = false) (hb : Balanced p) : S.Flows p 2 0 3 1 := by
  have h0 := h 0; have h1 := h 1; have h2 := h 2; have h3 := h 3
  obtain ⟨bt, bx, bz, by'⟩ := hb
  constructor <;> simp only [transfer, flow, h0, h1, h2, h3, if_true, Bool.false_eq_true, if_false, V4.mk.injEq] <;> refine ⟨?_, ?_, ?_, ?_⟩ <;> simp <;> linarith
theorem flows_exchange (h : ∀ i, (S.leg i).anti = ![true, false, false, true] i) (hb : Balanced p) : S.Flows p 0 1 2 3 := by
  have h0 := h 0; have h1 := h 1; have h2 := h 2; have h3 := h 3
  simp at h0 h1 h2 h3
  obtain ⟨bt, bx, bz, by'⟩ := hb
  constructor <;> simp only [transfer, flow, h0, h1, h2, h3, if_true, Bool.false_eq_true, if_false, V4.mk.injEq] <;> refine ⟨?_, ?_, ?_, ?_⟩ <;> simp <;> linarith

/-- squares of the momenta exchanged, as the code computes them -/
theorem msq_annihilation (h : ∀ i, (S.leg i).anti = ![false, true, false, true] i) (hb : Balanced p) :
    msq (S.transfer p 1 0) = msq ((SM.VExp.add 0 1).sum p) ∧ msq (S.transfer p 1 3) = msq ((SM.VExp.sub 0 2).sum p) := by
  have h0 := h 0; have h1 := h 1; have h2 := h 2; have h3 := h 3
  simp at h0 h1 h2 h3
  obtain ⟨bt, bx, bz, by'⟩ := hb
  constructor <;> simp only [transfer, flow, h0, h1, h2, h3, if_true, Bool.false_eq_true, if_false, msq, SM.VExp.sum]
  · simp
  · simp only [Fin.coe_ofNat_eq_mod, Nat.reduceMod]
    linear_combination ((p 1).t - (p 3).t - (p 0).t + (p 2).t) * bt - ((p 1).x - (p 3).x - (p 0).x + (p 2).x) * bx - ((p 1).y - (p 3).y - (p 0).y + (p 2).y) * bz - ((p 1).z - (p 3).z - (p 0).z + (p 2).z) * by'
theorem msq_scattering (h : ∀ i, (S.leg i).anti = false) (hb : Balanced p) :
    msq (S.transfer p 2 0) = msq ((SM.VExp.sub 0 2).sum p) ∧ msq (S.transfer p 2 1) = msq ((SM.VExp.sub 0 3).sum p) := by
  have h0 := h 0; have h1 := h 1; have h2 := h 2; have h3 := h 3
  obtain ⟨bt, bx, bz, by'⟩ := hb
  constructor <;> simp only [transfer, flow, h0, h1, h2, h3, if_true, Bool.false_eq_true, if_false, msq, SM.VExp.sum]
  · simp
  · simp only [Fin.coe_ofNat_eq_mod, Nat.reduceMod]
    linear_combination ((p 1).t - (p 2).t - (p 0).t + (p 3).t) * bt - ((p 1).x - (p 2).x - (p 0).x + (p 3).x) * bx - ((p 1).y - (p 2).y - (p 0).y + (p 3).y) * bz - ((p 1).z - (p 2).z - (p 0).z + (p 3).z) * by'
theorem msq_exchange (h : ∀ i, (S.leg i).anti = ![true, false, false, true] i) : msq (S.transfer p 0 3) = msq ((SM.VExp.sub 0 3).sum p) := by
  have h0 := h 0; have h3 := h 3
  simp at h0 h3
  simp only [transfer, flow, h0, h3, if_true, msq, SM.VExp.sum]
  simp
  ring

end Spec.Scattering

omit [FPEnv] in
theorem pole_eq (m w : ℝ) (q : V4 ℝ) : pole m w q = SM.poleDist m w q := rfl
omit [FPEnv] in
theorem pole_congr {q q' : V4 ℝ} (h : msq q = msq q') (m w : ℝ) : SM.poleDist m w q = pole m w q' := by
  rw [pole_eq, SM.poleDist, SM.poleDist, h]
omit [FPEnv] in
theorem pole_zero {q q' : V4 ℝ} (h : msq q = msq q') : SM.poleDist 0 0 q = (msq q' : ℂ) := by
  rw [SM.poleDist, h]
  apply Complex.ext <;> simp
omit [FPEnv] in
theorem pole_ne {m w : ℝ} {q : V4 ℝ} (h : breitWigner m w q ≠ 0) : pole m w q ≠ 0 := by
  rw [pole, star_ne_zero]; exact h

theorem legA_code {p : V4 ℝ} {m : ℝ} {s : Fin 2} {j : Int} (h : (m ≠ 0 ∧ j = spinOf s) ∨ (m = 0 ∧ s = 0)) : legA p m s = zend p m .rangle true j := by
  rcases h with ⟨h, rfl⟩ | ⟨rfl, rfl⟩
  · simp [legA, h]
  · simp [legA, zend]
theorem legS_code {p : V4 ℝ} {m : ℝ} {s : Fin 2} {j : Int} (h : (m ≠ 0 ∧ j = spinOf s) ∨ (m = 0 ∧ s = 1)) : legS p m s = zend p m .rsquare true j := by
  rcases h with ⟨h, rfl⟩ | ⟨rfl, rfl⟩
  · simp [legS, h]
  · simp [legS, zend]

theorem bra_angle {p : Nat → V4 ℝ} {m : Nat → ℝ} {i k : Nat} {j j' : Int} {s s' : Fin 2} {μ μ' : ℝ} (hi : m i = μ) (hk : m k = μ')
    (h : (μ ≠ 0 ∧ j = spinOf s) ∨ (μ = 0 ∧ s = 0)) (h' : (μ' ≠ 0 ∧ j' = spinOf s') ∨ (μ' = 0 ∧ s' = 0)) :
    zchain p m ⟨true, i, true, [], k, true⟩ j j' = ab (legA (p i) μ s) (legA (p k) μ' s') := by
  subst hi hk
  rw [zchain_angle, legA_code h, legA_code h']
theorem bra_square {p : Nat → V4 ℝ} {m : Nat → ℝ} {i k : Nat} {j j' : Int} {s s' : Fin 2} {μ μ' : ℝ} (hi : m i = μ) (hk : m k = μ')
    (h : (μ ≠ 0 ∧ j = spinOf s) ∨ (μ = 0 ∧ s = 1)) (h' : (μ' ≠ 0 ∧ j' = spinOf s') ∨ (μ' = 0 ∧ s' = 1)) :
    zchain p m ⟨false, i, true, [], k, true⟩ j j' = sb (legS (p i) μ s) (legS (p k) μ' s') := by
  subst hi hk
  rw [zchain_square, legS_code h, legS_code h']

theorem legA_zero {p : V4 ℝ} {m : ℝ} {s : Fin 2} (h : m = 0) (h' : s = 1) : legA p m s = 0 := by simp [legA, h, h']
theorem legS_zero {p : V4 ℝ} {m : ℝ} {s : Fin 2} (h : m = 0) (h' : s = 0) : legS p m s = 0 := by simp [legS, h, h']
omit [FPEnv] in
theorem ab_zero (x : V2) : ab x 0 = 0 ∧ ab 0 x = 0 := by simp [ab]
omit [FPEnv] in
theorem sb_zero (x : V2) : sb x 0 = 0 ∧ sb 0 x = 0 := by simp [sb]

/-- a loop over the spins -1 and 1 -/
def sumJ (g : ℝ → Int → ℝ) (x : ℝ) : ℝ := g (g x (-1)) 1

/-! ### classes -/

namespace SM
open XR

/-- A class, the process it is for, and what its parameters are (none: has no effect). -/
structure Row where
  proc : Proc
  scat : Spec.Scattering
  pars : List (Option Quantity)

namespace Row
variable (R : Row)

/-- the parameters -/
noncomputable def rho (c : Constants) (n : Nat) : ℝ := match R.pars[n]? with
  | some (some q) => c.get q
  | _ => 0

/-- numbers of the parameters with an effect -/
def used : List Nat := (List.range R.pars.length).filter fun n => match R.pars[n]? with
  | some (some _) => true
  | _ => false

/-- The squared amplitude that the class returns is the one of the Feynman rules: for any object of the class, however constructed and used before, any values of its parameters,
any momenta of the particles and any complete spinors. -/
def Agrees : Prop := ∀ (mem : Nat → XR) (junk : Kin XR XC) (par : Nat → XR) (ops : List (ProcOp XR XC)) (c : Constants) (p : Nat → V4 ℝ) (u : Fin 4 → Fin 2 → Spinor)
    (o : Obj XR XC) (j : Kin XR XC) (xs : List (MCall XR XC)) (l : Loc XR XC),
  (∀ n q, R.pars[n]? = some (some q) → parAfter R.proc.massPar ops par n = fin (c.get q)) → c.Physical → (none ∈ R.pars → c.WZ = 0) →
  o = runProcOps R.proc ops (R.proc.construct mem junk par).2 →
  (∀ i : Fin 4, OnShell (p i) (c.mass (R.scat.leg i).flavour)) → Balanced p → R.scat.Regular c p → (∀ i, R.scat.Complete c p i (u i)) →
  (R.proc.runSetMomenta j (fun i => (p i).toX) o).1 = .ok () ∧
  (R.proc.method l .r R.proc.amp2 [] (runCalls R.proc xs (R.proc.runSetMomenta j (fun i => (p i).toX) o).2)).1 = .ok (fin (R.scat.squared c p u))

variable {R}

theorem agrees_of {D E : List Nat} (hP : R.proc ∈ all) (hn : R.proc.numeric R.used D E = true) (hE : E.all (fun n => decide (n ∈ R.used)) = true) (hk : R.proc.isSquare R.proc.amp2 = true)
    (hD : ∀ c : Constants, c.Physical → (∀ n ∈ D, R.rho c n ≠ 0) ∧ ∀ n ∈ E, R.rho c n ^ 2 < 1)
    (hm : ∀ c : Constants, c.Physical → ∀ i : Fin 4, R.proc.massNum (R.rho c) i = c.mass (R.scat.leg i).flavour)
    (hz : ∀ i : Fin 4, (R.scat.leg i).flavour.kind = .neutrino → R.proc.massless i = true)
    (hv : ∀ (c : Constants) (p : Nat → V4 ℝ) (u : Fin 4 → Fin 2 → Spinor), c.Physical → (none ∈ R.pars → c.WZ = 0) → (∀ f, 0 ≤ c.mass f) → (∀ i : Fin 4, OnShell (p i) (c.mass (R.scat.leg i).flavour)) →
      Balanced p → R.scat.Regular c p → (∀ i, R.scat.Complete c p i (u i)) →
      (∀ n, (Ty.r, n) ∈ R.proc.divides → (R.proc.env (R.rho c) p).r n ≠ 0) ∧ (∀ n, (Ty.c, n) ∈ R.proc.divides → (R.proc.env (R.rho c) p).c n ≠ 0) ∧
      meaning (R.proc.env (R.rho c) p) .r R.proc.methods R.proc.amp2 [] = R.scat.squared c p u) : R.Agrees := by
  intro mem junk par ops c p u o j xs l hpar hc hw ho hs hb hr hu
  have h0 : ∀ f, 0 ≤ c.mass f := by
    intro f
    by_cases hf : f.kind = .neutrino
    · have := hc.neutrino f.gen
      rw [← hf] at this
      exact this.ge
    · exact (hc.massive f hf).le
  obtain ⟨h1, h2, h3⟩ := hv c p u hc hw h0 hs hb hr hu
  have i4 : ∀ i, i < 4 → R.proc.massNum (R.rho c) i = c.mass (R.scat.leg (Fin.ofNat 4 i)).flavour := by
    intro i hi
    have := hm c hc (Fin.ofNat 4 i)
    simpa [Nat.mod_eq_of_lt hi] using this
  have := numeric_result (D := D) (E := E) (ρ := R.rho c) hP hn (fun n hn => by simpa using List.all_eq_true.1 hE n hn) (hD c hc).1 (hD c hc).2 mem junk par ops (fun n hn => ?_) ho (p := p)
    (fun i hi => ?_) (fun i hi hl => ?_) h1 h2 j xs l R.proc.amp2 hk
  · rw [h3] at this
    exact this
  · simp only [used, List.mem_filter] at hn
    obtain ⟨_, hn⟩ := hn
    split at hn
    · rename_i q hq
      rw [hpar n q hq, rho, hq]
    · cases hn
  · rw [i4 i hi]
    have := hs (Fin.ofNat 4 i)
    simpa [Nat.mod_eq_of_lt hi] using this
  · rw [i4 i hi]
    refine (hc.massive _ fun hk => ?_).ne'
    have := hz (Fin.ofNat 4 i) hk
    simp [Nat.mod_eq_of_lt hi, hl] at this

end Row
end SM
end Spinas
