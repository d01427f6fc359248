import Verif.Props.Kinematics
import Verif.Process

/-! Properties C43 - C46: the test drivers of `class process`. -/

namespace Spinas

/-- finite momenta of the exact instance -/
noncomputable def Process.Mom4.toX (q : Process.Mom4 ℝ) : Process.Mom4 XR := ⟨q.p1.toX, q.p2.toX, q.p3.toX, q.p4.toX⟩

namespace Spec
open Process

/-- the centre-of-mass energy of the test configuration -/
noncomputable def sqrtS (m1 m2 pin : ℝ) : ℝ := Real.sqrt (pin ^ 2 + m1 ^ 2) + Real.sqrt (pin ^ 2 + m2 ^ 2)

/-- incoming and outgoing momenta agree -/
def Conserved (q : Mom4 ℝ) : Prop := add4 q.p1 q.p2 = add4 q.p3 q.p4

/-- the momenta as a function of the particle number -/
def leg (q : Mom4 ℝ) : Fin 4 → V4 ℝ := ![q.p1, q.p2, q.p3, q.p4]

/-- `q'` is the same configuration in another frame, as far as scalar products and momentum conservation can tell -/
def SameKinematics (q q' : Mom4 ℝ) : Prop :=
  (∀ i j, dot (leg q' i) (leg q' j) = dot (leg q i) (leg q j)) ∧ (Conserved q → Conserved q')

end Spec
end Spinas

namespace Spinas.Props
open Spinas Spec XR Process

section main
variable [FPEnv]

theorem testInit_fin (m1 m2 m3 m4 pin : ℝ) (hs : 0 < sqrtS m1 m2 pin)
    (hl : 0 ≤ (sqrtS m1 m2 pin ^ 2 - (m3 + m4) ^ 2) * (sqrtS m1 m2 pin ^ 2 - (m3 - m4) ^ 2)) :
    ∃ pout : ℝ, 0 ≤ pout ∧ 4 * sqrtS m1 m2 pin ^ 2 * pout ^ 2 =
        (sqrtS m1 m2 pin ^ 2 - (m3 + m4) ^ 2) * (sqrtS m1 m2 pin ^ 2 - (m3 - m4) ^ 2) ∧
      testInit (.fin m1) (.fin m2) (.fin m3) (.fin m4) (.fin pin) =
        (⟨.fin (Real.sqrt (pin ^ 2 + m1 ^ 2)), .fin (Real.sqrt (pin ^ 2 + m2 ^ 2)), .fin pout,
          .fin (Real.sqrt (pout ^ 2 + m3 ^ 2)), .fin (Real.sqrt (pout ^ 2 + m4 ^ 2))⟩ : TestInit XR) := by
  set S := sqrtS m1 m2 pin with hS
  refine ⟨Real.sqrt ((S ^ 2 - (m3 + m4) ^ 2) * (S ^ 2 - (m3 - m4) ^ 2)) / (2 * S), by positivity, ?_, ?_⟩
  · rw [div_pow, Real.sq_sqrt hl]; field_simp; ring
  · have e1 : (0 : ℝ) ≤ pin * pin + m1 * m1 := by nlinarith [mul_self_nonneg pin, mul_self_nonneg m1]
    have e2 : (0 : ℝ) ≤ pin * pin + m2 * m2 := by nlinarith [mul_self_nonneg pin, mul_self_nonneg m2]
    have hS' : Real.sqrt (pin * pin + m1 * m1) + Real.sqrt (pin * pin + m2 * m2) = S := by
      rw [hS, sqrtS]; simp only [pow_two]
    have h2 : (2 : ℝ) * S ≠ 0 := by positivity
    unfold testInit
    simp only [fin_mul, fin_add, s_sqrt e1, s_sqrt e2, hS', fin_sub, s_int]
    have hl' : 0 ≤ (S * S - (m3 + m4) * (m3 + m4)) * (S * S - (m3 - m4) * (m3 - m4)) := by simpa only [pow_two] using hl
    rw [s_sqrt hl']
    push_cast
    rw [fin_div h2]
    simp only [fin_mul, fin_add]
    rw [s_sqrt (by nlinarith [mul_self_nonneg (Real.sqrt ((S * S - (m3 + m4) * (m3 + m4)) * (S * S - (m3 - m4) * (m3 - m4))) / (2 * S)), mul_self_nonneg m3]),
      s_sqrt (by nlinarith [mul_self_nonneg (Real.sqrt ((S * S - (m3 + m4) * (m3 + m4)) * (S * S - (m3 - m4) * (m3 - m4))) / (2 * S)), mul_self_nonneg m4])]
    simp only [pow_two]

theorem testMomenta_fin (e1 e2 po e3 e4 pin c : ℝ) (hc : |c| ≤ 1) :
    testMomenta (⟨.fin e1, .fin e2, .fin po, .fin e3, .fin e4⟩ : TestInit XR) (.fin pin) (.fin c) =
      Mom4.toX ⟨⟨e1, 0, 0, pin⟩, ⟨e2, 0, 0, -pin⟩, ⟨e3, po * Real.sqrt (1 - c * c), 0, po * c⟩,
        ⟨e4, -(po * Real.sqrt (1 - c * c)), 0, -(po * c)⟩⟩ := by
  have h : (0 : ℝ) ≤ 1 - c * c := by
    have := sq_le_one_iff_abs_le_one c |>.mpr hc; nlinarith
  unfold testMomenta
  simp only [fin_mul, fin_sub, s_int]
  push_cast
  rw [s_sqrt h]
  simp [Mom4.toX, V4.toX]

/-- The four momenta of the test configuration are on the mass shells, whatever the energies are. -/
theorem shells (m1 m2 m3 m4 pin po c : ℝ) (hc : |c| ≤ 1) :
    OnShell ⟨Real.sqrt (pin ^ 2 + m1 ^ 2), 0, 0, pin⟩ m1 ∧ OnShell ⟨Real.sqrt (pin ^ 2 + m2 ^ 2), 0, 0, -pin⟩ m2 ∧
    OnShell ⟨Real.sqrt (po ^ 2 + m3 ^ 2), po * Real.sqrt (1 - c * c), 0, po * c⟩ m3 ∧
    OnShell ⟨Real.sqrt (po ^ 2 + m4 ^ 2), -(po * Real.sqrt (1 - c * c)), 0, -(po * c)⟩ m4 := by
  have h : (0 : ℝ) ≤ 1 - c * c := by
    have := sq_le_one_iff_abs_le_one c |>.mpr hc; nlinarith
  have hs := Real.sq_sqrt h
  refine ⟨⟨Real.sqrt_nonneg _, ?_⟩, ⟨Real.sqrt_nonneg _, ?_⟩, ⟨Real.sqrt_nonneg _, ?_⟩, ⟨Real.sqrt_nonneg _, ?_⟩⟩
  · simp only; rw [Real.sq_sqrt (by positivity)]; ring
  · simp only; rw [Real.sq_sqrt (by positivity)]; ring
  · simp only; rw [Real.sq_sqrt (by positivity)]; linear_combination (-po ^ 2) * hs
  · simp only; rw [Real.sq_sqrt (by positivity)]; linear_combination (-po ^ 2) * hs

/-- **C43.** At or above threshold the test momenta are on shell, accepted by the particle constructor, and conserve momentum; the
scattering angle has the given cosine. -/
theorem C43_test_kinematics (m1 m2 m3 m4 pin c : ℝ) (h3 : 0 ≤ m3) (h4 : 0 ≤ m4) (hs : 0 < sqrtS m1 m2 pin)
    (hthr : m3 + m4 ≤ sqrtS m1 m2 pin) (hc : |c| ≤ 1) (junk : Kin XR XC) :
    ∃ (q : Mom4 ℝ) (po : ℝ), testMomenta (testInit (.fin m1) (.fin m2) (.fin m3) (.fin m4) (.fin pin)) (.fin pin) (.fin c) = q.toX ∧
      OnShell q.p1 m1 ∧ OnShell q.p2 m2 ∧ OnShell q.p3 m3 ∧ OnShell q.p4 m4 ∧ Conserved q ∧
      space q.p1 = ⟨0, 0, pin⟩ ∧ 0 ≤ po ∧ dot3 (space q.p3) (space q.p3) = po ^ 2 ∧ q.p3.z = po * c ∧
      (∀ i, (Particle.ctorPM junk (leg q i).toX (.fin (![m1, m2, m3, m4] i))).1 = .ok ()) := by
  set S := sqrtS m1 m2 pin with hS
  have hl : 0 ≤ (S ^ 2 - (m3 + m4) ^ 2) * (S ^ 2 - (m3 - m4) ^ 2) := by
    have a1 : 0 ≤ S ^ 2 - (m3 + m4) ^ 2 := by nlinarith
    have a2 : 0 ≤ S ^ 2 - (m3 - m4) ^ 2 := by nlinarith
    positivity
  obtain ⟨po, hp, hp2, hi⟩ := testInit_fin m1 m2 m3 m4 pin hs hl
  rw [← hS] at hp2
  obtain ⟨s1, s2, s3, s4⟩ := shells m1 m2 m3 m4 pin po c hc
  have hcc : (0 : ℝ) ≤ 1 - c * c := by
    have := sq_le_one_iff_abs_le_one c |>.mpr hc; nlinarith
  refine ⟨_, po, by rw [hi, testMomenta_fin _ _ _ _ _ _ _ hc], s1, s2, s3, s4, ?_, rfl, hp, ?_, rfl, ?_⟩
  · have e3 : Real.sqrt (po ^ 2 + m3 ^ 2) = (S ^ 2 + m3 ^ 2 - m4 ^ 2) / (2 * S) := by
      have hn : 0 ≤ (S ^ 2 + m3 ^ 2 - m4 ^ 2) / (2 * S) := div_nonneg (by nlinarith) (by linarith)
      have : po ^ 2 + m3 ^ 2 = ((S ^ 2 + m3 ^ 2 - m4 ^ 2) / (2 * S)) ^ 2 := by
        field_simp; linear_combination hp2
      rw [this, Real.sqrt_sq hn]
    have e4 : Real.sqrt (po ^ 2 + m4 ^ 2) = (S ^ 2 + m4 ^ 2 - m3 ^ 2) / (2 * S) := by
      have hn : 0 ≤ (S ^ 2 + m4 ^ 2 - m3 ^ 2) / (2 * S) := div_nonneg (by nlinarith) (by linarith)
      have : po ^ 2 + m4 ^ 2 = ((S ^ 2 + m4 ^ 2 - m3 ^ 2) / (2 * S)) ^ 2 := by
        field_simp; linear_combination hp2
      rw [this, Real.sqrt_sq hn]
    simp only [Conserved, add4, V4.mk.injEq]
    refine ⟨?_, by simp, by simp, by simp⟩
    rw [e3, e4, show Real.sqrt (pin ^ 2 + m1 ^ 2) + Real.sqrt (pin ^ 2 + m2 ^ 2) = S from rfl]
    field_simp; ring
  · simp only [dot3, space]
    have := Real.mul_self_sqrt hcc
    linear_combination po ^ 2 * this
  · intro i
    fin_cases i
    · exact C03_on_shell_accepted junk s1
    · exact C03_on_shell_accepted junk s2
    · exact C03_on_shell_accepted junk s3
    · exact C03_on_shell_accepted junk s4

/-- **C44.** Below threshold: between `|m3-m4|` and `m3+m4` the outgoing energies are not finite numbers; but for
`sqrt s <= |m3-m4|` finite momenta are returned which are on shell, hence accepted by the particle constructor, and whose energies
do not add up. -/
theorem C44_below_threshold (m1 m2 m3 m4 pin c : ℝ) (h3 : 0 ≤ m3) (h4 : 0 ≤ m4) (hs : 0 < sqrtS m1 m2 pin)
    (hthr : sqrtS m1 m2 pin < m3 + m4) (hc : |c| ≤ 1) :
    (|m3 - m4| < sqrtS m1 m2 pin →
      (testMomenta (R := XR) (testInit (.fin m1) (.fin m2) (.fin m3) (.fin m4) (.fin pin)) (.fin pin) (.fin c)).p3.t = .nan ∧
      (testMomenta (R := XR) (testInit (.fin m1) (.fin m2) (.fin m3) (.fin m4) (.fin pin)) (.fin pin) (.fin c)).p4.t = .nan) ∧
    (sqrtS m1 m2 pin ≤ |m3 - m4| →
      ∃ q : Mom4 ℝ, testMomenta (testInit (.fin m1) (.fin m2) (.fin m3) (.fin m4) (.fin pin)) (.fin pin) (.fin c) = q.toX ∧
        OnShell q.p1 m1 ∧ OnShell q.p2 m2 ∧ OnShell q.p3 m3 ∧ OnShell q.p4 m4 ∧ q.p1.t + q.p2.t < q.p3.t + q.p4.t) := by
  set S := sqrtS m1 m2 pin with hS
  constructor
  · intro hd
    have hl : (S * S - (m3 + m4) * (m3 + m4)) * (S * S - (m3 - m4) * (m3 - m4)) < 0 := by
      have a1 : S * S - (m3 + m4) * (m3 + m4) < 0 := by nlinarith
      have a2 : 0 < S * S - (m3 - m4) * (m3 - m4) := by nlinarith [abs_mul_abs_self (m3 - m4), abs_nonneg (m3 - m4)]
      exact mul_neg_of_neg_of_pos a1 a2
    have e1 : (0 : ℝ) ≤ pin * pin + m1 * m1 := by nlinarith [mul_self_nonneg pin, mul_self_nonneg m1]
    have e2 : (0 : ℝ) ≤ pin * pin + m2 * m2 := by nlinarith [mul_self_nonneg pin, mul_self_nonneg m2]
    have hS' : Real.sqrt (pin * pin + m1 * m1) + Real.sqrt (pin * pin + m2 * m2) = S := by
      rw [hS, sqrtS]; simp only [pow_two]
    simp only [testMomenta, testInit, fin_mul, fin_add, s_sqrt e1, s_sqrt e2, hS', fin_sub, s_int]
    rw [s_sqrt_neg hl]
    simp
  · intro hd
    have hl : 0 ≤ (S ^ 2 - (m3 + m4) ^ 2) * (S ^ 2 - (m3 - m4) ^ 2) := by
      have a1 : S ^ 2 - (m3 + m4) ^ 2 ≤ 0 := by nlinarith
      have a2 : S ^ 2 - (m3 - m4) ^ 2 ≤ 0 := by nlinarith [abs_mul_abs_self (m3 - m4), abs_nonneg (m3 - m4)]
      exact mul_nonneg_of_nonpos_of_nonpos a1 a2
    obtain ⟨po, hp, hp2, hi⟩ := testInit_fin m1 m2 m3 m4 pin hs hl
    obtain ⟨s1, s2, s3, s4⟩ := shells m1 m2 m3 m4 pin po c hc
    refine ⟨_, by rw [hi, testMomenta_fin _ _ _ _ _ _ _ hc], s1, s2, s3, s4, ?_⟩
    show S < Real.sqrt (po ^ 2 + m3 ^ 2) + Real.sqrt (po ^ 2 + m4 ^ 2)
    have g3 : m3 ≤ Real.sqrt (po ^ 2 + m3 ^ 2) := Real.le_sqrt_of_sq_le (by nlinarith)
    have g4 : m4 ≤ Real.sqrt (po ^ 2 + m4 ^ 2) := Real.le_sqrt_of_sq_le (by nlinarith)
    linarith

/-! ### Random frames -/

/-- all numbers drawn are finite -/
def FiniteDraws (Ω : Util.Stream XR) (ω : Nat → ℝ → ℝ → ℝ) : Prop := ∀ n b e, Ω n (.fin b) (.fin e) = .fin (ω n b e)

theorem same_of_map {f : V4 ℝ → V4 ℝ} (hd : ∀ p q, dot (f p) (f q) = dot p q) (ha : ∀ p q, f (add4 p q) = add4 (f p) (f q)) (q : Mom4 ℝ) :
    SameKinematics q (q.map f) := by
  have hl : ∀ i, leg (q.map f) i = f (leg q i) := by intro i; fin_cases i <;> rfl
  refine ⟨fun i j => by rw [hl, hl, hd], fun hc => ?_⟩
  show add4 (f q.p1) (f q.p2) = add4 (f q.p3) (f q.p4)
  rw [← ha, ← ha, hc]

theorem rodrigues_add (u : V3 ℝ) (c s : ℝ) (p q : V4 ℝ) : rodrigues u c s (add4 p q) = add4 (rodrigues u c s p) (rodrigues u c s q) := by
  simp only [add4, rodrigues, cross, dot3, space, V4.mk.injEq, true_and]
  refine ⟨?_, ?_, ?_⟩ <;> ring

theorem rboost_add (v : V3 ℝ) (g k : ℝ) (p q : V4 ℝ) : rboost v g k (add4 p q) = add4 (rboost v g k p) (rboost v g k q) := by
  simp only [add4, rboost, dot3, space, V4.mk.injEq]
  refine ⟨?_, ?_, ?_, ?_⟩ <;> ring

/-- the unit vector and angle of a random rotation -/
theorem rotateRandom_fin {Ω : Util.Stream XR} {ω : Nat → ℝ → ℝ → ℝ} (h : FiniteDraws Ω ω) (n : Nat) (q : Mom4 ℝ)
    (hne : ω n 0 1000 ≠ 0 ∨ ω (n + 1) 0 1000 ≠ 0 ∨ ω (n + 2) 0 1000 ≠ 0) :
    ∃ (u : V3 ℝ) (θ : ℝ), dot3 u u = 1 ∧ rotateRandom Ω n q.toX = ((q.map (rodrigues u (Real.cos θ) |Real.sin θ|)).toX, n + 4) := by
  set a := ω n 0 1000
  set b := ω (n + 1) 0 1000
  set c := ω (n + 2) 0 1000
  have hpos : 0 < a * a + b * b + c * c := by
    rcases hne with h | h | h
    · have := mul_self_pos.mpr h; nlinarith [mul_self_nonneg b, mul_self_nonneg c]
    · have := mul_self_pos.mpr h; nlinarith [mul_self_nonneg a, mul_self_nonneg c]
    · have := mul_self_pos.mpr h; nlinarith [mul_self_nonneg b, mul_self_nonneg a]
  have hs := Real.sqrt_pos.mpr hpos
  have hss := Real.mul_self_sqrt hpos.le
  set r := Real.sqrt (a * a + b * b + c * c)
  obtain ⟨θ, hθ⟩ : ∃ θ, Ω (n + 3) (int 0) twoPiLit = .fin θ := by
    simp only [twoPiLit, s_int, s_dec, fin_mul]; exact ⟨_, h _ _ _⟩
  refine ⟨⟨a / r, b / r, c / r⟩, θ, ?_, ?_⟩
  · simp only [dot3]; field_simp; nlinarith
  · have ea : Ω n (int 0) (int 1000) = .fin a := by simp [h n 0 1000, a]
    have eb : Ω (n + 1) (int 0) (int 1000) = .fin b := by simp [h (n + 1) 0 1000, b]
    have ec : Ω (n + 2) (int 0) (int 1000) = .fin c := by simp [h (n + 2) 0 1000, c]
    unfold rotateRandom
    rw [ea, eb, ec, hθ]
    simp only [fin_mul, fin_add]
    rw [s_sqrt hpos.le, fin_div hs.ne', fin_div hs.ne', fin_div hs.ne']
    have := fun p => rotate_fin p ⟨a / r, b / r, c / r⟩ θ
    simp only [V3.toX] at this
    simp only [Mom4.map, Mom4.toX, this]

theorem sqrt_lt_one {v : V3 ℝ} (h : ¬ (99 / 10 ^ 2 : ℝ) ≤ Real.sqrt (dot3 v v)) : dot3 v v < 1 := by
  by_contra hc
  apply h
  have : 1 ≤ Real.sqrt (dot3 v v) := by rw [Real.one_le_sqrt]; linarith
  linarith

theorem drawVelocity_fin {Ω : Util.Stream XR} {ω : Nat → ℝ → ℝ → ℝ} (h : FiniteDraws Ω ω) (fuel n : Nat) {v : V3 XR} {n' : Nat}
    (hd : drawVelocity Ω fuel n = some (v, n')) : ∃ w : V3 ℝ, v = w.toX ∧ dot3 w w < 1 := by
  induction fuel generalizing n with
  | zero => cases hd
  | succ fuel ih =>
    have ea : Ω n (int 0) (int 1) = .fin (ω n 0 1) := by simpa using h n 0 1
    have eb : Ω (n + 1) (int 0) (int 1) = .fin (ω (n + 1) 0 1) := by simpa using h (n + 1) 0 1
    have ec : Ω (n + 2) (int 0) (int 1) = .fin (ω (n + 2) 0 1) := by simpa using h (n + 2) 0 1
    have hnn : 0 ≤ ω n 0 1 * ω n 0 1 + ω (n + 1) 0 1 * ω (n + 1) 0 1 + ω (n + 2) 0 1 * ω (n + 2) 0 1 := by
      nlinarith [mul_self_nonneg (ω n 0 1), mul_self_nonneg (ω (n + 1) 0 1), mul_self_nonneg (ω (n + 2) 0 1)]
    unfold drawVelocity at hd
    rw [ea, eb, ec] at hd
    have hcond : (Scalar.le (Scalar.dec 99 2) (Scalar.sqrt ((fin (ω n 0 1) * fin (ω n 0 1) + fin (ω (n + 1) 0 1) * fin (ω (n + 1) 0 1) +
        fin (ω (n + 2) 0 1) * fin (ω (n + 2) 0 1) : XR))) : Bool) = decide ((99 / 10 ^ 2 : ℝ) ≤
          Real.sqrt (ω n 0 1 * ω n 0 1 + ω (n + 1) 0 1 * ω (n + 1) 0 1 + ω (n + 2) 0 1 * ω (n + 2) 0 1)) := by
      simp only [fin_mul, fin_add]
      rw [s_sqrt hnn, s_dec, s_le]; norm_num
    dsimp only at hd
    simp only [hcond] at hd
    split_ifs at hd with hc
    · exact ih _ hd
    · injection hd with hd
      injection hd with h1 h2
      refine ⟨⟨ω n 0 1, ω (n + 1) 0 1, ω (n + 2) 0 1⟩, h1.symm, sqrt_lt_one ?_⟩
      simpa [dot3] using hc

/-- **C45.** Whenever the velocity loop ends, a random rotation or boost, and the combination used by the tests, leaves all scalar
products and momentum conservation as they are, provided the drawn axis and velocity are not zero. -/
theorem C45_random_rotation {Ω : Util.Stream XR} {ω : Nat → ℝ → ℝ → ℝ} (h : FiniteDraws Ω ω) (n : Nat) (q : Mom4 ℝ)
    (hne : ω n 0 1000 ≠ 0 ∨ ω (n + 1) 0 1000 ≠ 0 ∨ ω (n + 2) 0 1000 ≠ 0) :
    ∃ q' : Mom4 ℝ, rotateRandom Ω n q.toX = (q'.toX, n + 4) ∧ SameKinematics q q' := by
  obtain ⟨u, θ, hu, hr⟩ := rotateRandom_fin h n q hne
  exact ⟨_, hr, same_of_map (fun p q => rodrigues_dot u hu (cos_abs_sin θ) p q) (fun p q => rodrigues_add u _ _ p q) q⟩

theorem C45_random_boost {Ω : Util.Stream XR} {ω : Nat → ℝ → ℝ → ℝ} (h : FiniteDraws Ω ω) (fuel n : Nat) (q : Mom4 ℝ)
    {v : V3 XR} {n' : Nat} (hd : drawVelocity Ω fuel n = some (v, n')) (hv : v ≠ V3.toX ⟨0, 0, 0⟩) :
    ∃ q' : Mom4 ℝ, boostRandom Ω fuel n q.toX = some (q'.toX, n') ∧ SameKinematics q q' := by
  obtain ⟨w, rfl, h1⟩ := drawVelocity_fin h fuel n hd
  have h0 : dot3 w w ≠ 0 := by
    intro hc
    apply hv
    obtain ⟨x, y, z⟩ := w
    simp only [dot3] at hc
    have hx : x = 0 := by nlinarith [mul_self_nonneg x, mul_self_nonneg y, mul_self_nonneg z]
    have hy : y = 0 := by nlinarith [mul_self_nonneg x, mul_self_nonneg y, mul_self_nonneg z]
    have hz : z = 0 := by nlinarith [mul_self_nonneg x, mul_self_nonneg y, mul_self_nonneg z]
    rw [hx, hy, hz]
  refine ⟨q.map (rboost w (gam w) ((gam w - 1) / dot3 w w)), ?_, same_of_map (fun p q => rboost_dot (boostRel h0 h1) p q) (fun p q => rboost_add _ _ _ p q) q⟩
  unfold boostRandom
  rw [hd]
  simp only [Mom4.map, Mom4.toX, boost_fin _ h0 h1]

/-- **C45, the exceptional draws.** If all three components of the axis are drawn as zero the rotated momenta are not finite, and
if the velocity is drawn as zero (which ends the loop at once) the boosted momenta are not finite. -/
theorem C45_exceptional {Ω : Util.Stream XR} {ω : Nat → ℝ → ℝ → ℝ} (h : FiniteDraws Ω ω) (n : Nat) (q : Mom4 ℝ) :
    ((ω n 0 1000 = 0 ∧ ω (n + 1) 0 1000 = 0 ∧ ω (n + 2) 0 1000 = 0) → (rotateRandom Ω n q.toX).1.p1.x = .nan) ∧
    ((ω n 0 1 = 0 ∧ ω (n + 1) 0 1 = 0 ∧ ω (n + 2) 0 1 = 0) →
      ∃ q', boostRandom Ω 1 n q.toX = some (q', n + 3) ∧ q'.p1.x = .nan) := by
  constructor
  · rintro ⟨ha, hb, hc⟩
    have ea : Ω n (int 0) (int 1000) = .fin 0 := by have := h n 0 1000; rw [ha] at this; simpa using this
    have eb : Ω (n + 1) (int 0) (int 1000) = .fin 0 := by have := h (n + 1) 0 1000; rw [hb] at this; simpa using this
    have ec : Ω (n + 2) (int 0) (int 1000) = .fin 0 := by have := h (n + 2) 0 1000; rw [hc] at this; simpa using this
    unfold rotateRandom
    rw [ea, eb, ec]
    simp only [fin_mul, fin_add, mul_zero, add_zero]
    rw [s_sqrt le_rfl, Real.sqrt_zero, fin_div_def, if_pos rfl]
    simp [Mom4.map, Util.rotate, Util.row]
  · rintro ⟨ha, hb, hc⟩
    have ea : Ω n (int 0) (int 1) = .fin 0 := by have := h n 0 1; rw [ha] at this; simpa using this
    have eb : Ω (n + 1) (int 0) (int 1) = .fin 0 := by have := h (n + 1) 0 1; rw [hb] at this; simpa using this
    have ec : Ω (n + 2) (int 0) (int 1) = .fin 0 := by have := h (n + 2) 0 1; rw [hc] at this; simpa using this
    unfold boostRandom drawVelocity
    rw [ea, eb, ec]
    simp only [fin_mul, fin_add, mul_zero, add_zero]
    rw [s_sqrt le_rfl, Real.sqrt_zero, s_dec, s_le, if_neg (by norm_num)]
    refine ⟨_, rfl, ?_⟩
    have := ((C37_degenerate q.p1 ⟨0, 0, 0⟩).1 (by simp [dot3])).1
    simpa [Mom4.map, V3.toX, Mom4.toX] using this

end main

/-! ### Counting -/

section count
variable {R σ : Type} [Scalar R]

/-- From any state satisfying `I`, setting momenta `q` satisfying `V` and evaluating the amplitude succeeds with the value `f q`
and leads to a state satisfying `I` again: the process computes the function `f`. -/
def Computes (T : Tested R σ) (I : σ → Prop) (V : Mom4 R → Prop) (f : Mom4 R → R) : Prop :=
  ∀ s q, I s → V q → ∃ s1 s2, T.setMomenta q s = (.ok (), s1) ∧ T.amp2 s1 = (.ok (f q), s2) ∧ I s2

theorem evalPoint_run {T : Tested R σ} {I : σ → Prop} {V : Mom4 R → Prop} {f : Mom4 R → R} (h : Computes T I V f) {s : σ} (hs : I s)
    {q : Mom4 R} (hq : V q) (tol datum : R) (i : Nat) :
    ∃ s', evalPoint T tol datum q i s = (.ok (if pointFails tol (f q) datum then i + 1 else i), s') ∧ I s' := by
  obtain ⟨s1, s2, h1, h2, h3⟩ := h s q hs hq
  refine ⟨s2, ?_, h3⟩
  unfold evalPoint
  rw [Prog.bind_ok h1, Prog.bind_ok h2]
  rfl

/-- **C46.** The result of `test_2to2_amp2` is the number of angles at which the amplitude fails the comparison with the data; so it
is zero exactly if all points pass, and at most 20.  (Any arithmetic, any process that computes a function of the momenta.) -/
theorem C46_count {T : Tested R σ} {I : σ → Prop} {V : Mom4 R → Prop} {f : Mom4 R → R} (h : Computes T I V f) {s : σ} (hs : I s)
    (m1 m2 m3 m4 pin : R) (data : Nat → R)
    (hV : ∀ j < 20, V (testMomenta (testInit m1 m2 m3 m4 pin) pin (testCos j))) :
    ∃ n s', test2to2 T m1 m2 m3 m4 pin data s = (.ok n, s') ∧ I s' ∧ n ≤ 20 ∧
      n = ((List.range 20).filter fun j => pointFails (Scalar.dec 1 9) (f (testMomenta (testInit m1 m2 m3 m4 pin) pin (testCos j))) (data j)).length ∧
      (n = 0 ↔ ∀ j < 20, pointFails (Scalar.dec 1 9) (f (testMomenta (testInit m1 m2 m3 m4 pin) pin (testCos j))) (data j) = false) := by
  have key : ∀ (js : List Nat) (i : Nat) (s : σ), I s → (∀ j ∈ js, V (testMomenta (testInit m1 m2 m3 m4 pin) pin (testCos j))) →
      ∃ s', labLoop T (testInit m1 m2 m3 m4 pin) pin data js i s =
        (.ok (i + (js.filter fun j => pointFails (Scalar.dec 1 9) (f (testMomenta (testInit m1 m2 m3 m4 pin) pin (testCos j))) (data j)).length), s') ∧ I s' := by
    intro js
    induction js with
    | nil => intro i s hs _; exact ⟨s, rfl, hs⟩
    | cons j js ih =>
      intro i s hs hv
      obtain ⟨s1, h1, hI⟩ := evalPoint_run h hs (hv j (List.mem_cons_self)) (Scalar.dec 1 9) (data j) i
      obtain ⟨s2, h2, hI2⟩ := ih (if pointFails (Scalar.dec 1 9) (f (testMomenta (testInit m1 m2 m3 m4 pin) pin (testCos j))) (data j) then i + 1 else i) s1 hI
        (fun j hj => hv j (List.mem_cons_of_mem _ hj))
      refine ⟨s2, ?_, hI2⟩
      unfold labLoop
      rw [Prog.bind_ok h1, h2]
      congr 2
      rw [List.filter_cons]
      split_ifs <;> simp <;> omega
  obtain ⟨s', h1, h2⟩ := key (List.range 20) 0 s hs (fun j hj => hV j (List.mem_range.mp hj))
  refine ⟨_, s', h1, h2, ?_, by simp, ?_⟩
  · rw [Nat.zero_add]; exact (List.length_filter_le _ _).trans (by simp)
  · rw [Nat.zero_add, List.length_eq_zero_iff, List.filter_eq_nil_iff]
    simp only [List.mem_range, Bool.not_eq_true]

theorem evalPoint_le {T : Tested R σ} {tol datum : R} {q : Mom4 R} {i : Nat} {s s' : σ} {r : Nat}
    (h : evalPoint T tol datum q i s = (.ok r, s')) : r ≤ i + 1 := by
  unfold evalPoint at h
  rw [Prog.bind_run] at h
  split at h
  · rw [Prog.bind_run] at h
    split at h
    · rw [Prog.pure_run] at h
      injection h with h _
      injection h with h
      split_ifs at h <;> omega
    · cases h
    · cases h
  · cases h
  · cases h

theorem frameLoop_le {T : Tested R σ} {F : Frame R} {tol datum : R} {fresh : Option (Mom4 R)} :
    ∀ (l n : Nat) (q : Mom4 R) (i : Nat) (s s' : σ) (r n' : Nat),
      frameLoop T F tol datum fresh l n q i s = (.ok (some (r, n')), s') → r ≤ i + l := by
  intro l
  induction l with
  | zero =>
    intro n q i s s' r n' h
    simp only [frameLoop, Prog.pure_run, Prod.mk.injEq, Res.ok.injEq, Option.some.injEq] at h
    omega
  | succ l ih =>
    intro n q i s s' r n' h
    unfold frameLoop at h
    cases hF : F n (fresh.getD q) with
    | none => simp [hF] at h
    | some p =>
      simp only [hF] at h
      rw [Prog.bind_run] at h
      split at h
      · rename_i a s1 he
        have h1 := evalPoint_le he
        have h2 := ih _ _ _ _ _ _ _ h
        omega
      · cases h
      · cases h

theorem framesLoop_le {T : Tested R σ} {F : Frame R} {tol : R} {restart : Bool} {ini : TestInit R} {pin : R} {data : Nat → R} :
    ∀ (js : List Nat) (n i : Nat) (s s' : σ) (r n' : Nat),
      framesLoop T F tol restart ini pin data js n i s = (.ok (some (r, n')), s') → r ≤ i + 10 * js.length := by
  intro js
  induction js with
  | nil =>
    intro n i s s' r n' h
    simp only [framesLoop, Prog.pure_run, Prod.mk.injEq, Res.ok.injEq, Option.some.injEq] at h
    simp; omega
  | cons j js ih =>
    intro n i s s' r n' h
    unfold framesLoop at h
    dsimp only at h
    rw [Prog.bind_run] at h
    split at h
    · rename_i a s1 he
      cases a with
      | none => simp at h
      | some p =>
        obtain ⟨i', n1⟩ := p
        have h1 := frameLoop_le _ _ _ _ _ _ _ _ he
        have h2 := ih _ _ _ _ _ _ h
        simp; omega
    · cases h
    · cases h

/-- **C46.** The three variants in random frames never report more than 200 failures (any process, whether or not it computes a
function of the momenta; any random outcomes). -/
theorem C46_frames_bound (T : Tested R σ) (ω : Util.Stream R) (fuel n : Nat) (m1 m2 m3 m4 pin : R) (data : Nat → R) (s s' : σ) (r n' : Nat) :
    (testRotations T ω n m1 m2 m3 m4 pin data s = (.ok (some (r, n')), s') → r ≤ 200) ∧
    (testBoosts T ω fuel n m1 m2 m3 m4 pin data s = (.ok (some (r, n')), s') → r ≤ 200) ∧
    (testBoostsRotations T ω fuel n m1 m2 m3 m4 pin data s = (.ok (some (r, n')), s') → r ≤ 200) := by
  refine ⟨fun h => ?_, fun h => ?_, fun h => ?_⟩ <;>
  · have := framesLoop_le _ _ _ _ _ _ _ h
    simpa using this

end count

/-- **C46, one point.** In exact arithmetic a point fails exactly if the amplitude is not finite, or it differs from the datum by more
than `10^-15` and by more than the relative tolerance `10^-9` (`10^-8` for boosted frames). -/
theorem C46_point [FPEnv] (e : Nat) (x : XR) (d : ℝ) (hd : ∀ a, x = .fin a → a + d ≠ 0) :
    pointFails (Scalar.dec 1 e) x (.fin d) = true ↔
      x = .nan ∨ ∃ a, x = .fin a ∧ 1 / 10 ^ 15 < |a - d| ∧ 1 / 10 ^ e * |a + d| < |a - d| := by
  unfold pointFails
  cases x with
  | nan => simp
  | fin a =>
    have hpos : 0 < |a + d| := abs_pos.mpr (hd a rfl)
    simp only [s_isInf, s_isNaN_fin, fin_sub, fin_add, s_abs, s_dec, s_lt, fin_div hpos.ne', lt_div_iff₀ hpos]
    simp

section examples
attribute [local instance] doubleEnv

/-- above threshold -/
example : 0 < sqrtS 3 0 4 ∧ (1 : ℝ) + 2 ≤ sqrtS 3 0 4 := by
  have h : sqrtS 3 0 4 = 9 := by
    unfold sqrtS
    rw [show (4 : ℝ) ^ 2 + 3 ^ 2 = 5 ^ 2 by norm_num, show (4 : ℝ) ^ 2 + 0 ^ 2 = 4 ^ 2 by norm_num, Real.sqrt_sq (by norm_num), Real.sqrt_sq (by norm_num)]
    norm_num
  rw [h]; norm_num

/-- below threshold, both cases: masses 20 and 1, and 6 and 5, at `sqrt s = 9` -/
example : sqrtS 3 0 4 < 20 + 1 ∧ sqrtS 3 0 4 ≤ |(20 : ℝ) - 1| ∧ sqrtS 3 0 4 < 6 + 5 ∧ |(6 : ℝ) - 5| < sqrtS 3 0 4 := by
  have h : sqrtS 3 0 4 = 9 := by
    unfold sqrtS
    rw [show (4 : ℝ) ^ 2 + 3 ^ 2 = 5 ^ 2 by norm_num, show (4 : ℝ) ^ 2 + 0 ^ 2 = 4 ^ 2 by norm_num, Real.sqrt_sq (by norm_num), Real.sqrt_sq (by norm_num)]
    norm_num
  rw [h]; norm_num

/-- a stream of finite draws, for which the velocity loop ends in its second round with a velocity that is not zero -/
example : ∃ (Ω : Util.Stream XR) (ω : Nat → ℝ → ℝ → ℝ), FiniteDraws Ω ω ∧
    drawVelocity Ω 2 0 = some (V3.toX ⟨1 / 2, 1 / 2, 1 / 2⟩, 6) ∧ ω 0 0 1000 ≠ 0 := by
  refine ⟨fun n b e => if n < 3 then e else e / .fin 2, fun n b e => if n < 3 then e else e / 2, ?_, ?_, by norm_num⟩
  · intro n b e; by_cases h : n < 3 <;> simp [h]
  · have h3 : (99 / 10 ^ 2 : ℝ) ≤ Real.sqrt (1 * 1 + 1 * 1 + 1 * 1) := Real.le_sqrt_of_sq_le (by norm_num)
    have h4 : ¬ (99 / 10 ^ 2 : ℝ) ≤ Real.sqrt (1 / 2 * (1 / 2) + 1 / 2 * (1 / 2) + 1 / 2 * (1 / 2)) := by
      rw [Real.le_sqrt' (by norm_num)]; norm_num
    simp only [drawVelocity]
    norm_num [V3.toX]
    rw [s_sqrt (by norm_num), s_sqrt (by norm_num)]
    norm_num at h3 h4 ⊢
    rw [if_pos h3, if_neg (by linarith)]

/-- a process computing a function that is not constant -/
example : Computes (R := XR) (σ := Mom4 XR) ⟨fun q _ => (.ok (), q), fun s => (.ok s.p1.t, s)⟩ (fun _ => True) (fun _ => True) (fun q => q.p1.t) :=
  fun _ q _ _ => ⟨q, q, rfl, rfl, trivial⟩

end examples
end Spinas.Props
