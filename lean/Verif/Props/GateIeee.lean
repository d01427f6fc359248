import Verif.Ieee
import Verif.Particle
import Mathlib.Tactic.Linarith
import Mathlib.Tactic.FieldSimp
import Mathlib.Tactic.NormNum
import Mathlib.Tactic.Positivity
import Mathlib.Tactic.Ring
import Mathlib.Data.Nat.Lattice
import Mathlib.Order.Interval.Finset.Basic
import Mathlib.Data.Int.Interval

/-! C90: which momenta `particle` accepts in floating-point arithmetic. -/

namespace Spinas.Props
open scoped NNReal

/-- `particle(mom, mass)` and `set_momentum(mom)` for a particle of this mass in any state end like this. -/
def GateIs [Rounding] (mom : V4 F) (mass : F) (out : Res Unit) : Prop :=
  (∀ junk : Kin F (F × F), (Particle.ctorPM junk mom mass).1 = out) ∧ ∀ P : Particle F (F × F), P.kin.m = mass → (Particle.setMomentum mom P).1 = out

section
variable [Rounding]

/-- `|p|` as calculated -/
noncomputable def spatial (mom : V4 F) : F :=
  let t := F.sqrt (F.add (F.mul mom.x mom.x) (F.mul mom.y mom.y))
  F.sqrt (F.add (F.mul t t) (F.mul mom.z mom.z))

theorem gate_update (P : Particle F (F × F)) : (Particle.update P).1 =
    if F.lt (F.mul (F.fin false Rounding.eps) (F.round false 1000000000)) (F.abs (F.add (F.add (F.mul P.kin.p.t P.kin.p.t) (F.neg (F.mul (spatial P.kin.p) (spatial P.kin.p)))) (F.neg (F.mul P.kin.m P.kin.m)))) then .throw .massShell else .ok () := by
  have e : P.kin.withMags.offShell = F.lt (F.mul (F.fin false Rounding.eps) (F.round false 1000000000)) (F.abs (F.add (F.add (F.mul P.kin.p.t P.kin.p.t) (F.neg (F.mul (spatial P.kin.p) (spatial P.kin.p)))) (F.neg (F.mul P.kin.m P.kin.m)))) := by
    show F.lt (F.mul (F.fin false Rounding.eps) (F.round (decide ((1000000000 : Int) < 0)) ((1000000000 : Int).natAbs))) _ = _
    rw [show decide ((1000000000 : Int) < 0) = false from by decide, show (((1000000000 : Int).natAbs : Nat) : ℝ≥0) = 1000000000 from by norm_num]
    rfl
  unfold Particle.update
  dsimp only
  rw [e]
  split <;> rfl

theorem gate_of {mom : V4 F} {mass : F} {E P M : F} (hE : F.mul mom.t mom.t = E) (hP : F.mul (spatial mom) (spatial mom) = P) (hM : F.mul mass mass = M) {b : Bool}
    (hb : F.lt (F.mul (F.fin false Rounding.eps) (F.round false 1000000000)) (F.abs (F.add (F.add E (F.neg P)) (F.neg M))) = b) : GateIs mom mass (if b then .throw .massShell else .ok ()) := by
  subst hE hP hM hb
  constructor
  · intro junk
    exact gate_update _
  · intro P hm
    subst hm
    exact gate_update _

/-- What all rounding modes of IEEE 754 have in common, `rep` being the representable moduli: these are not changed, results are representable, the order is kept. -/
structure Faithful (rep : ℝ≥0 → Prop) : Prop where
  fixed : ∀ s x, rep x → Rounding.near s x = some x
  result : ∀ s x y, Rounding.near s x = some y → rep y
  mono : ∀ s x y b, x ≤ y → Rounding.near s y = some b → ∃ a, Rounding.near s x = some a ∧ a ≤ b

/-! ### overflow -/

/-- the sign is plus -/
def Plus (x : F) : Prop := x = .inf false ∨ ∃ y, x = .fin false y

theorem Plus.round (x : ℝ≥0) : Plus (F.round false x) := by
  unfold F.round
  cases Rounding.near false x with
  | none => exact .inl rfl
  | some y => exact .inr ⟨y, rfl⟩

theorem Plus.square {x : F} (h : x ≠ .nan) : Plus (F.mul x x) := by
  cases x with
  | nan => exact absurd rfl h
  | inf s => left; cases s <;> rfl
  | fin s x => cases s <;> exact Plus.round _

theorem Plus.add {x y : F} (hx : Plus x) (hy : Plus y) : Plus (F.add x y) := by
  rcases hx with rfl | ⟨x, rfl⟩ <;> rcases hy with rfl | ⟨y, rfl⟩ <;> simp only [F.add, if_true]
  · exact .inl rfl
  · exact .inl rfl
  · exact .inl rfl
  · exact Plus.round _

theorem Plus.sqrt {x : F} (hx : Plus x) : Plus (F.sqrt x) := by
  rcases hx with rfl | ⟨x, rfl⟩
  · exact .inl rfl
  · exact Plus.round _

theorem Plus.ne {x : F} (hx : Plus x) : x ≠ .nan := by
  rcases hx with rfl | ⟨x, rfl⟩ <;> simp

theorem Plus.spatial {mom : V4 F} (hx : mom.x ≠ .nan) (hy : mom.y ≠ .nan) (hz : mom.z ≠ .nan) : Plus (spatial mom) :=
  ((Plus.square ((Plus.square hx).add (Plus.square hy)).sqrt.ne).add (Plus.square hz)).sqrt

theorem Faithful.of_square {rep : ℝ≥0 → Prop} (hf : Faithful rep) {x : F} {e : ℝ≥0} (h : F.mul x x = .fin false e) : rep e := by
  cases x with
  | nan => cases h
  | inf s => cases s <;> cases h
  | fin s x =>
    have h : F.make (s ^^ s) (Rounding.near (s ^^ s) (x * x)) = .fin false e := h
    rw [Bool.xor_self] at h
    cases hn : Rounding.near false (x * x) with
    | none => rw [hn] at h; cases h
    | some y => rw [hn] at h; cases h; exact hf.result _ _ _ hn

open Classical in
theorem add_minus (x y : ℝ≥0) : F.add (.fin false x) (F.neg (.fin false y)) = if x = y then F.fin Rounding.zero 0 else if y < x then F.round false (x - y) else F.round true (y - x) := by
  simp [F.neg, F.add]

/-- differences of representable moduli do not overflow -/
theorem Faithful.sub {rep : ℝ≥0 → Prop} (hf : Faithful rep) {x y : ℝ≥0} (hx : rep x) (hy : rep y) : ∃ s w, F.add (.fin false x) (F.neg (.fin false y)) = .fin s w := by
  have key : ∀ (s : Bool) (a b : ℝ≥0), rep a → ∃ w, F.round s (a - b) = .fin s w := by
    intro s a b ha
    obtain ⟨w, hw, _⟩ := hf.mono s (a - b) a a tsub_le_self (hf.fixed s a ha)
    exact ⟨w, by rw [F.round, hw]; rfl⟩
  simp only [add_minus]
  split_ifs
  · exact ⟨_, _, rfl⟩
  · exact ⟨_, key _ _ _ hx⟩
  · exact ⟨_, key _ _ _ hy⟩

/-- C90. Let one of `E*E`, `|p|*|p|`, `m*m` overflow.  The momentum is accepted if and only if `E*E` and one of the others overflow. -/
theorem C90_overflow {rep : ℝ≥0 → Prop} (hf : Faithful rep) {mom : V4 F} {mass : F} (ht : mom.t ≠ .nan) (hx : mom.x ≠ .nan) (hy : mom.y ≠ .nan) (hz : mom.z ≠ .nan) (hm : mass ≠ .nan)
    (htol : ∃ x, F.mul (F.fin false Rounding.eps) (F.round false 1000000000) = F.fin false x)
    (h : F.mul mom.t mom.t = .inf false ∨ F.mul (spatial mom) (spatial mom) = .inf false ∨ F.mul mass mass = .inf false) :
    (F.mul mom.t mom.t = .inf false ∧ (F.mul (spatial mom) (spatial mom) = .inf false ∨ F.mul mass mass = .inf false) → GateIs mom mass (.ok ())) ∧
    (¬(F.mul mom.t mom.t = .inf false ∧ (F.mul (spatial mom) (spatial mom) = .inf false ∨ F.mul mass mass = .inf false)) → GateIs mom mass (.throw .massShell)) := by
  obtain ⟨tol, htol⟩ := htol
  rcases Plus.square ht with hE | ⟨e, hE⟩ <;> rcases Plus.square (Plus.spatial hx hy hz).ne with hP | ⟨q, hP⟩ <;> rcases Plus.square hm with hM | ⟨m, hM⟩ <;>
    rw [hE, hP, hM] at h ⊢ <;> simp only [reduceCtorEq, true_or, or_true, and_true, and_false, or_self, not_true_eq_false, not_false_eq_true, false_implies, true_implies, and_self, false_and, or_false, false_or] at h ⊢
  · exact gate_of hE hP hM (b := false) (by rw [htol]; rfl)
  · exact gate_of hE hP hM (b := false) (by rw [htol]; rfl)
  · exact gate_of hE hP hM (b := false) (by rw [htol]; rfl)
  · exact ⟨trivial, gate_of hE hP hM (b := true) (by rw [htol]; rfl)⟩
  · exact ⟨trivial, gate_of hE hP hM (b := true) (by rw [htol]; rfl)⟩
  · exact ⟨trivial, gate_of hE hP hM (b := true) (by rw [htol]; rfl)⟩
  · refine ⟨trivial, gate_of hE hP hM (b := true) ?_⟩
    rw [htol]
    rcases hf.sub (hf.of_square hE) (hf.of_square hP) with ⟨s, w, h1⟩
    rw [h1]
    rfl

/-- In particular a momentum whose energy and third component have squares that overflow is accepted, whatever the mass. -/
theorem C90_overflow_accepted {rep : ℝ≥0 → Prop} (hf : Faithful rep) {E q : ℝ≥0} (hE : Rounding.near false (E * E) = none) (hq : Rounding.near false (q * q) = none) {x y mass : F} (hx : x ≠ .nan) (hy : y ≠ .nan) (hm : mass ≠ .nan) (a b : Bool)
    (htol : ∃ x, F.mul (F.fin false Rounding.eps) (F.round false 1000000000) = F.fin false x) : GateIs ⟨F.fin a E, x, y, F.fin b q⟩ mass (.ok ()) := by
  have sq : ∀ {z : ℝ≥0} (s : Bool), Rounding.near false (z * z) = none → F.mul (F.fin s z) (F.fin s z) = .inf false := by
    intro z s h
    show F.round (s ^^ s) (z * z) = _
    rw [Bool.xor_self, F.round, h]
    rfl
  have e1 : F.mul (F.fin a E) (F.fin a E) = .inf false := sq a hE
  have e2 : spatial ⟨F.fin a E, x, y, F.fin b q⟩ = .inf false := by
    show F.sqrt (F.add (F.mul _ _) (F.mul (F.fin b q) (F.fin b q))) = _
    rw [sq b hq]
    rcases Plus.square ((Plus.square hx).add (Plus.square hy)).sqrt.ne with h | ⟨w, h⟩ <;> rw [h] <;> rfl
  refine (C90_overflow hf (mom := ⟨F.fin a E, x, y, F.fin b q⟩) (by simp) hx hy (by simp) hm htol (.inl e1)).1 ⟨e1, .inl ?_⟩
  rw [e2]
  rfl

/-! ### momenta on the mass shell -/

/-- The moduli with `t` binary digits and exponents from `lo` to `hi`.  `double`: 53, -1074, 971; `long double` of x86: 64, -16445, 16320. -/
def Digits (t : Nat) (lo hi : Int) (x : ℝ≥0) : Prop := ∃ (k : Nat) (e : Int), k < 2 ^ t ∧ lo ≤ e ∧ e ≤ hi ∧ x = k * 2 ^ e

section
variable {t : Nat} {lo hi : Int}

theorem Digits.round (hf : Faithful (Digits t lo hi)) (s : Bool) {x : ℝ≥0} (hx : Digits t lo hi x) : F.round s x = .fin s x := by
  rw [F.round, hf.fixed s x hx]; rfl

/-- An odd number with one digit too many is replaced by a neighbour. -/
theorem round_odd (hf : Faithful (Digits t lo hi)) {n : Nat} (hodd : n % 2 = 1) (h1 : 2 ^ t ≤ n) (h2 : n + 1 < 2 ^ (t + 1)) {e : Int} (he : lo ≤ e + 1) (he' : e + 1 ≤ hi) :
    F.round false (n * 2 ^ e) = .fin false ((n - 1 : Nat) * 2 ^ e) ∨ F.round false (n * 2 ^ e) = .fin false ((n + 1 : Nat) * 2 ^ e) := by
  have pos : (0 : ℝ≥0) < 2 ^ e := zpow_pos (by norm_num) e
  have r1 : Digits t lo hi ((n - 1 : Nat) * 2 ^ e) := by
    refine ⟨(n - 1) / 2, e + 1, ?_, he, he', ?_⟩
    · have : 2 ^ (t + 1) = 2 * 2 ^ t := by ring
      omega
    · rw [zpow_add₀ (by norm_num), zpow_one, show n - 1 = ((n - 1) / 2) * 2 by omega]
      push_cast
      rw [Nat.mul_div_cancel _ (by norm_num)]
      ring
  have r2 : Digits t lo hi ((n + 1 : Nat) * 2 ^ e) := by
    refine ⟨(n + 1) / 2, e + 1, ?_, he, he', ?_⟩
    · have : 2 ^ (t + 1) = 2 * 2 ^ t := by ring
      omega
    · obtain ⟨j, hj⟩ : ∃ j, n + 1 = j * 2 := ⟨(n + 1) / 2, by omega⟩
      rw [zpow_add₀ (by norm_num), zpow_one, hj, Nat.mul_div_cancel _ (by norm_num)]
      push_cast
      ring
  have le1 : ((n - 1 : Nat) : ℝ≥0) * 2 ^ e ≤ n * 2 ^ e := mul_le_mul_of_nonneg_right (by exact_mod_cast Nat.sub_le n 1) pos.le
  have le2 : (n : ℝ≥0) * 2 ^ e ≤ (n + 1 : Nat) * 2 ^ e := mul_le_mul_of_nonneg_right (by exact_mod_cast Nat.le_succ n) pos.le
  obtain ⟨a, ha, hab⟩ := hf.mono false _ _ _ le2 (hf.fixed false _ r2)
  obtain ⟨b, hb, hba⟩ := hf.mono false _ _ _ le1 ha
  rw [hf.fixed false _ r1] at hb
  cases hb
  have hr : F.round false (n * 2 ^ e) = .fin false a := by rw [F.round, ha]; rfl
  rw [hr]
  obtain ⟨k, f, hk, _, _, rfl⟩ := hf.result _ _ _ ha
  have hn1 : 2 ^ t ≤ n - 1 := by
    have : (2 ^ t) % 2 = 0 ∨ t = 0 := by
      cases t with
      | zero => exact .inr rfl
      | succ t => left; rw [pow_succ]; omega
    rcases this with h | rfl
    · omega
    · norm_num at h1 h2; omega
  have hef : e < f := by
    by_contra hle
    have : (2 : ℝ≥0) ^ f ≤ 2 ^ e := zpow_le_zpow_right₀ (by norm_num) (by omega)
    have h3 : (k : ℝ≥0) * 2 ^ f ≤ k * 2 ^ e := mul_le_mul_of_nonneg_left this (by positivity)
    have h4 : ((n - 1 : Nat) : ℝ≥0) * 2 ^ e ≤ k * 2 ^ e := hba.trans h3
    have h5 : ((n - 1 : Nat) : ℝ≥0) ≤ k := le_of_mul_le_mul_right h4 pos
    have : n - 1 ≤ k := by exact_mod_cast h5
    omega
  obtain ⟨d, rfl⟩ : ∃ d : Nat, f = e + 1 + d := ⟨(f - e - 1).toNat, by omega⟩
  have hv : (k : ℝ≥0) * 2 ^ (e + 1 + (d : Int)) = (2 * (k * 2 ^ d) : Nat) * 2 ^ e := by
    rw [zpow_add₀ (by norm_num), zpow_add₀ (by norm_num), zpow_one, zpow_natCast]
    push_cast
    ring
  rw [hv] at hba hab ⊢
  have l1 : n - 1 ≤ 2 * (k * 2 ^ d) := by exact_mod_cast le_of_mul_le_mul_right hba pos
  have l2 : 2 * (k * 2 ^ d) ≤ n + 1 := by exact_mod_cast le_of_mul_le_mul_right hab pos
  generalize k * 2 ^ d = w at *
  have : 2 * w = n - 1 ∨ 2 * w = n + 1 := by omega
  rcases this with h | h
  · left; rw [h]
  · right; rw [h]

theorem mul_same (s : Bool) (x : ℝ≥0) : F.mul (F.fin s x) (F.fin s x) = F.round false (x * x) := by
  show F.round (s ^^ s) _ = _
  rw [Bool.xor_self]

theorem square_scaled (k j : Nat) : (k * 2 ^ (-j : Int) : ℝ≥0) * (k * 2 ^ (-j : Int)) = (k ^ 2 : Nat) * 2 ^ (-(2 * j) : Int) := by
  rw [show (-(2 * j) : Int) = -j + -j by ring, zpow_add₀ (by norm_num)]
  push_cast
  ring

/-- `|p|` of a momentum along the third axis -/
theorem spatial_along (hf : Faithful (Digits t lo hi)) (d0 : Digits t lo hi 0) {p j : Nat} (dp2 : Digits t lo hi ((p ^ 2 : Nat) * 2 ^ (-(2 * j) : Int))) (dp : Digits t lo hi (p * 2 ^ (-j : Int))) (b c d : Bool) (E : F) :
    spatial ⟨E, F.fin b 0, F.fin c 0, F.fin d (p * 2 ^ (-j : Int))⟩ = F.fin false (p * 2 ^ (-j : Int)) := by
  unfold spatial
  dsimp only
  have z : F.sqrt (F.add (F.mul (F.fin b 0) (F.fin b 0)) (F.mul (F.fin c 0) (F.fin c 0))) = F.fin false 0 := by
    rw [mul_same, mul_same, mul_zero, d0.round hf]
    show F.sqrt (F.round false (0 + 0)) = _
    rw [add_zero, d0.round hf]
    show F.round false (NNReal.sqrt 0) = _
    rw [NNReal.sqrt_zero, d0.round hf]
  rw [z, mul_same, mul_same, mul_zero, d0.round hf, square_scaled, dp2.round hf]
  show F.sqrt (F.round false (0 + _)) = _
  rw [zero_add, dp2.round hf]
  show F.round false (NNReal.sqrt _) = _
  rw [← square_scaled, NNReal.sqrt_mul_self, dp.round hf]

theorem tolerance (hf : Faithful (Digits t lo hi)) (heps : Rounding.eps = 2 ^ (1 - t : Int)) (h30 : 30 ≤ t) (hlo : lo ≤ 1 - t) (hhi : 0 ≤ hi) :
    F.mul (F.fin false Rounding.eps) (F.round false 1000000000) = F.fin false (1000000000 * 2 ^ (1 - t : Int)) := by
  have hb : 1000000000 < 2 ^ t := lt_of_lt_of_le (by norm_num) (Nat.pow_le_pow_right (by norm_num) h30)
  have r1 : Digits t lo hi 1000000000 := ⟨1000000000, 0, hb, by omega, by omega, by norm_num⟩
  have r2 : Digits t lo hi (1000000000 * 2 ^ (1 - t : Int)) := ⟨1000000000, 1 - t, hb, hlo, by omega, by norm_num⟩
  rw [r1.round hf, heps]
  show F.round false (_ * _) = _
  rw [mul_comm, r2.round hf]

/-- C90. Let `E`, `p`, `m` be multiples of `2^-j` with `E^2 = p^2 + m^2` (the momentum is on the mass shell, and representable), `E` having so many digits that its square has one too many and is odd.
The momentum is rejected if `10^9 epsilon < 2^-2j`, in all rounding modes. -/
theorem C90_on_shell_rejected (hf : Faithful (Digits t lo hi)) (heps : Rounding.eps = 2 ^ (1 - t : Int)) (h30 : 30 ≤ t) (hlo : lo ≤ 1 - t) (hhi : 4 ≤ hi) {j : Nat} (hj : lo ≤ -(2 * j)) (hjt : 2 * j + 31 ≤ t)
    {E p m : Nat} (hE : E % 2 = 1) (hp : p % 4 = 0) (hm : 1 < m) (shell : E ^ 2 = p ^ 2 + m ^ 2) (h1 : 2 ^ t ≤ E ^ 2) (h2 : E ^ 2 + 1 < 2 ^ (t + 1)) (h3 : m ^ 2 + 1 < 2 ^ t) (a b c d f : Bool) :
    GateIs ⟨F.fin a (E * 2 ^ (-j : Int)), F.fin b 0, F.fin c 0, F.fin d (p * 2 ^ (-j : Int))⟩ (F.fin f (m * 2 ^ (-j : Int))) (.throw .massShell) := by
  have dig : ∀ {k : Nat} {e : Int}, k < 2 ^ t → lo ≤ e → e ≤ hi → Digits t lo hi (k * 2 ^ e) := fun h1 h2 h3 => ⟨_, _, h1, h2, h3, rfl⟩
  have two : (2 : ℝ≥0) ≠ 0 := by norm_num
  have sq : ∀ k : Nat, (k * 2 ^ (-j : Int) : ℝ≥0) * (k * 2 ^ (-j : Int)) = (k ^ 2 : Nat) * 2 ^ (-(2 * j) : Int) := by
    intro k
    rw [show (-(2 * j) : Int) = -j + -j by ring, zpow_add₀ two]
    push_cast
    ring
  have d0 : Digits t lo hi 0 := ⟨0, 0, by positivity, by omega, by omega, by simp⟩
  have mulxx : ∀ (s : Bool) (x : ℝ≥0), F.mul (F.fin s x) (F.fin s x) = F.round false (x * x) := by
    intro s x
    show F.round (s ^^ s) _ = _
    rw [Bool.xor_self]
  have dp2 : Digits t lo hi ((p ^ 2 : Nat) * 2 ^ (-(2 * j) : Int)) := by
    obtain ⟨q, rfl⟩ : ∃ q, p = 4 * q := ⟨p / 4, by omega⟩
    refine ⟨q ^ 2, -(2 * j) + 4, ?_, by omega, by omega, ?_⟩
    · have : 2 ^ (t + 1) = 2 * 2 ^ t := by ring
      nlinarith
    · rw [zpow_add₀ two]
      push_cast
      norm_num
      ring
  have dp : Digits t lo hi (p * 2 ^ (-j : Int)) := by
    refine dig ?_ (by omega) (by omega)
    by_contra hc
    have hc : 2 ^ t ≤ p := not_lt.mp hc
    have h4 : 4 ≤ 2 ^ t := by
      calc 4 = 2 ^ 2 := by norm_num
        _ ≤ 2 ^ t := Nat.pow_le_pow_right (by norm_num) (by omega)
    have : 2 ^ (t + 1) = 2 * 2 ^ t := by ring
    nlinarith
  have dm2 : Digits t lo hi ((m ^ 2 : Nat) * 2 ^ (-(2 * j) : Int)) := dig (by omega) hj (by omega)
  have hP : F.mul (spatial ⟨F.fin a (E * 2 ^ (-j : Int)), F.fin b 0, F.fin c 0, F.fin d (p * 2 ^ (-j : Int))⟩) (spatial ⟨F.fin a (E * 2 ^ (-j : Int)), F.fin b 0, F.fin c 0, F.fin d (p * 2 ^ (-j : Int))⟩) = F.fin false ((p ^ 2 : Nat) * 2 ^ (-(2 * j) : Int)) := by
    have e := spatial_along hf d0 dp2 dp b c d (F.fin a (E * 2 ^ (-j : Int)))
    rw [e, mulxx, sq, dp2.round hf]
  have hM : F.mul (F.fin f (m * 2 ^ (-j : Int))) (F.fin f (m * 2 ^ (-j : Int))) = F.fin false ((m ^ 2 : Nat) * 2 ^ (-(2 * j) : Int)) := by
    rw [mulxx, sq, dm2.round hf]
  have pos : (0 : ℝ≥0) < 2 ^ (-(2 * j) : Int) := zpow_pos (by norm_num) _
  have tol : F.mul (F.fin false Rounding.eps) (F.round false 1000000000) = F.fin false (1000000000 * 2 ^ (1 - t : Int)) := by
    exact tolerance hf heps h30 hlo (by omega)
  have u1 : Digits t lo hi (2 ^ (-(2 * j) : Int)) := ⟨1, _, by omega, hj, by omega, by simp⟩
  have last : ∀ s : Bool, F.lt (F.fin false (1000000000 * 2 ^ (1 - t : Int))) (F.abs (F.fin s (2 ^ (-(2 * j) : Int)))) = true := by
    intro s
    have h5 : (1000000000 : ℝ≥0) * 2 ^ (1 - t : Int) < 2 ^ (-(2 * j) : Int) := by
      have : (2 : ℝ≥0) ^ (30 + (1 - t) : Int) ≤ 2 ^ (-(2 * j) : Int) := zpow_le_zpow_right₀ (by norm_num) (by omega)
      refine lt_of_lt_of_le ?_ this
      rw [zpow_add₀ two]
      refine mul_lt_mul_of_pos_right ?_ (zpow_pos (by norm_num) _)
      norm_num
    exact decide_eq_true (NNReal.coe_lt_coe.mpr h5)
  have diff : ∀ k l : Nat, l < k → ((k : ℝ≥0) * 2 ^ (-(2 * j) : Int)) - l * 2 ^ (-(2 * j) : Int) = (k - l : Nat) * 2 ^ (-(2 * j) : Int) := by
    intro k l h
    rw [← tsub_mul, Nat.cast_tsub]
  have sub : ∀ k l : Nat, l < k → k - l < 2 ^ t → F.add (F.fin false (k * 2 ^ (-(2 * j) : Int))) (F.neg (F.fin false (l * 2 ^ (-(2 * j) : Int)))) = F.fin false ((k - l : Nat) * 2 ^ (-(2 * j) : Int)) := by
    intro k l h hk
    have hl : (l : ℝ≥0) * 2 ^ (-(2 * j) : Int) < k * 2 ^ (-(2 * j) : Int) := mul_lt_mul_of_pos_right (by exact_mod_cast h) pos
    rw [add_minus, if_neg hl.ne', if_pos hl, diff k l h, (dig hk hj (by omega)).round hf]
  have hm1 : 1 < m ^ 2 := by nlinarith
  rcases round_odd hf (n := E ^ 2) (e := -(2 * j)) (by rw [Nat.pow_mod, hE]) h1 h2 (by omega) (by omega) with h | h
  · have hEE : F.mul (F.fin a (E * 2 ^ (-j : Int))) (F.fin a (E * 2 ^ (-j : Int))) = F.fin false ((E ^ 2 - 1 : Nat) * 2 ^ (-(2 * j) : Int)) := by rw [mulxx, sq, h]
    refine gate_of hEE hP hM (b := true) ?_
    rw [tol, sub (E ^ 2 - 1) (p ^ 2) (by omega) (by omega), show E ^ 2 - 1 - p ^ 2 = m ^ 2 - 1 by omega]
    have hl : ((m ^ 2 - 1 : Nat) : ℝ≥0) * 2 ^ (-(2 * j) : Int) < (m ^ 2 : Nat) * 2 ^ (-(2 * j) : Int) := mul_lt_mul_of_pos_right (by exact_mod_cast (by omega : m ^ 2 - 1 < m ^ 2)) pos
    have : F.add (F.fin false ((m ^ 2 - 1 : Nat) * 2 ^ (-(2 * j) : Int))) (F.neg (F.fin false ((m ^ 2 : Nat) * 2 ^ (-(2 * j) : Int)))) = F.fin true (2 ^ (-(2 * j) : Int)) := by
      rw [add_minus, if_neg hl.ne, if_neg (not_lt.mpr hl.le), diff (m ^ 2) (m ^ 2 - 1) (by omega), show m ^ 2 - (m ^ 2 - 1) = 1 by omega, Nat.cast_one, one_mul]
      exact u1.round hf true
    rw [this]
    exact last true
  · have hEE : F.mul (F.fin a (E * 2 ^ (-j : Int))) (F.fin a (E * 2 ^ (-j : Int))) = F.fin false ((E ^ 2 + 1 : Nat) * 2 ^ (-(2 * j) : Int)) := by rw [mulxx, sq, h]
    refine gate_of hEE hP hM (b := true) ?_
    rw [tol, sub (E ^ 2 + 1) (p ^ 2) (by omega) (by omega), show E ^ 2 + 1 - p ^ 2 = m ^ 2 + 1 by omega, sub (m ^ 2 + 1) (m ^ 2) (by omega) (by omega), show m ^ 2 + 1 - m ^ 2 = 1 by omega, Nat.cast_one, one_mul]
    exact last false

/-- If the squares are representable as well, momenta on the mass shell along the third axis are accepted. -/
theorem C90_on_shell_accepted (hf : Faithful (Digits t lo hi)) (heps : Rounding.eps = 2 ^ (1 - t : Int)) (h30 : 30 ≤ t) (hlo : lo ≤ 1 - t) (hhi : 0 ≤ hi) {j : Nat} (hj : lo ≤ -(2 * j))
    {E p m : Nat} (shell : E ^ 2 = p ^ 2 + m ^ 2) (h1 : E ^ 2 < 2 ^ t) (a b c d f : Bool) :
    GateIs ⟨F.fin a (E * 2 ^ (-j : Int)), F.fin b 0, F.fin c 0, F.fin d (p * 2 ^ (-j : Int))⟩ (F.fin f (m * 2 ^ (-j : Int))) (.ok ()) := by
  have dig : ∀ {k : Nat} {e : Int}, k < 2 ^ t → lo ≤ e → e ≤ hi → Digits t lo hi (k * 2 ^ e) := fun h1 h2 h3 => ⟨_, _, h1, h2, h3, rfl⟩
  have two : (2 : ℝ≥0) ≠ 0 := by norm_num
  have d0 : Digits t lo hi 0 := ⟨0, 0, by positivity, by omega, by omega, by simp⟩
  have small : ∀ {k : Nat}, k ^ 2 < 2 ^ t → k < 2 ^ t := fun {k} h => lt_of_le_of_lt (Nat.le_self_pow (by norm_num) k) h
  have hp : p ^ 2 < 2 ^ t := by omega
  have hm : m ^ 2 < 2 ^ t := by omega
  have dsq : ∀ {k : Nat}, k ^ 2 < 2 ^ t → Digits t lo hi ((k ^ 2 : Nat) * 2 ^ (-(2 * j) : Int)) := fun h => dig h hj (by omega)
  have square : ∀ (s : Bool) {k : Nat}, k ^ 2 < 2 ^ t → F.mul (F.fin s (k * 2 ^ (-j : Int))) (F.fin s (k * 2 ^ (-j : Int))) = F.fin false ((k ^ 2 : Nat) * 2 ^ (-(2 * j) : Int)) := fun s k h => by
    rw [mul_same, square_scaled, (dsq h).round hf]
  have hP := spatial_along hf d0 (dsq hp) (dig (small hp) (by omega) (by omega)) b c d (F.fin a (E * 2 ^ (-j : Int)))
  have hPP : F.mul (spatial ⟨F.fin a (E * 2 ^ (-j : Int)), F.fin b 0, F.fin c 0, F.fin d (p * 2 ^ (-j : Int))⟩) (spatial ⟨F.fin a (E * 2 ^ (-j : Int)), F.fin b 0, F.fin c 0, F.fin d (p * 2 ^ (-j : Int))⟩) = F.fin false ((p ^ 2 : Nat) * 2 ^ (-(2 * j) : Int)) := by
    rw [hP, square false hp]
  refine gate_of (b := false) (square a h1) hPP (square f hm) ?_
  have tol := tolerance hf heps h30 hlo hhi
  have zero : ∀ s, F.lt (F.fin false (1000000000 * 2 ^ (1 - t : Int))) (F.abs (F.fin s 0)) = false := by
    intro s
    refine decide_eq_false (not_lt.mpr (NNReal.coe_le_coe.mpr ?_))
    exact zero_le
  rw [tol, add_minus]
  have pos : (0 : ℝ≥0) < 2 ^ (-(2 * j) : Int) := zpow_pos (by norm_num) _
  by_cases h0 : m = 0
  · subst h0
    have : E ^ 2 = p ^ 2 := by omega
    rw [this, if_pos rfl]
    simp only [ne_eq, OfNat.ofNat_ne_zero, not_false_eq_true, zero_pow, Nat.cast_zero, zero_mul, F.neg, F.add]
    split_ifs
    · rw [add_zero, d0.round hf]; exact zero _
    · exact zero _
  · have hm0 : 0 < m ^ 2 := by positivity
    have hl : ((p ^ 2 : Nat) : ℝ≥0) * 2 ^ (-(2 * j) : Int) < (E ^ 2 : Nat) * 2 ^ (-(2 * j) : Int) := mul_lt_mul_of_pos_right (by exact_mod_cast (by omega : p ^ 2 < E ^ 2)) pos
    rw [if_neg hl.ne', if_pos hl, ← tsub_mul, ← Nat.cast_tsub, show E ^ 2 - p ^ 2 = m ^ 2 by omega, (dsq hm).round hf, add_minus, if_pos rfl]
    exact zero _

end

end

/-! ### The hypotheses are met: `double` and `long double`, rounding towards zero -/

noncomputable section

/-- the representable moduli -/
def moduli (t : Nat) (lo hi : Int) : Finset ℝ≥0 := (Finset.range (2 ^ t) ×ˢ Finset.Icc lo hi).image fun x => x.1 * 2 ^ x.2

theorem mem_moduli {t : Nat} {lo hi : Int} {x : ℝ≥0} : x ∈ moduli t lo hi ↔ Digits t lo hi x := by
  simp only [moduli, Finset.mem_image, Finset.mem_product, Finset.mem_range, Finset.mem_Icc, Prod.exists, Digits]
  constructor
  · rintro ⟨k, e, ⟨h1, h2, h3⟩, rfl⟩; exact ⟨k, e, h1, h2, h3, rfl⟩
  · rintro ⟨k, e, h1, h2, h3, rfl⟩; exact ⟨k, e, ⟨h1, h2, h3⟩, rfl⟩

/-- rounding towards zero, infinity beyond the largest number -/
def towardsZero (t : Nat) (lo hi : Int) : Rounding where
  near _ x := if x ≤ (moduli t lo hi).sup id then some (((moduli t lo hi).filter (· ≤ x)).sup id) else none
  zero := false
  eps := 2 ^ (1 - t : Int)
  sin := id
  cos := id
  atan2 x _ := x
  pow x k := some (x ^ k)
  hypot x y := some (NNReal.sqrt (x ^ 2 + y ^ 2))
  cmul x _ := x
  cdiv x _ := x
  polar x y := (x, y)

theorem towardsZero_faithful {t : Nat} {lo hi : Int} (h : lo ≤ hi) : letI := towardsZero t lo hi; Faithful (Digits t lo hi) := by
  letI := towardsZero t lo hi
  have top : ∀ {x}, Digits t lo hi x → x ≤ (moduli t lo hi).sup id := fun hx => Finset.le_sup (f := id) (mem_moduli.mpr hx)
  have zero : (0 : ℝ≥0) ∈ moduli t lo hi := mem_moduli.mpr ⟨0, lo, by positivity, le_refl _, h, by simp⟩
  constructor
  · intro s x hx
    show (if _ then some _ else none) = _
    rw [if_pos (top hx)]
    congr 1
    refine le_antisymm (Finset.sup_le fun y hy => (Finset.mem_filter.mp hy).2) (Finset.le_sup (f := id) (Finset.mem_filter.mpr ⟨mem_moduli.mpr hx, le_refl x⟩))
  · intro s x y hy
    change (if _ then some _ else none) = _ at hy
    split_ifs at hy
    cases hy
    obtain ⟨r, hr, e⟩ := Finset.exists_mem_eq_sup ((moduli t lo hi).filter (· ≤ x)) ⟨0, Finset.mem_filter.mpr ⟨zero, zero_le⟩⟩ id
    rw [e]
    exact mem_moduli.mp (Finset.mem_filter.mp hr).1
  · intro s x y b hxy hb
    change (if _ then some _ else none) = _ at hb
    split_ifs at hb with hy
    cases hb
    refine ⟨_, if_pos (hxy.trans hy), Finset.sup_mono fun r hr => ?_⟩
    rw [Finset.mem_filter] at hr ⊢
    exact ⟨hr.1, hr.2.trans hxy⟩

theorem towardsZero_overflow {t : Nat} {lo hi : Int} (s : Bool) {i : Nat} (h : t + hi < i) : (towardsZero t lo hi).near s (2 ^ i) = none := by
  refine if_neg (not_le.mpr (lt_of_le_of_lt (Finset.sup_le (a := (2 : ℝ≥0) ^ (t + hi : Int)) fun y hy => ?_) ?_))
  · obtain ⟨k, e, hk, _, he, rfl⟩ := mem_moduli.mp hy
    have h1 : (k : ℝ≥0) ≤ 2 ^ (t : Int) := by
      rw [zpow_natCast]
      exact_mod_cast hk.le
    calc (k : ℝ≥0) * 2 ^ e ≤ 2 ^ (t : Int) * 2 ^ hi := mul_le_mul h1 (zpow_le_zpow_right₀ (by norm_num) he) zero_le zero_le
      _ = 2 ^ (t + hi : Int) := by rw [← zpow_add₀ (by norm_num)]
  · rw [← zpow_natCast]
    exact zpow_lt_zpow_right₀ (by norm_num) h

/-- In `double`: any two powers of two from 2^513 as energy and momentum, and any mass, are accepted. -/
example (mass : F) (hm : mass ≠ .nan) (n k : Nat) (hn : 512 < n) (hk : 512 < k) : letI := towardsZero 53 (-1074) 971; GateIs ⟨F.fin false (2 ^ n), F.fin false 0, F.fin false 0, F.fin false (2 ^ k)⟩ mass (.ok ()) := by
  letI := towardsZero 53 (-1074) 971
  have hf := towardsZero_faithful (t := 53) (lo := -1074) (hi := 971) (by norm_num)
  have big : ∀ i : Nat, 1024 < i → Rounding.near false ((2 : ℝ≥0) ^ i) = none := fun i hi => towardsZero_overflow false (by omega)
  refine C90_overflow_accepted hf ?_ ?_ (by simp) (by simp) hm _ _ ⟨_, tolerance hf rfl (by norm_num) (by norm_num) (by norm_num)⟩
  · rw [← pow_add]; exact big _ (by omega)
  · rw [← pow_add]; exact big _ (by omega)

/-- In `double`: mass 3, energy 5, momentum 4 are accepted. -/
example : letI := towardsZero 53 (-1074) 971; GateIs ⟨F.fin false ((5 : Nat) * 2 ^ (-(0 : Nat) : Int)), F.fin false 0, F.fin false 0, F.fin false ((4 : Nat) * 2 ^ (-(0 : Nat) : Int))⟩ (F.fin false ((3 : Nat) * 2 ^ (-(0 : Nat) : Int))) (.ok ()) :=
  letI := towardsZero 53 (-1074) 971
  C90_on_shell_accepted (t := 53) (towardsZero_faithful (by norm_num)) rfl (by norm_num) (by norm_num) (by norm_num) (by norm_num) (by norm_num) (by norm_num) _ _ _ _ _

/-- In `double`: a particle with mass 14001/1024 GeV, energy 98014001/1024 GeV (96 TeV) and momentum 98014000/1024 GeV is rejected. -/
example : letI := towardsZero 53 (-1074) 971; GateIs ⟨F.fin false ((98014001 : Nat) * 2 ^ (-(10 : Nat) : Int)), F.fin false 0, F.fin false 0, F.fin false ((98014000 : Nat) * 2 ^ (-(10 : Nat) : Int))⟩ (F.fin false ((14001 : Nat) * 2 ^ (-(10 : Nat) : Int))) (.throw .massShell) :=
  letI := towardsZero 53 (-1074) 971
  C90_on_shell_rejected (t := 53) (towardsZero_faithful (by norm_num)) rfl (by norm_num) (by norm_num) (by norm_num) (by norm_num) (by norm_num) (by norm_num) (by norm_num) (by norm_num) (by norm_num) (by norm_num) (by norm_num) (by norm_num) _ _ _ _ _

/-- In `long double`: mass 100001/65536 GeV, energy 5000100001/65536 GeV (76 TeV). -/
example : letI := towardsZero 64 (-16445) 16320; GateIs ⟨F.fin false ((5000100001 : Nat) * 2 ^ (-(16 : Nat) : Int)), F.fin false 0, F.fin false 0, F.fin false ((5000100000 : Nat) * 2 ^ (-(16 : Nat) : Int))⟩ (F.fin false ((100001 : Nat) * 2 ^ (-(16 : Nat) : Int))) (.throw .massShell) :=
  letI := towardsZero 64 (-16445) 16320
  C90_on_shell_rejected (t := 64) (towardsZero_faithful (by norm_num)) rfl (by norm_num) (by norm_num) (by norm_num) (by norm_num) (by norm_num) (by norm_num) (by norm_num) (by norm_num) (by norm_num) (by norm_num) (by norm_num) (by norm_num) _ _ _ _ _

end
end Spinas.Props
