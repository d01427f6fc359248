import Verif.Props.GateIeee

/-! C91: momenta on the mass shell whose spinors are not numbers (floating-point arithmetic, rounding to nearest). -/

namespace Spinas.Props
open scoped NNReal

section
variable [Rounding]

/-- Rounding to nearest, whatever is done with ties. -/
structure Nearest (rep : ℝ≥0 → Prop) : Prop extends Faithful rep where
  nearest : ∀ s x y r, Rounding.near s x = some y → rep r → |(y : ℝ) - x| ≤ |(r : ℝ) - x|

variable {t : Nat} {lo hi : Int}

theorem Digits.mk {k : Nat} {e : Int} (h1 : k < 2 ^ t) (h2 : lo ≤ e) (h3 : e ≤ hi) : Digits t lo hi (k * 2 ^ e) := ⟨k, e, h1, h2, h3, rfl⟩

/-- A number is rounded to `k * 2^f` if it is closer to it than half a unit in the last place. -/
theorem Nearest.round_eq (h : Nearest (Digits t lo hi)) (s : Bool) {x : ℝ≥0} {k : Nat} {f : Int} (h1 : 2 ^ (t - 1) < k) (h2 : k + 1 < 2 ^ t) (hf : lo ≤ f) (hf' : f ≤ hi) (l : ((2 * k - 1 : Nat) : ℝ≥0) * 2 ^ (f - 1) < x) (u : x < (2 * k + 1 : Nat) * 2 ^ (f - 1)) :
    F.round s x = .fin s (k * 2 ^ f) := by
  have two : (2 : ℝ) ≠ 0 := by norm_num
  have pos : (0 : ℝ) < 2 ^ (f - 1) := zpow_pos (by norm_num) _
  have dbl : (2 : ℝ) ^ f = 2 * 2 ^ (f - 1) := by rw [zpow_sub_one₀ two]; ring
  have l' : (2 * (k : ℝ) - 1) * 2 ^ (f - 1) < x := by
    have := NNReal.coe_lt_coe.mpr l
    rw [NNReal.coe_mul, NNReal.coe_natCast, Nat.cast_sub (by have := Nat.one_le_two_pow (n := t - 1); omega)] at this
    push_cast at this
    exact this
  have u' : (x : ℝ) < (2 * (k : ℝ) + 1) * 2 ^ (f - 1) := by
    have := NNReal.coe_lt_coe.mpr u
    push_cast at this
    exact this
  have le : x ≤ ((k + 1 : Nat) : ℝ≥0) * 2 ^ f := by
    rw [← NNReal.coe_le_coe]
    push_cast
    rw [dbl]
    nlinarith
  obtain ⟨a, ha, _⟩ := h.mono s _ _ _ le (h.fixed s _ (Digits.mk h2 hf hf'))
  have hn := h.nearest s x a _ ha (Digits.mk (by omega : k < 2 ^ t) hf hf')
  have hk : |((k * 2 ^ f : ℝ≥0) : ℝ) - x| < 2 ^ (f - 1) := by
    push_cast
    rw [dbl, abs_lt]
    constructor <;> nlinarith
  have hax := abs_lt.mp (lt_of_le_of_lt hn hk)
  rw [F.round, ha]
  show F.fin s a = _
  congr 1
  obtain ⟨k', e, hk', _, _, rfl⟩ := h.result _ _ _ ha
  push_cast at hax
  have lower : ((k : ℝ) - 1) * 2 ^ f < k' * 2 ^ e := by rw [dbl]; nlinarith
  have upper : (k' : ℝ) * 2 ^ e < ((k : ℝ) + 1) * 2 ^ f := by rw [dbl]; nlinarith
  have posf : (0 : ℝ) < 2 ^ f := zpow_pos (by norm_num) _
  by_cases hef : f ≤ e
  · obtain ⟨d, rfl⟩ : ∃ d : Nat, e = f + d := ⟨(e - f).toNat, by omega⟩
    have hv : (k' : ℝ) * 2 ^ (f + (d : Int)) = ((k' * 2 ^ d : Nat) : ℝ) * 2 ^ f := by
      rw [zpow_add₀ two, zpow_natCast]; push_cast; ring
    rw [hv] at lower upper
    have l2 : (k : ℝ) - 1 < (k' * 2 ^ d : Nat) := lt_of_mul_lt_mul_right lower posf.le
    have u2 : ((k' * 2 ^ d : Nat) : ℝ) < (k : ℝ) + 1 := lt_of_mul_lt_mul_right upper posf.le
    have l3 : k < k' * 2 ^ d + 1 := by
      have : (k : ℝ) < (k' * 2 ^ d : Nat) + 1 := by linarith
      exact_mod_cast this
    have u3 : k' * 2 ^ d < k + 1 := by exact_mod_cast u2
    have : k' * 2 ^ d = k := by omega
    rw [← this, zpow_add₀ (by norm_num), zpow_natCast]
    push_cast
    ring
  · exfalso
    have h5 : (2 : ℝ) ^ e ≤ 2 ^ (f - 1) := zpow_le_zpow_right₀ (by norm_num) (by omega)
    have h6 : (k' : ℝ) < 2 ^ t := by exact_mod_cast hk'
    have h7 : ((2 : ℝ) ^ (t - 1) + 1) ≤ k := by exact_mod_cast h1
    have h8 : (k' : ℝ) * 2 ^ e ≤ 2 ^ t * 2 ^ (f - 1) := mul_le_mul h6.le h5 (zpow_pos (by norm_num) _).le (by positivity)
    have h9 : (2 : ℝ) ^ t * 2 ^ (f - 1) ≤ ((k : ℝ) - 1) * 2 ^ f := by
      rw [dbl]
      have : (2 : ℝ) ^ t ≤ 2 * 2 ^ (t - 1) := by
        rw [← pow_succ']
        exact pow_le_pow_right₀ (by norm_num) (by omega)
      nlinarith
    linarith

/-- `k * 2^d` has `t` digits and is the number with `t` digits closest to `n`. -/
def RoundsTo (t n k d : Nat) : Prop := 2 ^ (t - 1) < k ∧ k + 1 < 2 ^ t ∧ (2 * k - 1) * 2 ^ d < 2 * n ∧ 2 * n < (2 * k + 1) * 2 ^ d

/-- `k` has `t` digits and is the integer closest to the square root of `n * 2^d / 4`. -/
def RootsTo (t n k d : Nat) : Prop := 2 ^ (t - 1) < k ∧ k + 1 < 2 ^ t ∧ (2 * k - 1) ^ 2 < n * 2 ^ d ∧ n * 2 ^ d < (2 * k + 1) ^ 2

/-- rounding of an integer multiple of a power of two -/
theorem Nearest.int (h : Nearest (Digits t lo hi)) (s : Bool) {n k d : Nat} {e : Int} (r : RoundsTo t n k d) (hf : lo ≤ e + d) (hf' : e + d ≤ hi) :
    F.round s (n * 2 ^ e) = .fin s (k * 2 ^ (e + d)) := by
  obtain ⟨h1, h2, l, u⟩ := r
  have pos : (0 : ℝ≥0) < 2 ^ (e - 1) := zpow_pos (by norm_num) _
  have e1 : (n : ℝ≥0) * 2 ^ e = (2 * n : Nat) * 2 ^ (e - 1) := by
    rw [show (2 : ℝ≥0) ^ e = 2 ^ ((e - 1) + 1) by rw [sub_add_cancel], zpow_add₀ (by norm_num), zpow_one]; push_cast; ring
  have e2 : (2 : ℝ≥0) ^ (e + d - 1) = (2 ^ d : Nat) * 2 ^ (e - 1) := by
    rw [show e + d - 1 = d + (e - 1) by ring, zpow_add₀ (by norm_num), zpow_natCast]; push_cast; ring
  refine h.round_eq s h1 h2 hf hf' ?_ ?_
  · rw [e1, e2, ← mul_assoc, ← Nat.cast_mul]
    exact mul_lt_mul_of_pos_right (by exact_mod_cast l) pos
  · rw [e1, e2, ← mul_assoc, ← Nat.cast_mul]
    exact mul_lt_mul_of_pos_right (by exact_mod_cast u) pos

/-- rounding of a square root -/
theorem Nearest.root (h : Nearest (Digits t lo hi)) (s : Bool) {n k d : Nat} {f : Int} (r : RootsTo t n k d) (hf : lo ≤ f) (hf' : f ≤ hi) :
    F.round s (NNReal.sqrt (n * 2 ^ (2 * (f - 1) + d))) = .fin s (k * 2 ^ f) := by
  obtain ⟨h1, h2, l, u⟩ := r
  have pos : (0 : ℝ≥0) < 2 ^ (f - 1) := zpow_pos (by norm_num) _
  have e1 : (n : ℝ≥0) * 2 ^ (2 * (f - 1) + d) = (n * 2 ^ d : Nat) * (2 ^ (f - 1)) ^ 2 := by
    rw [zpow_add₀ (by norm_num), zpow_natCast, two_mul, zpow_add₀ (by norm_num)]; push_cast; ring
  refine h.round_eq s h1 h2 hf hf' ?_ ?_
  · rw [← NNReal.sqrt_sq (_ * _), NNReal.sqrt_lt_sqrt, e1, mul_pow, ← Nat.cast_pow]
    exact mul_lt_mul_of_pos_right (by exact_mod_cast l) (pow_pos pos 2)
  · rw [← NNReal.sqrt_sq (((2 * k + 1 : Nat) : ℝ≥0) * _), NNReal.sqrt_lt_sqrt, e1, mul_pow, ← Nat.cast_pow]
    exact mul_lt_mul_of_pos_right (by exact_mod_cast u) (pow_pos pos 2)

/-- What is needed of the mathematical library: cosines are not infinite, and the product of NaN and a real number that is not infinite is NaN. -/
structure Products : Prop where
  cos : ∀ (x : F) (s : Bool), Rounding.cos x ≠ .inf s
  nan : ∀ (x : F) (s t : Bool), (∀ r, x ≠ .inf r) → (Rounding.cmul (.nan, .fin s 0) (x, .fin t 0)).1 = .nan

/-- Each of the four brackets, with upper and with lower index, is not a number for one of the spins. -/
def NanSpinors (P : Particle F (F × F)) : Prop :=
  ∀ (b : Br) (upper : Bool), ∃ s : Int, (s = 1 ∨ s = -1) ∧ ∃ v : CVec (F × F), (Particle.spinor b s upper P).1 = .ok v ∧ (v.v0.1 = .nan ∨ v.v1.1 = .nan)

theorem nan_spinors (hc : Products) (P : Particle F (F × F)) (hm : F.eq P.kin.m (F.round false 0) = false) (h0 : F.round false 0 = .fin false 0) (hok : (Particle.update P).1 = .ok ())
    (hn : F.sqrt (F.add P.kin.p.t (F.neg (spatial P.kin.p))) = .nan) : NanSpinors (Particle.update P).2 := by
  have hstate : ∃ ub, (Particle.update P).2 = Particle.noCaches P.kin.withMags.withAngles P.mInit P.pInit true true ub := by
    unfold Particle.update at hok ⊢
    dsimp only at hok ⊢
    split at hok
    · cases hok
    · rename_i h
      rw [if_neg h]
      exact ⟨_, rfl⟩
  obtain ⟨ub, hstate⟩ := hstate
  rw [hstate]
  have int0 : (int 0 : F) = .fin false 0 := by
    show F.round (decide ((0 : Int) < 0)) ((0 : Int).natAbs) = _
    simpa using h0
  have em : (P.kin.withMags.withAngles).sqrtEmP = (F.nan, F.fin false 0) := by
    show (F.sqrt (F.add P.kin.p.t (F.neg (spatial P.kin.p))), (int 0 : F)) = _
    rw [hn, int0]
  have ec : ∃ y : F, (∀ r, y ≠ .inf r) ∧ (P.kin.withMags.withAngles).c = (y, F.fin false 0) := by
    refine ⟨Rounding.cos ((P.kin.withMags.withAngles).theta / int 2), hc.cos _, ?_⟩
    show (Rounding.cos _, (int 0 : F)) = _
    rw [int0]
    rfl
  obtain ⟨y, hy, ec⟩ := ec
  have m0 : Scalar.eq P.kin.m (int 0) = false := by rw [int0, ← h0]; exact hm
  have plus : (Rounding.cmul (P.kin.withMags.withAngles).sqrtEmP (P.kin.withMags.withAngles).c).1 = F.nan := by
    rw [em, ec]; exact hc.nan y false false hy
  have minus : (Rounding.cmul (F.neg (P.kin.withMags.withAngles).sqrtEmP.1, F.neg (P.kin.withMags.withAngles).sqrtEmP.2) (P.kin.withMags.withAngles).c).1 = F.nan := by
    rw [em, ec]; exact hc.nan y true false hy
  have val : ∀ (b : Br) (s : Int) (upper : Bool), (s = 1 ∨ s = -1) → (Particle.spinor b s upper (Particle.noCaches P.kin.withMags.withAngles P.mInit P.pInit true true ub)).1 = .ok ((P.kin.withMags.withAngles).spnVal b upper (decide (s ≠ -1))) := by
    intro b s upper hs
    unfold Particle.spinor
    rw [if_neg (by omega)]
    show (if Scalar.eq P.kin.m (int 0) = true then _ else _ : Res (CVec (F × F)) × Particle F (F × F)).1 = _
    rw [m0]
    rfl
  intro b upper
  cases b <;> cases upper
  all_goals first
    | exact ⟨1, .inl rfl, _, val _ 1 _ (.inl rfl), .inr plus⟩
    | exact ⟨1, .inl rfl, _, val _ 1 _ (.inl rfl), .inl plus⟩
    | exact ⟨1, .inl rfl, _, val _ 1 _ (.inl rfl), .inr minus⟩
    | exact ⟨1, .inl rfl, _, val _ 1 _ (.inl rfl), .inl minus⟩
    | exact ⟨-1, .inr rfl, _, val _ (-1) _ (.inr rfl), .inr plus⟩
    | exact ⟨-1, .inr rfl, _, val _ (-1) _ (.inr rfl), .inl plus⟩
    | exact ⟨-1, .inr rfl, _, val _ (-1) _ (.inr rfl), .inr minus⟩
    | exact ⟨-1, .inr rfl, _, val _ (-1) _ (.inr rfl), .inl minus⟩

theorem pow_join (k : Nat) (e : Int) (d : Nat) : (k : ℝ≥0) * 2 ^ (e + d) = (k * 2 ^ d : Nat) * 2 ^ e := by
  rw [zpow_add₀ (by norm_num), zpow_natCast]; push_cast; ring

theorem pow_square (k : Nat) (e : Int) : (k : ℝ≥0) * 2 ^ e * (k * 2 ^ e) = (k ^ 2 : Nat) * 2 ^ (e + e) := by
  rw [zpow_add₀ (by norm_num)]; push_cast; ring

/-- A momentum `(E, x, y, z)` and a mass `m`, in a unit `2^-j`, on the mass shell, with the values that are calculated from them with `t` digits rounding to nearest:
squares are `k * 2^a`, square roots `k * 2^-g`. -/
structure Calculated (t E x y z m a g kx ks kt kq kr kp kE kP : Nat) : Prop where
  shell : E ^ 2 = x ^ 2 + y ^ 2 + z ^ 2 + m ^ 2
  mass : m ≠ 0
  y_exact : y ^ 2 < 2 ^ t
  z_exact : z ^ 2 < 2 ^ t
  m_exact : m ^ 2 < 2 ^ t
  x_square : RoundsTo t (x ^ 2) kx a
  sum : RoundsTo t (kx * 2 ^ a + y ^ 2) ks a
  root : RootsTo t ks kt (a + 2 * g + 2)
  square : RoundsTo t (kt ^ 2) kq (a + 2 * g)
  sum' : RoundsTo t (kq * 2 ^ a + z ^ 2) kr a
  root' : RootsTo t kr kp (a + 2 * g + 2)
  square' : RoundsTo t (kp ^ 2) kP (a + 2 * g)
  E_square : RoundsTo t (E ^ 2) kE a
  more : E * 2 ^ g < kp
  more_exact : kp - E * 2 ^ g < 2 ^ t
  more_square : kE < kP
  diff_exact : kP - kE < 2 ^ t
  diff : (kP - kE) * 2 ^ a + m ^ 2 < 2 ^ t

variable {E x y z m a g kx ks kt kq kr kp kE kP j : Nat}

theorem Calculated.spatial (W : Calculated t E x y z m a g kx ks kt kq kr kp kE kP) (h : Nearest (Digits t lo hi)) (hj : lo ≤ -(2 * j)) (hg : lo ≤ -j - g) (ha : (a : Int) ≤ hi) (b c d : Bool) (e : F) :
    spatial ⟨e, .fin b (x * 2 ^ (-j : Int)), .fin c (y * 2 ^ (-j : Int)), .fin d (z * 2 ^ (-j : Int))⟩ = .fin false (kp * 2 ^ (-j - g : Int)) := by
  have x2 : F.mul (.fin b (x * 2 ^ (-j : Int))) (.fin b (x * 2 ^ (-j : Int))) = .fin false ((kx * 2 ^ a : Nat) * 2 ^ (-j + -j : Int)) := by
    rw [mul_same, pow_square, h.int false W.x_square (by omega) (by omega), pow_join]
  have y2 : F.mul (.fin c (y * 2 ^ (-j : Int))) (.fin c (y * 2 ^ (-j : Int))) = .fin false ((y ^ 2 : Nat) * 2 ^ (-j + -j : Int)) := by
    rw [mul_same, pow_square]
    exact Digits.round h.toFaithful false (Digits.mk W.y_exact (by omega) (by omega))
  have z2 : F.mul (.fin d (z * 2 ^ (-j : Int))) (.fin d (z * 2 ^ (-j : Int))) = .fin false ((z ^ 2 : Nat) * 2 ^ (-j + -j : Int)) := by
    rw [mul_same, pow_square]
    exact Digits.round h.toFaithful false (Digits.mk W.z_exact (by omega) (by omega))
  have plus : ∀ x y : ℝ≥0, F.add (.fin false x) (.fin false y) = F.round false (x + y) := fun x y => by simp [F.add]
  have ex : (-j + -j + (a : Nat) : Int) = 2 * ((-j - g) - 1) + (a + 2 * g + 2 : Nat) := by push_cast; ring
  have ex' : (-j - g + (-j - g) + (a + 2 * g : Nat) : Int) = -j + -j + (a : Nat) := by push_cast; ring
  have xy : F.add (.fin false ((kx * 2 ^ a : Nat) * 2 ^ (-j + -j : Int))) (.fin false ((y ^ 2 : Nat) * 2 ^ (-j + -j : Int))) = .fin false (ks * 2 ^ (-j + -j + (a : Nat) : Int)) := by
    rw [plus, ← add_mul, ← Nat.cast_add, h.int false W.sum (by omega) (by omega)]
  have pxy : F.sqrt (.fin false (ks * 2 ^ (-j + -j + (a : Nat) : Int))) = .fin false (kt * 2 ^ (-j - g : Int)) := by
    show F.round false (NNReal.sqrt _) = _
    rw [ex]
    exact h.root false W.root (by omega) (by omega)
  have q : F.mul (.fin false (kt * 2 ^ (-j - g : Int))) (.fin false (kt * 2 ^ (-j - g : Int))) = .fin false ((kq * 2 ^ a : Nat) * 2 ^ (-j + -j : Int)) := by
    rw [mul_same, pow_square, h.int false W.square (by omega) (by omega), ← pow_join, ex']
  have r : F.add (.fin false ((kq * 2 ^ a : Nat) * 2 ^ (-j + -j : Int))) (.fin false ((z ^ 2 : Nat) * 2 ^ (-j + -j : Int))) = .fin false (kr * 2 ^ (-j + -j + (a : Nat) : Int)) := by
    rw [plus, ← add_mul, ← Nat.cast_add, h.int false W.sum' (by omega) (by omega)]
  have p : F.sqrt (.fin false (kr * 2 ^ (-j + -j + (a : Nat) : Int))) = .fin false (kp * 2 ^ (-j - g : Int)) := by
    show F.round false (NNReal.sqrt _) = _
    rw [ex]
    exact h.root false W.root' (by omega) (by omega)
  unfold Props.spatial
  dsimp only
  rw [x2, y2, xy, pxy, q, z2, r, p]

/-- This momentum is on the mass shell of this mass, it is accepted, and all brackets of the particle are not numbers. -/
def OnShellNan (E x y z m : ℝ≥0) (b c d f : Bool) : Prop :=
  E ^ 2 = x ^ 2 + y ^ 2 + z ^ 2 + m ^ 2 ∧ m ≠ 0 ∧
  (∀ junk : Kin F (F × F), (Particle.ctorPM junk ⟨.fin false E, .fin b x, .fin c y, .fin d z⟩ (.fin f m)).1 = .ok () ∧ NanSpinors (Particle.ctorPM junk ⟨.fin false E, .fin b x, .fin c y, .fin d z⟩ (.fin f m)).2) ∧
  ∀ P : Particle F (F × F), P.kin.m = .fin f m → (Particle.setMomentum ⟨.fin false E, .fin b x, .fin c y, .fin d z⟩ P).1 = .ok () ∧ NanSpinors (Particle.setMomentum ⟨.fin false E, .fin b x, .fin c y, .fin d z⟩ P).2

theorem Calculated.nan (W : Calculated t E x y z m a g kx ks kt kq kr kp kE kP) (h : Nearest (Digits t lo hi)) (heps : Rounding.eps = 2 ^ (1 - t : Int)) (hc : Products) (h30 : 30 ≤ t) (hlo : lo ≤ 1 - t) (hj : lo ≤ -(2 * j)) (hg : lo ≤ -j - g) (ha : (a : Int) ≤ hi)
    (htol : ((kP - kE) * 2 ^ a + m ^ 2) * 2 ^ (t - 1) ≤ 1000000000 * 2 ^ (2 * j)) (b c d f : Bool) :
    OnShellNan (E * 2 ^ (-j : Int)) (x * 2 ^ (-j : Int)) (y * 2 ^ (-j : Int)) (z * 2 ^ (-j : Int)) (m * 2 ^ (-j : Int)) b c d f := by
  let mom : V4 F := ⟨.fin false (E * 2 ^ (-j : Int)), .fin b (x * 2 ^ (-j : Int)), .fin c (y * 2 ^ (-j : Int)), .fin d (z * 2 ^ (-j : Int))⟩
  let mass : F := .fin f (m * 2 ^ (-j : Int))
  have hp : Props.spatial mom = .fin false (kp * 2 ^ (-j - g : Int)) := W.spatial h hj hg ha b c d _
  have h0 : F.round false 0 = .fin false 0 := Digits.round h.toFaithful false ⟨0, 0, by positivity, by omega, by omega, by simp⟩
  have E2 : F.mul mom.t mom.t = .fin false (kE * 2 ^ (-j + -j + (a : Nat) : Int)) := by
    show F.mul (.fin false (E * 2 ^ (-j : Int))) (.fin false (E * 2 ^ (-j : Int))) = _
    rw [mul_same, pow_square, h.int false W.E_square (by omega) (by omega)]
  have P2 : F.mul (Props.spatial mom) (Props.spatial mom) = .fin false (kP * 2 ^ (-j + -j + (a : Nat) : Int)) := by
    rw [hp, mul_same, pow_square, h.int false W.square' (by omega) (by omega)]
    congr 3
    push_cast
    ring
  have M2 : F.mul mass mass = .fin false ((m ^ 2 : Nat) * 2 ^ (-j + -j : Int)) := by
    show F.mul (.fin f (m * 2 ^ (-j : Int))) (.fin f (m * 2 ^ (-j : Int))) = _
    rw [mul_same, pow_square]
    exact Digits.round h.toFaithful false (Digits.mk W.m_exact (by omega) (by omega))
  have less : ∀ (k l : Nat) (e : Int), l < k → k - l < 2 ^ t → lo ≤ e → e ≤ hi → F.add (.fin false (l * 2 ^ e)) (F.neg (.fin false (k * 2 ^ e))) = .fin true ((k - l : Nat) * 2 ^ e) := by
    intro k l e hl hk he he'
    have lt : (l : ℝ≥0) * 2 ^ e < k * 2 ^ e := mul_lt_mul_of_pos_right (by exact_mod_cast hl) (zpow_pos (by norm_num) _)
    rw [add_minus, if_neg lt.ne, if_neg (not_lt.mpr lt.le), ← tsub_mul, ← Nat.cast_tsub]
    exact Digits.round h.toFaithful true (Digits.mk hk he he')
  have gate : GateIs mom mass (.ok ()) := by
    refine gate_of E2 P2 M2 (b := false) ?_
    rw [tolerance (t := t) h.toFaithful heps h30 hlo (by omega), less _ _ _ W.more_square W.diff_exact (by omega) (by omega), pow_join]
    have : F.add (.fin true (((kP - kE) * 2 ^ a : Nat) * 2 ^ (-j + -j : Int))) (F.neg (.fin false ((m ^ 2 : Nat) * 2 ^ (-j + -j : Int)))) = .fin true (((kP - kE) * 2 ^ a + m ^ 2 : Nat) * 2 ^ (-j + -j : Int)) := by
      show F.add (.fin true _) (.fin true _) = _
      simp only [F.add, if_true]
      rw [← add_mul, ← Nat.cast_add]
      exact Digits.round h.toFaithful true (Digits.mk W.diff (by omega) (by omega))
    rw [this]
    refine decide_eq_false (not_lt.mpr (NNReal.coe_le_coe.mpr ?_))
    have two : (2 : ℝ≥0) ≠ 0 := by norm_num
    have h1 : (((kP - kE) * 2 ^ a + m ^ 2 : Nat) : ℝ≥0) * 2 ^ (t - 1) ≤ 1000000000 * 2 ^ (2 * j) := by exact_mod_cast htol
    have e1 : (2 : ℝ≥0) ^ (-j + -j : Int) = 2 ^ (t - 1) * 2 ^ (-j + -j + (1 - t) : Int) := by
      rw [← zpow_natCast, ← zpow_add₀ two]
      congr 1
      omega
    have e2 : (2 : ℝ≥0) ^ (1 - t : Int) = 2 ^ (2 * j) * 2 ^ (-j + -j + (1 - t) : Int) := by
      rw [← zpow_natCast, ← zpow_add₀ two]
      congr 1
      push_cast
      ring
    rw [e1, e2, ← mul_assoc, ← mul_assoc]
    exact mul_le_mul_of_nonneg_right h1 zero_le
  have nan : F.sqrt (F.add mom.t (F.neg (Props.spatial mom))) = .nan := by
    have e : mom.t = .fin false ((E * 2 ^ g : Nat) * 2 ^ (-j - g : Int)) := by
      show F.fin false (E * 2 ^ (-j : Int)) = _
      rw [← pow_join]
      congr 3
      ring
    rw [e, hp, less _ _ _ W.more W.more_exact (by omega) (by omega)]
    have ne : (((kp - E * 2 ^ g : Nat) : ℝ≥0) * 2 ^ (-j - g : Int)) ≠ 0 := mul_ne_zero (by exact_mod_cast (Nat.sub_pos_of_lt W.more).ne') (zpow_pos (by norm_num) _).ne'
    simp only [F.sqrt, if_true]
    rw [if_neg ne]
  have mne : (m : ℝ≥0) * 2 ^ (-j : Int) ≠ 0 := mul_ne_zero (by exact_mod_cast W.mass) (zpow_pos (by norm_num) _).ne'
  have m0 : F.eq mass (F.round false 0) = false := by
    rw [h0]
    refine decide_eq_false ?_
    cases f <;> simpa [F.real] using mne
  refine ⟨?_, mne, fun junk => ⟨gate.1 junk, nan_spinors hc _ m0 h0 (gate.1 junk) nan⟩, fun P hP => ⟨gate.2 P hP, nan_spinors hc _ ?_ h0 (gate.2 P hP) nan⟩⟩
  · have := congrArg (fun n : Nat => (n : ℝ≥0) * (2 ^ (-j : Int)) ^ 2) W.shell
    push_cast at this
    rw [mul_pow, mul_pow, mul_pow, mul_pow, mul_pow, this]
    ring
  · show F.eq P.kin.m _ = _
    rw [hP]
    exact m0

/-- C91. In `double`, rounding to nearest: a momentum exactly on the mass shell, all four components and the mass representable, is accepted, and all brackets of the particle are not numbers.
The unit `2^-j` is arbitrary from `j = 14` (energy 23 TeV) on. -/
theorem C91_double (h : Nearest (Digits 53 (-1074) 971)) (heps : Rounding.eps = 2 ^ (-52 : Int)) (hc : Products) (hj : 14 ≤ j) (hj' : j ≤ 500) (b c d f : Bool) :
    OnShellNan ((379640315 : Nat) * 2 ^ (-j : Int)) ((379640313 : Nat) * 2 ^ (-j : Int)) ((27504 : Nat) * 2 ^ (-j : Int)) ((27606 : Nat) * 2 ^ (-j : Int)) ((2 : Nat) * 2 ^ (-j : Int)) b c d f := by
  have W : Calculated 53 379640315 379640313 27504 27606 2 5 24 4503961476710562 4503961500350250 6369307550223721 4503961500350251 4503961524165602 6369307567063041 4503961524165601 4503961524165602 := by
    constructor <;> norm_num [RoundsTo, RootsTo]
  refine W.nan h (by rw [heps]; norm_num) hc (by norm_num) (by norm_num) (by omega) (by omega) (by norm_num) ?_ b c d f
  have : 2 ^ (2 * 14) ≤ 2 ^ (2 * j) := Nat.pow_le_pow_right (by norm_num) (by omega)
  norm_num at this ⊢
  omega

/-- C91 for `long double` (x86), which is the default of CMakeLists.txt:18-23: from `j = 19` (23 TeV) on. -/
theorem C91_long_double (h : Nearest (Digits 64 (-16445) 16320)) (heps : Rounding.eps = 2 ^ (-63 : Int)) (hc : Products) (hj : 19 ≤ j) (hj' : j ≤ 8000) (b c d f : Bool) :
    OnShellNan ((12155162519 : Nat) * 2 ^ (-j : Int)) ((12155162517 : Nat) * 2 ^ (-j : Int)) ((151812 : Nat) * 2 ^ (-j : Int)) ((159918 : Nat) * 2 ^ (-j : Int)) ((2 : Nat) * 2 ^ (-j : Int)) b c d f := by
  have W : Calculated 64 12155162519 12155162517 151812 159918 2 4 30 9234248488417610956 9234248489858041165 13051506373037948964 9234248489858041166 9234248491456401586 13051506374167494657 9234248491456401585 9234248491456401586 := by
    constructor <;> norm_num [RoundsTo, RootsTo]
  refine W.nan h (by rw [heps]; norm_num) hc (by norm_num) (by norm_num) (by omega) (by omega) (by norm_num) ?_ b c d f
  have : 2 ^ (2 * 19) ≤ 2 ^ (2 * j) := Nat.pow_le_pow_right (by norm_num) (by omega)
  norm_num at this ⊢
  omega

end

/-! ### The hypotheses are met -/

noncomputable section

open Classical in
/-- the representable moduli closest to `x` -/
def closest (t : Nat) (lo hi : Int) (x : ℝ≥0) : Finset ℝ≥0 := (moduli t lo hi).filter fun r => ∀ q ∈ moduli t lo hi, |(r : ℝ) - x| ≤ |(q : ℝ) - x|

theorem mem_closest {t : Nat} {lo hi : Int} {x r : ℝ≥0} : r ∈ closest t lo hi x ↔ r ∈ moduli t lo hi ∧ ∀ q ∈ moduli t lo hi, |(r : ℝ) - x| ≤ |(q : ℝ) - x| := by
  unfold closest
  exact Finset.mem_filter

/-- rounding to nearest, ties away from zero, infinity beyond the largest number -/
def toNearest (t : Nat) (lo hi : Int) : Rounding where
  near _ x := if x ≤ (moduli t lo hi).sup id then some ((closest t lo hi x).sup id) else none
  zero := false
  eps := 2 ^ (1 - t : Int)
  sin := id
  cos _ := .fin false 1
  atan2 x _ := x
  pow x k := some (x ^ k)
  hypot x y := some (NNReal.sqrt (x ^ 2 + y ^ 2))
  cmul x _ := x
  cdiv x _ := x
  polar x y := (x, y)

theorem toNearest_nearest {t : Nat} {lo hi : Int} (h : lo ≤ hi) : letI := toNearest t lo hi; Nearest (Digits t lo hi) := by
  letI := toNearest t lo hi
  have top : ∀ {x}, Digits t lo hi x → x ≤ (moduli t lo hi).sup id := fun hx => Finset.le_sup (f := id) (mem_moduli.mpr hx)
  have zero : (0 : ℝ≥0) ∈ moduli t lo hi := mem_moduli.mpr ⟨0, lo, by positivity, le_refl _, h, by simp⟩
  have mem : ∀ x, (closest t lo hi x).sup id ∈ closest t lo hi x := by
    intro x
    obtain ⟨r, hr, hmin⟩ := Finset.exists_min_image (moduli t lo hi) (fun r => |(r : ℝ) - x|) ⟨0, zero⟩
    obtain ⟨q, hq, e⟩ := Finset.exists_mem_eq_sup (closest t lo hi x) ⟨r, mem_closest.mpr ⟨hr, hmin⟩⟩ id
    rw [e]
    exact hq
  have result : ∀ (s : Bool) (x y : ℝ≥0), Rounding.near s x = some y → y = (closest t lo hi x).sup id := by
    intro s x y hy
    change (if _ then some _ else none) = _ at hy
    split_ifs at hy
    cases hy
    rfl
  refine { fixed := ?_, result := ?_, mono := ?_, nearest := ?_ }
  · intro s x hx
    show (if _ then some _ else none) = _
    rw [if_pos (top hx)]
    have := (mem_closest.mp (mem x)).2 x (mem_moduli.mpr hx)
    rw [sub_self, abs_zero] at this
    have := abs_eq_zero.mp (le_antisymm this (abs_nonneg _))
    exact congrArg some (NNReal.coe_injective (by linarith))
  · intro s x y hy
    rw [result s x y hy]
    exact mem_moduli.mp (mem_closest.mp (mem x)).1
  · intro s x y b hxy hb
    have hb' := result s y b hb
    change (if _ then some _ else none) = _ at hb
    split_ifs at hb with hy
    refine ⟨_, if_pos (hxy.trans hy), ?_⟩
    rw [hb']
    by_contra hlt
    have hlt := NNReal.coe_lt_coe.mpr (not_le.mp hlt)
    have h1 := sq_le_sq.mpr ((mem_closest.mp (mem x)).2 _ (mem_closest.mp (mem y)).1)
    have h2 := sq_le_sq.mpr ((mem_closest.mp (mem y)).2 _ (mem_closest.mp (mem x)).1)
    have h3 := NNReal.coe_le_coe.mpr hxy
    rcases h3.lt_or_eq with h4 | h4
    · nlinarith
    · rw [NNReal.coe_injective h4] at hlt
      exact lt_irrefl _ hlt
  · intro s x y r hy hr
    rw [result s x y hy]
    exact (mem_closest.mp (mem x)).2 r (mem_moduli.mpr hr)

theorem toNearest_products (t : Nat) (lo hi : Int) : letI := toNearest t lo hi; Products :=
  letI := toNearest t lo hi
  { cos := fun _ _ => F.noConfusion, nan := fun _ _ _ _ => rfl }

theorem toNearest_eps (t : Nat) (lo hi : Int) : (toNearest t lo hi).eps = 2 ^ (1 - t : Int) := rfl

/-- In `double`: energy 379640315/16384 GeV (23 TeV) and mass 1/8192 GeV. -/
example : letI := toNearest 53 (-1074) 971; OnShellNan ((379640315 : Nat) * 2 ^ (-(14 : Nat) : Int)) ((379640313 : Nat) * 2 ^ (-(14 : Nat) : Int)) ((27504 : Nat) * 2 ^ (-(14 : Nat) : Int)) ((27606 : Nat) * 2 ^ (-(14 : Nat) : Int)) ((2 : Nat) * 2 ^ (-(14 : Nat) : Int)) false false false false :=
  letI := toNearest 53 (-1074) 971
  have heps : Rounding.eps = (2 : ℝ≥0) ^ (-52 : Int) := toNearest_eps 53 (-1074) 971
  C91_double (toNearest_nearest (by norm_num)) heps (toNearest_products 53 (-1074) 971) (le_refl _) (by norm_num) false false false false

/-- In `long double`: energy 12155162519/2^24 GeV (724 GeV). -/
example : letI := toNearest 64 (-16445) 16320; OnShellNan ((12155162519 : Nat) * 2 ^ (-(24 : Nat) : Int)) ((12155162517 : Nat) * 2 ^ (-(24 : Nat) : Int)) ((151812 : Nat) * 2 ^ (-(24 : Nat) : Int)) ((159918 : Nat) * 2 ^ (-(24 : Nat) : Int)) ((2 : Nat) * 2 ^ (-(24 : Nat) : Int)) false true false false :=
  letI := toNearest 64 (-16445) 16320
  have heps : Rounding.eps = (2 : ℝ≥0) ^ (-63 : Int) := toNearest_eps 64 (-16445) 16320
  C91_long_double (toNearest_nearest (by norm_num)) heps (toNearest_products 64 (-16445) 16320) (by norm_num) (by norm_num) false true false false

end
end Spinas.Props
