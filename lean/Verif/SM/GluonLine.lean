import Verif.SM.LightLine

/-! Sums over colours for one fermion line with a gluon. -/

namespace Spinas
open Spec Props Matrix

theorem sum_fibres {ι α β : Type*} [DecidableEq α] [DecidableEq β] [Fintype α] [Fintype β] (s : Finset ι) (f : ι → α) (g : ι → β) (h : ∀ a b, (s.filter fun x => f x = a ∧ g x = b).card = 1) (F : α → β → ℝ) : ∑ x ∈ s, F (f x) (g x) = ∑ a, ∑ b, F a b := by
  have e : ∀ x, F (f x) (g x) = ∑ a, ∑ b, if f x = a ∧ g x = b then F a b else 0 := fun x => by
    rw [Finset.sum_eq_single (f x), Finset.sum_eq_single (g x)] <;> simp +contextual [eq_comm]
  rw [Finset.sum_congr rfl fun x _ => e x, Finset.sum_comm]
  refine Finset.sum_congr rfl fun a _ => ?_
  rw [Finset.sum_comm]
  refine Finset.sum_congr rfl fun b _ => ?_
  rw [← Finset.sum_filter, Finset.sum_const, h, one_smul]
theorem sum_fibre {ι α : Type*} [DecidableEq α] [Fintype α] (s : Finset ι) (f : ι → α) (h : ∀ a, (s.filter fun x => f x = a).card = 1) (F : α → ℝ) : ∑ x ∈ s, F (f x) = ∑ a, F a := by
  have e : ∀ x, F (f x) = ∑ a, if f x = a then F a else 0 := fun x => by
    rw [Finset.sum_eq_single (f x)] <;> simp +contextual [eq_comm]
  rw [Finset.sum_congr rfl fun x _ => e x, Finset.sum_comm]
  refine Finset.sum_congr rfl fun a _ => ?_
  rw [← Finset.sum_filter, Finset.sum_const, h, one_smul]

/-- `Tr T^a T^a` -/
theorem gellMann_square : ∑ a : Fin 3, ∑ b : Fin 3, ∑ γ : Fin 8, ‖((1 / 2 : ℂ) • gellMann γ) a b‖ ^ 2 = 4 := by
  have h3 : (√3 : ℝ) * √3 = 3 := Real.mul_self_sqrt (by norm_num)
  have n : ∀ z : ℂ, ‖z‖ ^ 2 = Complex.normSq z := fun z => (Complex.normSq_eq_norm_sq z).symm
  simp only [n, Matrix.smul_apply, smul_eq_mul, Complex.normSq_mul]
  simp [Fin.sum_univ_three, Fin.sum_univ_eight, gellMann]
  norm_num

theorem annihilation_none' (c : Constants) {f g : Flavour} (w w' : Spinor) {a b : Line} (hb : b.boson.massive = false) (h : b.boson = .photon → a.boson ≠ .wPlus ∧ a.boson ≠ .wMinus) : annihilation c f g w w' a b = 0 := by
  rw [annihilation_comm]; exact annihilation_none c w w' hb h

namespace Spec.Reaction
variable [FPEnv] (S : Reaction) {c : Constants} {p : Nat → V4 ℝ}

theorem into_massless {n : Fin 4} (h : S.boson n = .gluon) (E : Vec) : (S.into p n E).boson = .gluon := by
  unfold into; split_ifs <;> simp [h, Boson.anti]

/-- an amplitude with one gluon, at given spins -/
theorem oneLine_gluon {i j a b g : Fin 4} (hg : S.boson a = .gluon ∧ S.boson b ≠ .gluon ∧ g = a ∨ S.boson a ≠ .gluon ∧ S.boson b = .gluon ∧ g = b) (κ : Fin 4 → Fin 3) (γ : Fin 4 → Fin 8) {w : Fin 4 → Spinor} {z z' : Pair} (E : Fin 4 → Vec)
    (hi : w i = spX (S.sgn i) z.1 z.2) (hj : w j = spY (S.sgn j) z'.1 z'.2) :
    S.oneLine c p κ γ w (fun n => if arrives n then star (E n) else E n) i j a b = ((1 / 2 : ℂ) • gellMann (γ g)) (κ i) (κ j) * star (S.bare c p i j a b z z' (E a) (E b)) := by
  rw [oneLine_eq, into_line, into_line, hi, hj, bare, star_star]
  rcases hg with ⟨ha, hb, rfl⟩ | ⟨ha, hb, rfl⟩
  · rw [S.colour_one hb, show S.colour γ g = (1 / 2 : ℂ) • gellMann (γ g) by rw [colour, if_pos ha]]
    simp only [joined, Matrix.mul_one, Matrix.one_mul, sub_self, Matrix.zero_apply]
    rw [annihilation_none c _ _ (by rw [S.into_massless ha]; rfl) (fun h => by rw [S.into_massless ha] at h; cases h)]
    ring
  · rw [S.colour_one ha, show S.colour γ g = (1 / 2 : ℂ) • gellMann (γ g) by rw [colour, if_pos hb]]
    simp only [joined, Matrix.mul_one, Matrix.one_mul, sub_self, Matrix.zero_apply]
    rw [annihilation_none' c _ _ (by rw [S.into_massless hb]; rfl) (fun h => by rw [S.into_massless hb] at h; cases h)]
    ring

/-- one fermion line with one gluon -/
theorem state_gluon {i j a b : Fin 4} (g : Fin 4) (he : S.ends = [i]) (hs : S.starts = [j]) (hb : S.bosons = [a, b])
    (hg : S.boson a = .gluon ∧ S.boson b ≠ .gluon ∧ g = a ∨ S.boson a ≠ .gluon ∧ S.boson b = .gluon ∧ g = b)
    (hκ : ∀ x y, ((Fintype.piFinset S.colours).filter fun κ => κ i = x ∧ κ j = y).card = 1) (hγ : ∀ x, ((Fintype.piFinset S.gluons).filter fun γ => γ g = x).card = 1) (E : Fin 4 → Fin 3 → Vec) (s : Fin 4 → Fin 3) :
    S.stateSum c p E s = 4 * ‖S.bare c p i j a b (S.codePair c p i (two (s i))) (S.codePair c p j (two (s j))) (E a (s a)) (E b (s b))‖ ^ 2 := by
  unfold stateSum
  have ei : S.isEnd i := (S.mem_ends i).1 (by rw [he]; simp)
  have ej : S.isStart j := (S.mem_starts j).1 (by rw [hs]; simp)
  have ej' : S.isEnd j = false := by
    unfold isStart at ej; unfold isEnd
    cases hl : S.leg j with
    | boson b => rfl
    | fermion f a => rw [hl] at ej; simpa using ej
  have k : ∀ κ γ, S.amplitude c p κ γ (fun n => S.codeSpinor c p n (s n)) (fun n => if arrives n then star (E n (s n)) else E n (s n)) =
      ((1 / 2 : ℂ) • gellMann (γ g)) (κ i) (κ j) * star (S.bare c p i j a b (S.codePair c p i (two (s i))) (S.codePair c p j (two (s j))) (E a (s a)) (E b (s b))) := by
    intro κ γ
    unfold amplitude
    rw [he, hs, hb]
    exact S.oneLine_gluon hg κ γ (fun n => E n (s n)) (by simp [codeSpinor, ei]) (by simp [codeSpinor, ej'])
  simp only [k, norm_mul, norm_star, mul_pow, ← Finset.sum_mul]
  congr 1
  rw [← gellMann_square, ← sum_fibres (Fintype.piFinset S.colours) (fun κ => κ i) (fun κ => κ j) hκ (fun x y => ∑ γ, ‖((1 / 2 : ℂ) • gellMann γ) x y‖ ^ 2)]
  exact Finset.sum_congr rfl fun κ _ => sum_fibre (Fintype.piFinset S.gluons) (fun γ => γ g) hγ (fun γ => ‖((1 / 2 : ℂ) • gellMann γ) (κ i) (κ j)‖ ^ 2)

theorem squared_gluon {i j a b : Fin 4} (g : Fin 4) (he : S.ends = [i]) (hs : S.starts = [j]) (hb : S.bosons = [a, b])
    (hg : S.boson a = .gluon ∧ S.boson b ≠ .gluon ∧ g = a ∨ S.boson a ≠ .gluon ∧ S.boson b = .gluon ∧ g = b)
    (hκ : ∀ x y, ((Fintype.piFinset S.colours).filter fun κ => κ i = x ∧ κ j = y).card = 1) (hγ : ∀ x, ((Fintype.piFinset S.gluons).filter fun γ => γ g = x).card = 1)
    (hp : ∀ n : Fin 4, OnShell (p n) (S.mass c n)) (hm : ∀ n, 0 ≤ S.mass c n)
    (h0 : ∀ n b, S.leg n = .boson b → b.massive = true → b ≠ .higgs → c.bosonMass b ≠ 0) (hG : S.Gauge c p)
    {E : Fin 4 → Fin 3 → Vec} (hE : ∀ n b, S.leg n = .boson b → Polarised c (p n) b (E n)) {u : Fin 4 → Fin 3 → Spinor} {ε : Fin 4 → Fin 3 → Vec} (hu : ∀ n, S.Complete c p n (u n) (ε n)) :
    S.squared c p u ε = 4 * (∑ s ∈ Fintype.piFinset S.spins, ‖S.bare c p i j a b (S.codePair c p i (two (s i))) (S.codePair c p j (two (s j))) (E a (s a)) (E b (s b))‖ ^ 2) /
      (S.states 0 * S.states 1 * S.symmetry) :=
  S.squared_states hp hm h0 hG hE hu fun s _ => S.state_gluon g he hs hb hg hκ hγ E s
end Spec.Reaction

end Spinas
