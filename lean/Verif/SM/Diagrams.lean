import Verif.SM.BosonRow

/-! The diagrams with one fermion line, with their values in the spinors of the code. -/

namespace Spinas
open Spec Props Matrix

namespace Spec

section
variable (c : Constants) (x : Boson) (q : V4 ℝ) (e e' : ℝ) (Ai Si Aj Sj : V2) (gL gR : ℝ)

theorem contract_zero (v : Vec) : contract v 0 = 0 := (Lin.contract_right v).map_zero
theorem contract_smul (v : Vec) (t : ℂ) (w : Vec) : contract v (t • w) = t * contract v w := (Lin.contract_right v).map_smul t w
theorem contract_add (v w w' : Vec) : contract v (w + w') = contract v w + contract v w' := (Lin.contract_right v).map_add w w'

theorem lineV_zero : lineV e e' Ai Si Aj Sj gL gR 0 = 0 := by
  have := lineV_smul e e' Ai Si Aj Sj gL gR 0 0
  rwa [zero_smul, zero_mul] at this
theorem lineV_neg (E : Vec) : lineV e e' Ai Si Aj Sj gL gR (-E) = -lineV e e' Ai Si Aj Sj gL gR E := by
  have := lineV_smul e e' Ai Si Aj Sj gL gR (-1) E
  rwa [neg_one_smul, neg_one_mul] at this

/-- the line absorbs what the propagator carries: a massive boson ... -/
theorem lineV_massive (hx : x.massive = true) (J : Vec) : lineV e e' Ai Si Aj Sj gL gR (carry c x q J) =
    (-lineV e e' Ai Si Aj Sj gL gR J + contract (four q) J / (c.bosonMass x ^ 2 : ℝ) * lineV e e' Ai Si Aj Sj gL gR (four q)) / pole (c.bosonMass x) (c.bosonWidth x) q := by
  rw [carry, if_pos hx, lineV_smul, lineV_add, lineV_neg, lineV_smul]
  ring
/-- ... or a massless one -/
theorem lineV_massless (hx : x.massive = false) (J : Vec) : lineV e e' Ai Si Aj Sj gL gR (carry c x q J) = -lineV e e' Ai Si Aj Sj gL gR J / pole (c.bosonMass x) (c.bosonWidth x) q := by
  rw [carry, if_neg (by simp [hx]), add_zero, lineV_smul, lineV_neg]
  ring

theorem vertex_star_none {f g : Flavour} {a : Boson} (w w' : Spinor) (E : Vec) (h : after a f ≠ some g) : star (vertex c f g w w' E a) = 0 := by rw [vertex_none c E w w' h, star_zero]

variable (a b : Line)

theorem annihilation_parts (f g : Flavour) (w w' : Spinor) : star (annihilation c f g w w' ⟨a.boson, a.k, star a.ε⟩ ⟨b.boson, b.k, star b.ε⟩) =
    toHiggs c a b / pole c.MH c.WH (plus a.k b.k) * star (vertex c f g w w' 0 .higgs) +
    (star (vertex c f g w w' (star (carry c .photon (plus a.k b.k) (toVector c a b .photon))) .photon) + star (vertex c f g w w' (star (carry c .z (plus a.k b.k) (toVector c a b .z))) .z) +
     star (vertex c f g w w' (star (carry c .wPlus (plus a.k b.k) (toVector c a b .wPlus))) .wPlus) + star (vertex c f g w w' (star (carry c .wMinus (plus a.k b.k) (toVector c a b .wMinus))) .wMinus)) := by
  rw [annihilation]
  simp only [carriers, List.map_cons, List.map_nil, List.sum_cons, List.sum_nil, add_zero, toVector_star, propagate_star, star_add, star_mul', toHiggs_star, star_inv₀]
  have : star (denominator c .higgs (plus a.k b.k)) = pole c.MH c.WH (plus a.k b.k) := rfl
  rw [this]
  ring

/-- neutral bosons -/
theorem annihilation_neutral (f : Flavour) : star (annihilation c f f (spY e' Aj Sj) (spX e Ai Si) ⟨a.boson, a.k, star a.ε⟩ ⟨b.boson, b.k, star b.ε⟩) =
    toHiggs c a b / pole c.MH c.WH (plus a.k b.k) * (c.yuk f * lineH e e' Ai Si Aj Sj) +
    (lineV e e' Ai Si Aj Sj (c.hL f .photon) (c.hR f .photon) (carry c .photon (plus a.k b.k) (toVector c a b .photon)) +
     lineV e e' Ai Si Aj Sj (c.hL f .z) (c.hR f .z) (carry c .z (plus a.k b.k) (toVector c a b .z))) := by
  have n1 : after .wPlus f ≠ some f := by cases f with | mk k g => cases k <;> simp [after]
  have n2 : after .wMinus f ≠ some f := by cases f with | mk k g => cases k <;> simp [after]
  rw [annihilation_parts, vertex_h c e e' Ai Si Aj Sj rfl, vertex_v c e e' Ai Si Aj Sj rfl (by simp), vertex_v c e e' Ai Si Aj Sj rfl (by simp), vertex_star_none c _ _ _ n1, vertex_star_none c _ _ _ n2]
  ring

/-- a W -/
theorem annihilation_charged {f g : Flavour} {x : Boson} (hx : x = .wPlus ∨ x = .wMinus) (h : after x f = some g) : star (annihilation c f g (spY e' Aj Sj) (spX e Ai Si) ⟨a.boson, a.k, star a.ε⟩ ⟨b.boson, b.k, star b.ε⟩) =
    lineV e e' Ai Si Aj Sj (c.e / (√2 * c.SW)) 0 (carry c x (plus a.k b.k) (toVector c a b x)) := by
  have nf : f ≠ g := by
    rintro rfl
    cases f with | mk k g => rcases hx with rfl | rfl <;> cases k <;> simp [after] at h
  have n1 : after .higgs f ≠ some g := by simpa [after] using nf
  have n2 : after .photon f ≠ some g := by simpa [after] using nf
  have n3 : after .z f ≠ some g := by simpa [after] using nf
  rw [annihilation_parts, vertex_star_none c _ _ _ n1, vertex_star_none c _ _ _ n2, vertex_star_none c _ _ _ n3]
  rcases hx with rfl | rfl
  · have n4 : after .wMinus f ≠ some g := by cases f with | mk k g => cases k <;> simp [after] at h ⊢
    rw [vertex_v c e e' Ai Si Aj Sj h (by simp), vertex_star_none c _ _ _ n4]
    simp only [Constants.hL, Constants.hR]; ring
  · have n4 : after .wPlus f ≠ some g := by cases f with | mk k g => cases k <;> simp [after] at h ⊢
    rw [vertex_v c e e' Ai Si Aj Sj h (by simp), vertex_star_none c _ _ _ n4]
    simp only [Constants.hL, Constants.hR]; ring

end

namespace Reaction
variable (S : Reaction) (c : Constants) (p : Nat → V4 ℝ)

/-- the three diagrams -/
theorem bare_parts {i j a b : Fin 4} {x y : Boson} {k k' : V4 ℝ} (ha : ∀ E, S.into p a E = ⟨x, k, star E⟩) (hb : ∀ E, S.into p b E = ⟨y, k', star E⟩) {f g : Flavour} (hf : S.flavour j = f) (hg : S.flavour i = g)
    {l : V4 ℝ} (hl : S.along p j = l) {e e' : ℝ} (he : S.sgn i = e) (he' : S.sgn j = e') (z w : Pair) (E F : Vec) : S.bare c p i j a b z w E F =
    star (compton c f g l (spY e' w.1 w.2) (spX e z.1 z.2) ⟨x, k, star E⟩ ⟨y, k', star F⟩) + star (compton c f g l (spY e' w.1 w.2) (spX e z.1 z.2) ⟨y, k', star F⟩ ⟨x, k, star E⟩) +
    star (annihilation c f g (spY e' w.1 w.2) (spX e z.1 z.2) ⟨x, k, star E⟩ ⟨y, k', star F⟩) := by
  subst hf hg hl he he'
  rw [bare, ha, hb]
  simp only [joined, one_mul, zero_mul, add_zero, star_add]

end Reaction
end Spec

/-! ### squares of sums of momenta -/

section
variable {p : Nat → V4 ℝ} (hb : Balanced p)
include hb

/-- the channels, as the code computes them -/
theorem msq_s (q : V4 ℝ) (h : q = plus (p 0) (p 1) ∨ q = plus (p 1) (p 0) ∨ q = plus (backward (p 2)) (backward (p 3)) ∨ q = plus (backward (p 3)) (backward (p 2)) ∨
    q = plus (backward (p 0)) (backward (p 1)) ∨ q = plus (backward (p 1)) (backward (p 0)) ∨ q = plus (p 2) (p 3) ∨ q = plus (p 3) (p 2)) : msq q = msq ((SM.VExp.add 0 1).sum p) := by
  have := balanced_three hb
  rcases h with rfl | rfl | rfl | rfl | rfl | rfl | rfl | rfl <;> simp only [msq, SM.VExp.sum, plus, backward, this] <;> ring
theorem msq_t (q : V4 ℝ) (h : q = plus (p 0) (backward (p 2)) ∨ q = plus (backward (p 2)) (p 0) ∨ q = plus (p 1) (backward (p 3)) ∨ q = plus (backward (p 3)) (p 1) ∨
    q = plus (backward (p 0)) (p 2) ∨ q = plus (p 2) (backward (p 0)) ∨ q = plus (backward (p 1)) (p 3) ∨ q = plus (p 3) (backward (p 1))) : msq q = msq ((SM.VExp.sub 0 2).sum p) := by
  have := balanced_three hb
  rcases h with rfl | rfl | rfl | rfl | rfl | rfl | rfl | rfl <;> simp only [msq, SM.VExp.sum, plus, backward, this] <;> ring
theorem msq_u (q : V4 ℝ) (h : q = plus (p 0) (backward (p 3)) ∨ q = plus (backward (p 3)) (p 0) ∨ q = plus (p 1) (backward (p 2)) ∨ q = plus (backward (p 2)) (p 1) ∨
    q = plus (backward (p 0)) (p 3) ∨ q = plus (p 3) (backward (p 0)) ∨ q = plus (backward (p 1)) (p 2) ∨ q = plus (p 2) (backward (p 1))) : msq q = msq ((SM.VExp.sub 0 3).sum p) := by
  have := balanced_three hb
  rcases h with rfl | rfl | rfl | rfl | rfl | rfl | rfl | rfl <;> simp only [msq, SM.VExp.sum, plus, backward, this] <;> ring
end

/-- denominators of fermions -/
theorem pole_fermion {q q' : V4 ℝ} (h : msq q = msq q') (m : ℝ) : SM.poleDist m 0 q' = ((msq q - m ^ 2 : ℝ) : ℂ) := by
  rw [SM.poleDist, ← h]
  apply Complex.ext <;> simp [sq]

end Spinas
