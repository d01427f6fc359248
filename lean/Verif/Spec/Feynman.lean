import Verif.Spec.Minkowski
import Mathlib.Data.Complex.BigOperators
import Mathlib.LinearAlgebra.Matrix.Notation
import Mathlib.Analysis.Complex.Basic
import Mathlib.Algebra.BigOperators.Fin

/-! Tree-level Feynman rules of the Standard Model for the scattering of two fermions into two fermions, with Dirac spinors.
Independent of the spinor products of the code: the input is the list of the four external particles. -/

namespace Spinas.Spec
open Spinas Matrix

/-! ### Dirac spinors -/

abbrev Spinor := Fin 4 → ℂ
abbrev M4 := Matrix (Fin 4) (Fin 4) ℂ

/-- the Dirac matrices in the chiral representation -/
def gamma : Fin 4 → M4 := ![
  !![0, 0, 1, 0; 0, 0, 0, 1; 1, 0, 0, 0; 0, 1, 0, 0],
  !![0, 0, 0, 1; 0, 0, 1, 0; 0, -1, 0, 0; -1, 0, 0, 0],
  !![0, 0, 0, -Complex.I; 0, 0, Complex.I, 0; 0, Complex.I, 0, 0; -Complex.I, 0, 0, 0],
  !![0, 0, 1, 0; 0, 0, 0, -1; -1, 0, 0, 0; 0, 1, 0, 0]]

/-- the metric (+,-,-,-) -/
def metric : Fin 4 → ℂ := ![1, -1, -1, -1]

/-- components of a momentum -/
def four (p : V4 ℝ) : Fin 4 → ℂ := ![(p.t : ℂ), p.x, p.y, p.z]

/-- `p_mu gamma^mu` -/
noncomputable def slash (p : V4 ℝ) : M4 := ∑ μ, (metric μ * four p μ) • gamma μ

/-- projections on left-handed and right-handed spinors, with coefficients -/
def chiral (gL gR : ℂ) : M4 := diagonal ![gL, gL, gR, gR]

/-- the adjoint `u^+ gamma^0` -/
def bar (u : Spinor) : Spinor := star u ᵥ* gamma 0

/-- the current of a fermion line from `b` to `a` -/
def current (gL gR : ℂ) (a b : Spinor) (μ : Fin 4) : ℂ := bar a ⬝ᵥ ((gamma μ * chiral gL gR) *ᵥ b)

def contract (j k : Fin 4 → ℂ) : ℂ := ∑ μ, metric μ * j μ * k μ

/-! ### particles -/

inductive Kind | up | down | lepton | neutrino
  deriving DecidableEq

structure Flavour where
  kind : Kind
  gen : Fin 3
  deriving DecidableEq

namespace Flavour
def quark (f : Flavour) : Bool := match f.kind with | .up | .down => true | _ => false
/-- electric charge -/
noncomputable def charge (f : Flavour) : ℝ := match f.kind with | .up => 2 / 3 | .down => -1 / 3 | .lepton => -1 | .neutrino => 0
/-- weak isospin of the left-handed part -/
noncomputable def isospin (f : Flavour) : ℝ := match f.kind with | .up => 1 / 2 | .down => -1 / 2 | .lepton => -1 / 2 | .neutrino => 1 / 2
/-- spin states; there are left-handed neutrinos only -/
def spins (f : Flavour) : Nat := match f.kind with | .neutrino => 1 | _ => 2
def colours (f : Flavour) : Finset (Fin 3) := if f.quark then Finset.univ else {0}
end Flavour

/-- `f` turns into `g` by emitting a positive W (no mixing of generations) -/
def emitsPlus (f g : Flavour) : Bool :=
  decide (f.gen = g.gen) && (match f.kind, g.kind with | .up, .down => true | .neutrino, .lepton => true | _, _ => false)

/-- an external particle or antiparticle -/
structure Leg where
  flavour : Flavour
  anti : Bool
  deriving DecidableEq

/-- couplings, masses and widths -/
structure Constants where
  e : ℝ
  gs : ℝ
  /-- sine of the weak mixing angle -/
  SW : ℝ
  MW : ℝ
  WW : ℝ
  WZ : ℝ
  MH : ℝ
  WH : ℝ
  mass : Flavour → ℝ

namespace Constants
variable (c : Constants)
noncomputable def CW : ℝ := √(1 - c.SW * c.SW)
noncomputable def MZ : ℝ := c.MW / c.CW
noncomputable def gL (f : Flavour) : ℝ := f.isospin - f.charge * c.SW ^ 2
noncomputable def gR (f : Flavour) : ℝ := -f.charge * c.SW ^ 2

/-- neutrinos are massless, all other fermions massive -/
structure Physical : Prop where
  MW : c.MW ≠ 0
  SW : c.SW ≠ 0
  SW_lt : c.SW ^ 2 < 1
  neutrino : ∀ g, c.mass ⟨.neutrino, g⟩ = 0
  massive : ∀ f, f.kind ≠ .neutrino → 0 < c.mass f
end Constants

/-- the constants that are parameters of a process -/
inductive Quantity | e | gs | SW | MW | WW | WZ | MH | WH | mass (f : Flavour)

def Constants.get (c : Constants) : Quantity → ℝ
  | .e => c.e
  | .gs => c.gs
  | .SW => c.SW
  | .MW => c.MW
  | .WW => c.WW
  | .WZ => c.WZ
  | .MH => c.MH
  | .WH => c.WH
  | .mass f => c.mass f

/-! ### exchange of a boson between the fermion lines `b → a` and `d → c`, momentum transfer `q` -/

/-- denominator of a propagator -/
noncomputable def breitWigner (m w : ℝ) (q : V4 ℝ) : ℂ := ⟨msq q - m ^ 2, m * w⟩

/-- a massless vector boson -/
noncomputable def exchangeMassless (a b c d : Spinor) (q : V4 ℝ) : ℂ := contract (current 1 1 a b) (current 1 1 c d) / (msq q : ℂ)

/-- a massive vector boson (unitary gauge) with couplings `gL`, `gR` to the first and `hL`, `hR` to the second line -/
noncomputable def exchangeMassive (m w gL gR hL hR : ℝ) (a b c d : Spinor) (q : V4 ℝ) : ℂ :=
  (contract (current gL gR a b) (current hL hR c d) - contract (four q) (current gL gR a b) * contract (four q) (current hL hR c d) / (m ^ 2 : ℝ)) / breitWigner m w q

/-- a scalar boson -/
noncomputable def exchangeScalar (m w : ℝ) (a b c d : Spinor) (q : V4 ℝ) : ℂ := (bar a ⬝ᵥ b) * (bar c ⬝ᵥ d) / breitWigner m w q

/-! ### colour -/

/-- the Gell-Mann matrices -/
noncomputable def gellMann : Fin 8 → Matrix (Fin 3) (Fin 3) ℂ := ![
  !![0, 1, 0; 1, 0, 0; 0, 0, 0],
  !![0, -Complex.I, 0; Complex.I, 0, 0; 0, 0, 0],
  !![1, 0, 0; 0, -1, 0; 0, 0, 0],
  !![0, 0, 1; 0, 0, 0; 1, 0, 0],
  !![0, 0, -Complex.I; 0, 0, 0; Complex.I, 0, 0],
  !![0, 0, 0; 0, 0, 1; 0, 1, 0],
  !![0, 0, 0; 0, 0, -Complex.I; 0, Complex.I, 0],
  !![(1 / √3 : ℝ), 0, 0; 0, (1 / √3 : ℝ), 0; 0, 0, (-2 / √3 : ℝ)]]

/-- exchange of a gluon between lines with colours `j → i` and `l → k` -/
noncomputable def gluonColour (i j k l : Fin 3) : ℂ := ∑ a, gellMann a i j / 2 * (gellMann a k l / 2)

def delta (i j : Fin 3) : ℂ := if i = j then 1 else 0

/-! ### amplitudes -/

/-- Which bosons are exchanged: photons only, or all of the Standard Model. -/
inductive Theory | qed | standard
  deriving DecidableEq

/-- two particles into two particles: 0 and 1 come in, 2 and 3 go out -/
structure Scattering where
  theory : Theory
  leg : Fin 4 → Leg

namespace Scattering
variable (S : Scattering)

def outgoing (i : Fin 4) : Bool := decide (2 ≤ i.val)

/-- Fermion lines end at outgoing particles and incoming antiparticles ... -/
def ends : List (Fin 4) := [0, 1, 2, 3].filter fun i => outgoing i != (S.leg i).anti
/-- ... and start at incoming particles and outgoing antiparticles. -/
def starts : List (Fin 4) := [0, 1, 2, 3].filter fun i => outgoing i == (S.leg i).anti

/-- momentum in the direction of the line -/
def flow (p : Nat → V4 ℝ) (i : Fin 4) : V4 ℝ := if (S.leg i).anti then ⟨-(p i).t, -(p i).x, -(p i).y, -(p i).z⟩ else p i

/-- momentum given off by the line from `j` to `i` -/
def transfer (p : Nat → V4 ℝ) (i j : Fin 4) : V4 ℝ :=
  ⟨(S.flow p j).t - (S.flow p i).t, (S.flow p j).x - (S.flow p i).x, (S.flow p j).y - (S.flow p i).y, (S.flow p j).z - (S.flow p i).z⟩

/-- The flavours do not change along the lines `j → i` and `l → k`. -/
def neutral (i j k l : Fin 4) : Prop := (S.leg i).flavour = (S.leg j).flavour ∧ (S.leg k).flavour = (S.leg l).flavour
instance (i j k l : Fin 4) : Decidable (S.neutral i j k l) := inferInstanceAs (Decidable (_ ∧ _))

/-- A W goes from one of the lines `j → i` and `l → k` to the other. -/
def charged (i j k l : Fin 4) : Prop :=
  (emitsPlus (S.leg j).flavour (S.leg i).flavour ∧ emitsPlus (S.leg k).flavour (S.leg l).flavour) ∨
  (emitsPlus (S.leg i).flavour (S.leg j).flavour ∧ emitsPlus (S.leg l).flavour (S.leg k).flavour)
instance (i j k l : Fin 4) : Decidable (S.charged i j k l) := inferInstanceAs (Decidable (_ ∨ _))

/-- All exchanges between the lines `j → i` and `l → k`, except of gluons. -/
noncomputable def electroweak (c : Constants) (p : Nat → V4 ℝ) (w : Fin 4 → Spinor) (i j k l : Fin 4) : ℂ :=
  let f := (S.leg i).flavour
  let g := (S.leg k).flavour
  let q := S.transfer p i j
  (if S.neutral i j k l then
    (c.e ^ 2 * f.charge * g.charge : ℝ) * exchangeMassless (w i) (w j) (w k) (w l) q +
    (if S.theory = .standard then
      (c.e ^ 2 / (c.SW ^ 2 * c.CW ^ 2) : ℝ) * exchangeMassive c.MZ c.WZ (c.gL f) (c.gR f) (c.gL g) (c.gR g) (w i) (w j) (w k) (w l) q -
      (c.e ^ 2 * c.mass f * c.mass g / (4 * c.MW ^ 2 * c.SW ^ 2) : ℝ) * exchangeScalar c.MH c.WH (w i) (w j) (w k) (w l) q
    else 0)
  else 0) +
  (if S.theory = .standard ∧ S.charged i j k l then
    (c.e ^ 2 / (2 * c.SW ^ 2) : ℝ) * exchangeMassive c.MW c.WW 1 0 1 0 (w i) (w j) (w k) (w l) q
  else 0)

/-- exchange of a gluon, without the colour factor -/
noncomputable def strong (c : Constants) (p : Nat → V4 ℝ) (w : Fin 4 → Spinor) (i j k l : Fin 4) : ℂ :=
  if S.theory = .standard ∧ S.neutral i j k l ∧ (S.leg i).flavour.quark ∧ (S.leg k).flavour.quark then
    (c.gs ^ 2 : ℝ) * exchangeMassless (w i) (w j) (w k) (w l) (S.transfer p i j)
  else 0

/-- the diagrams in which the lines connect `j` to `i` and `l` to `k`; `κ` are the colours -/
noncomputable def connected (c : Constants) (p : Nat → V4 ℝ) (κ : Fin 4 → Fin 3) (w : Fin 4 → Spinor) (i j k l : Fin 4) : ℂ :=
  delta (κ i) (κ j) * delta (κ k) (κ l) * S.electroweak c p w i j k l + gluonColour (κ i) (κ j) (κ k) (κ l) * S.strong c p w i j k l

/-- The amplitude for given spinors and colours: exchanging the ends of two fermion lines changes the sign. -/
noncomputable def amplitude (c : Constants) (p : Nat → V4 ℝ) (κ : Fin 4 → Fin 3) (w : Fin 4 → Spinor) : ℂ :=
  match S.ends, S.starts with
  | [i, k], [j, l] => S.connected c p κ w i j k l - S.connected c p κ w i l k j
  | _, _ => 0

/-- No boson exchanged between the lines `j → i` and `l → k` is on its pole. -/
def OffPole (c : Constants) (p : Nat → V4 ℝ) (i j k l : Fin 4) : Prop :=
  let f := (S.leg i).flavour
  let g := (S.leg k).flavour
  let q := S.transfer p i j
  (S.neutral i j k l → (f.charge * g.charge ≠ 0 → msq q ≠ 0) ∧
    (S.theory = .standard → breitWigner c.MZ c.WZ q ≠ 0 ∧ (c.mass f * c.mass g ≠ 0 → breitWigner c.MH c.WH q ≠ 0))) ∧
  (S.theory = .standard ∧ S.charged i j k l → breitWigner c.MW c.WW q ≠ 0)

/-- No boson exchanged in any diagram is on its pole. -/
def Regular (c : Constants) (p : Nat → V4 ℝ) : Prop :=
  match S.ends, S.starts with
  | [i, k], [j, l] => S.OffPole c p i j k l ∧ S.OffPole c p i l k j
  | _, _ => True

/-- number of states of the incoming particles -/
def states : Nat := (S.leg 0).flavour.spins * (S.leg 0).flavour.colours.card * ((S.leg 1).flavour.spins * (S.leg 1).flavour.colours.card)

/-- identical particles in the final state are counted once -/
def symmetry : Nat := if S.leg 2 = S.leg 3 then 2 else 1

/-- The spinors `u` describe the two spin states of a leg: completeness relation, for particles and antiparticles. -/
def Complete (c : Constants) (p : Nat → V4 ℝ) (i : Fin 4) (u : Fin 2 → Spinor) : Prop :=
  ∑ s, vecMulVec (u s) (bar (u s)) = slash (p i) + (if (S.leg i).anti then -(c.mass (S.leg i).flavour) else c.mass (S.leg i).flavour : ℂ) • 1

/-- The squared amplitude, summed over spins and colours of the final state and averaged over those of the initial state. -/
noncomputable def squared (c : Constants) (p : Nat → V4 ℝ) (u : Fin 4 → Fin 2 → Spinor) : ℝ :=
  (∑ s : Fin 4 → Fin 2, ∑ κ ∈ Fintype.piFinset fun i => (S.leg i).flavour.colours, ‖S.amplitude c p κ fun i => u i (s i)‖ ^ 2) / (S.states * S.symmetry)

end Scattering
end Spinas.Spec
