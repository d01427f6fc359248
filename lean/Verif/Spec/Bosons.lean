import Verif.Spec.Feynman

/-! Tree-level Feynman rules of the Standard Model (unitary gauge) for two particles into two particles where at least two of the four are bosons.
Independent of the spinor products of the code: the input is the list of the four external particles. -/

namespace Spinas.Spec
open Spinas Matrix

abbrev Vec := Fin 4 → ℂ

/-! ### particles -/

inductive Boson | higgs | photon | z | wPlus | wMinus | gluon
  deriving DecidableEq

namespace Boson
def anti : Boson → Boson
  | .wPlus => .wMinus
  | .wMinus => .wPlus
  | b => b
def massive : Boson → Bool
  | .photon | .gluon => false
  | _ => true
/-- polarisation states -/
def spins : Boson → Finset (Fin 3)
  | .higgs => {0}
  | .photon | .gluon => {0, 1}
  | _ => Finset.univ
end Boson

inductive Particle
  | fermion (f : Flavour) (anti : Bool)
  | boson (b : Boson)
  deriving DecidableEq

namespace Constants
variable (c : Constants)
noncomputable def bosonMass : Boson → ℝ
  | .higgs => c.MH
  | .z => c.MZ
  | .wPlus | .wMinus => c.MW
  | .photon | .gluon => 0
noncomputable def bosonWidth : Boson → ℝ
  | .higgs => c.WH
  | .z => c.WZ
  | .wPlus | .wMinus => c.WW
  | .photon | .gluon => 0
/-- inverse of the vacuum expectation value of the Higgs field -/
noncomputable def invVev : ℝ := c.e / (2 * c.MW * c.SW)
/-- the masses of the bosons are positive -/
structure Heavy : Prop where
  MW : 0 < c.MW
  MH : 0 < c.MH
end Constants

/-! ### momenta -/

def plus (p q : V4 ℝ) : V4 ℝ := ⟨p.t + q.t, p.x + q.x, p.y + q.y, p.z + q.z⟩
def backward (p : V4 ℝ) : V4 ℝ := ⟨-p.t, -p.x, -p.y, -p.z⟩

/-! ### vertices with fermions -/

/-- What becomes of `f` when it absorbs a boson (no mixing of generations). -/
def after : Boson → Flavour → Option Flavour
  | .higgs, f | .photon, f | .z, f => some f
  | .gluon, f => if f.quark then some f else none
  | .wPlus, ⟨.down, g⟩ => some ⟨.up, g⟩
  | .wPlus, ⟨.lepton, g⟩ => some ⟨.neutrino, g⟩
  | .wMinus, ⟨.up, g⟩ => some ⟨.down, g⟩
  | .wMinus, ⟨.neutrino, g⟩ => some ⟨.lepton, g⟩
  | _, _ => none

/-- `ε_mu gamma^mu` -/
noncomputable def slashV (ε : Vec) : M4 := ∑ μ, (metric μ * ε μ) • gamma μ

/-- `f` absorbs a boson with polarisation vector `ε` (no role for the Higgs boson); colour matrices of gluons are elsewhere -/
noncomputable def absorb (c : Constants) (f : Flavour) (ε : Vec) : Boson → M4
  | .higgs => ((-(c.mass f * c.invVev) : ℝ) : ℂ) • 1
  | .photon => ((c.e * f.charge : ℝ) : ℂ) • slashV ε
  | .z => ((c.e / (c.SW * c.CW) : ℝ) : ℂ) • (slashV ε * chiral (c.gL f) (c.gR f))
  | .wPlus | .wMinus => ((c.e / (√2 * c.SW) : ℝ) : ℂ) • (slashV ε * chiral 1 0)
  | .gluon => ((c.gs : ℝ) : ℂ) • slashV ε

/-! ### vertices of bosons -/

/-- a boson coming in with momentum `k` -/
structure Line where
  boson : Boson
  k : V4 ℝ
  ε : Vec

/-- coupling of three vector bosons, antisymmetric -/
noncomputable def gauge3 (c : Constants) : Boson → Boson → Boson → ℝ
  | .wMinus, .wPlus, .photon | .wPlus, .photon, .wMinus | .photon, .wMinus, .wPlus => c.e
  | .wPlus, .wMinus, .photon | .wMinus, .photon, .wPlus | .photon, .wPlus, .wMinus => -c.e
  | .wMinus, .wPlus, .z | .wPlus, .z, .wMinus | .z, .wMinus, .wPlus => c.e * c.CW / c.SW
  | .wPlus, .wMinus, .z | .wMinus, .z, .wPlus | .z, .wPlus, .wMinus => -(c.e * c.CW / c.SW)
  | _, _, _ => 0

/-- coupling of a Higgs boson to two vector bosons -/
noncomputable def higgs2 (c : Constants) : Boson → Boson → ℝ
  | .z, .z => 2 * c.MZ ^ 2 * c.invVev
  | .wPlus, .wMinus | .wMinus, .wPlus => 2 * c.MW ^ 2 * c.invVev
  | _, _ => 0

/-- The vertex of three vector bosons coming in with momenta `k₁`, `k₂` and `-k₁-k₂`, with the third index open. -/
noncomputable def yangMills (k₁ : V4 ℝ) (ε₁ : Vec) (k₂ : V4 ℝ) (ε₂ : Vec) (μ : Fin 4) : ℂ :=
  contract ε₁ ε₂ * (four k₁ μ - four k₂ μ) + contract (four k₁ + 2 * four k₂) ε₁ * ε₂ μ - contract (2 * four k₁ + four k₂) ε₂ * ε₁ μ

/-- `a` and `b` become a Higgs boson -/
noncomputable def toHiggs (c : Constants) (a b : Line) : ℂ :=
  if a.boson = .higgs ∧ b.boson = .higgs then ((-(3 * c.MH ^ 2 * c.invVev) : ℝ) : ℂ) else higgs2 c a.boson b.boson * contract a.ε b.ε

/-- `a` and `b` become a vector boson `x` -/
noncomputable def toVector (c : Constants) (a b : Line) (x : Boson) : Vec :=
  if a.boson = .higgs then (higgs2 c b.boson x.anti : ℂ) • b.ε
  else if b.boson = .higgs then (higgs2 c a.boson x.anti : ℂ) • a.ε
  else (gauge3 c a.boson b.boson x.anti : ℂ) • yangMills a.k a.ε b.k b.ε

/-- denominator of the propagator of a boson -/
noncomputable def denominator (c : Constants) (x : Boson) (q : V4 ℝ) : ℂ := breitWigner (c.bosonMass x) (c.bosonWidth x) q

/-- propagator of a vector boson times a vector -/
noncomputable def propagate (c : Constants) (x : Boson) (q : V4 ℝ) (J : Vec) : Vec :=
  (denominator c x q)⁻¹ • (-J + if x.massive then (contract (four q) J / (c.bosonMass x ^ 2 : ℝ)) • four q else 0)

/-- vector bosons that are exchanged (gluons are elsewhere) -/
def carriers : List Boson := [.photon, .z, .wPlus, .wMinus]

/-! ### amplitudes with one fermion line, from `w` (flavour `f`, momentum `l`) to `w'` (flavour `g`) -/

/-- The line absorbs `a`, then `b`. -/
noncomputable def compton (c : Constants) (f g : Flavour) (l : V4 ℝ) (w w' : Spinor) (a b : Line) : ℂ :=
  match after a.boson f with
  | none => 0
  | some x => if after b.boson x = some g then
      bar w' ⬝ᵥ ((absorb c x b.ε b.boson * (slash (plus l a.k) + (c.mass x : ℂ) • 1) * absorb c f a.ε a.boson) *ᵥ w) / ((msq (plus l a.k) - c.mass x ^ 2 : ℝ) : ℂ)
    else 0

/-- The line absorbs `x`. -/
noncomputable def vertex (c : Constants) (f g : Flavour) (w w' : Spinor) (ε : Vec) (x : Boson) : ℂ :=
  if after x f = some g then bar w' ⬝ᵥ (absorb c f ε x *ᵥ w) else 0

/-- `a` and `b` become a boson, which the line absorbs. -/
noncomputable def annihilation (c : Constants) (f g : Flavour) (w w' : Spinor) (a b : Line) : ℂ :=
  toHiggs c a b * (denominator c .higgs (plus a.k b.k))⁻¹ * vertex c f g w w' 0 .higgs +
  (carriers.map fun x => vertex c f g w w' (propagate c x (plus a.k b.k) (toVector c a b x)) x).sum

/-- Two gluons become a gluon, which the line absorbs; without the colour matrix. -/
noncomputable def gluonFusion (c : Constants) (f g : Flavour) (w w' : Spinor) (a b : Line) : ℂ :=
  if a.boson = .gluon ∧ b.boson = .gluon then
    vertex c f g w w' (propagate c .gluon (plus a.k b.k) ((c.gs : ℂ) • yangMills a.k a.ε b.k b.ε)) .gluon
  else 0

/-! ### amplitudes of four bosons -/

/-- `a` and `b` become a boson, which becomes `d` and `e` (all coming in). -/
noncomputable def mediated (c : Constants) (a b d e : Line) : ℂ :=
  toHiggs c a b * (denominator c .higgs (plus a.k b.k))⁻¹ * toHiggs c d e +
  (carriers.map fun x => contract (propagate c x (plus a.k b.k) (toVector c a b x)) (toVector c d e x.anti)).sum

/-- two Higgs bosons `a` and `b` and two vector bosons at a point -/
noncomputable def seagull (c : Constants) (a b d e : Line) : ℂ :=
  if a.boson = .higgs ∧ b.boson = .higgs then (higgs2 c d.boson e.boson * c.invVev : ℝ) * contract d.ε e.ε else 0

/-- a part of the vertex of four vector bosons: as if `a` and `b` became a boson that becomes `d` and `e` -/
noncomputable def gauge4 (c : Constants) (a b d e : Line) : ℂ :=
  ((carriers.map fun x => gauge3 c a.boson b.boson x.anti * gauge3 c d.boson e.boson x).sum : ℝ) * (contract a.ε d.ε * contract b.ε e.ε - contract a.ε e.ε * contract b.ε d.ε)

/-- four bosons at a point -/
noncomputable def contact (c : Constants) (a b d e : Line) : ℂ :=
  (if a.boson = .higgs ∧ b.boson = .higgs ∧ d.boson = .higgs ∧ e.boson = .higgs then ((-(3 * c.MH ^ 2 * c.invVev ^ 2) : ℝ) : ℂ) else 0) +
  (seagull c a b d e + seagull c a d b e + seagull c a e b d + seagull c b d a e + seagull c b e a d + seagull c d e a b) +
  (gauge4 c a b d e + gauge4 c a d b e + gauge4 c a e b d)

noncomputable def fourBosons (c : Constants) (a b d e : Line) : ℂ :=
  contact c a b d e - (mediated c a b d e + mediated c a d b e + mediated c a e b d)

/-! ### amplitudes of four gluons -/

/-- structure constants of the colour group, `[T a, T b] = i Σ f a b d T d` with `T a` half the Gell-Mann matrices -/
noncomputable def structureConstant (a b d : Fin 8) : ℂ :=
  -2 * Complex.I * (1 / 2) ^ 3 * ∑ i, ((gellMann a * gellMann b - gellMann b * gellMann a) * gellMann d) i i

/-- colour factor of gluons `a` and `b` that become a gluon that becomes `d` and `e` -/
noncomputable def adjoint (a b d e : Fin 8) : ℂ := ∑ x, structureConstant a b x * structureConstant d e x

/-- The gluons `a` and `b` become a gluon, which becomes `d` and `e` (all coming in), with the part of the vertex of four gluons that has the same colour factor. -/
noncomputable def gluonExchange (c : Constants) (a b d e : Line) : ℂ :=
  contract a.ε d.ε * contract b.ε e.ε - contract a.ε e.ε * contract b.ε d.ε - contract (propagate c .gluon (plus a.k b.k) (yangMills a.k a.ε b.k b.ε)) (yangMills d.k d.ε e.k e.ε)

/-- four gluons of colours `g₀`, ..., `g₃` -/
noncomputable def fourGluons (c : Constants) (g₀ g₁ g₂ g₃ : Fin 8) (a b d e : Line) : ℂ :=
  if a.boson = .gluon ∧ b.boson = .gluon ∧ d.boson = .gluon ∧ e.boson = .gluon then
    (c.gs : ℂ) ^ 2 * (adjoint g₀ g₁ g₂ g₃ * gluonExchange c a b d e + adjoint g₀ g₂ g₁ g₃ * gluonExchange c a d b e + adjoint g₀ g₃ g₁ g₂ * gluonExchange c a e b d)
  else 0

/-! ### reactions -/

/-- two particles into two particles: 0 and 1 come in, 2 and 3 go out -/
structure Reaction where
  leg : Fin 4 → Particle

namespace Reaction
variable (S : Reaction)

def arrives (n : Fin 4) : Bool := decide (n.val < 2)

/-- The fermion line ends at an outgoing particle or incoming antiparticle ... -/
def isEnd (n : Fin 4) : Bool := match S.leg n with
  | .fermion _ a => arrives n == a
  | .boson _ => false
/-- ... and starts at an incoming particle or outgoing antiparticle. -/
def isStart (n : Fin 4) : Bool := match S.leg n with
  | .fermion _ a => arrives n != a
  | .boson _ => false
def isBoson (n : Fin 4) : Bool := match S.leg n with
  | .fermion _ _ => false
  | .boson _ => true

def ends : List (Fin 4) := [0, 1, 2, 3].filter S.isEnd
def starts : List (Fin 4) := [0, 1, 2, 3].filter S.isStart
def bosons : List (Fin 4) := [0, 1, 2, 3].filter S.isBoson

/-- flavour of a fermion -/
def flavour (n : Fin 4) : Flavour := match S.leg n with
  | .fermion f _ => f
  | .boson _ => ⟨.up, 0⟩
def antifermion (n : Fin 4) : Bool := match S.leg n with
  | .fermion _ a => a
  | .boson _ => false
/-- type of a boson -/
def boson (n : Fin 4) : Boson := match S.leg n with
  | .fermion _ _ => .higgs
  | .boson b => b

noncomputable def mass (c : Constants) (n : Fin 4) : ℝ := match S.leg n with
  | .fermion f _ => c.mass f
  | .boson b => c.bosonMass b

/-- momentum of a fermion in the direction of the line -/
def along (p : Nat → V4 ℝ) (n : Fin 4) : V4 ℝ := if S.antifermion n then backward (p n) else p n

/-- Bosons are taken as coming in: a boson going out is its antiparticle coming in with opposite momentum and conjugate polarisation vector. -/
noncomputable def line (p : Nat → V4 ℝ) (ε : Fin 4 → Vec) (n : Fin 4) : Line :=
  if arrives n then ⟨S.boson n, p n, ε n⟩ else ⟨(S.boson n).anti, backward (p n), star (ε n)⟩

/-- colour matrix of a boson; `γ` is the colour of a gluon -/
noncomputable def colour (γ : Fin 4 → Fin 8) (n : Fin 4) : Matrix (Fin 3) (Fin 3) ℂ := if S.boson n = .gluon then (1 / 2 : ℂ) • gellMann (γ n) else 1

/-- one fermion line from `j` to `i` and bosons `a` and `b`; `κ` are the colours of the fermions -/
noncomputable def oneLine (c : Constants) (p : Nat → V4 ℝ) (κ : Fin 4 → Fin 3) (γ : Fin 4 → Fin 8) (w : Fin 4 → Spinor) (ε : Fin 4 → Vec) (i j a b : Fin 4) : ℂ :=
  let A := S.line p ε a
  let B := S.line p ε b
  let f := S.flavour j
  let g := S.flavour i
  let l := S.along p j
  (S.colour γ b * S.colour γ a) (κ i) (κ j) * compton c f g l (w j) (w i) A B +
  (S.colour γ a * S.colour γ b) (κ i) (κ j) * compton c f g l (w j) (w i) B A +
  delta (κ i) (κ j) * annihilation c f g (w j) (w i) A B +
  (S.colour γ b * S.colour γ a - S.colour γ a * S.colour γ b) (κ i) (κ j) * gluonFusion c f g (w j) (w i) A B

noncomputable def amplitude (c : Constants) (p : Nat → V4 ℝ) (κ : Fin 4 → Fin 3) (γ : Fin 4 → Fin 8) (w : Fin 4 → Spinor) (ε : Fin 4 → Vec) : ℂ :=
  match S.ends, S.starts, S.bosons with
  | [i], [j], [a, b] => S.oneLine c p κ γ w ε i j a b
  | [], [], [n₀, n₁, n₂, n₃] => fourBosons c (S.line p ε n₀) (S.line p ε n₁) (S.line p ε n₂) (S.line p ε n₃) +
      fourGluons c (γ n₀) (γ n₁) (γ n₂) (γ n₃) (S.line p ε n₀) (S.line p ε n₁) (S.line p ε n₂) (S.line p ε n₃)
  | _, _, _ => 0

/-! ### poles -/

/-- the propagator of the fermion between absorbing `a` and `b` -/
def Fermionic (c : Constants) (p : Nat → V4 ℝ) (i j a b : Fin 4) : Prop :=
  let A := S.line p (fun _ => 0) a
  ∀ x, after A.boson (S.flavour j) = some x → after (S.line p (fun _ => 0) b).boson x = some (S.flavour i) → msq (plus (S.along p j) A.k) - c.mass x ^ 2 ≠ 0

/-- three bosons can meet at a point -/
def meets : Boson → Boson → Boson → Bool
  | .higgs, .higgs, .higgs | .gluon, .gluon, .gluon => true
  | .higgs, .z, .z | .z, .higgs, .z | .z, .z, .higgs => true
  | .higgs, .wPlus, .wMinus | .higgs, .wMinus, .wPlus | .wPlus, .higgs, .wMinus | .wMinus, .higgs, .wPlus | .wPlus, .wMinus, .higgs | .wMinus, .wPlus, .higgs => true
  | .photon, .wPlus, .wMinus | .photon, .wMinus, .wPlus | .wPlus, .photon, .wMinus | .wMinus, .photon, .wPlus | .wPlus, .wMinus, .photon | .wMinus, .wPlus, .photon => true
  | .z, .wPlus, .wMinus | .z, .wMinus, .wPlus | .wPlus, .z, .wMinus | .wMinus, .z, .wPlus | .wPlus, .wMinus, .z | .wMinus, .wPlus, .z => true
  | _, _, _ => false

/-- the propagators of the bosons that `a` and `b` become and the fermion line absorbs -/
def Bosonic (c : Constants) (p : Nat → V4 ℝ) (i j a b : Fin 4) : Prop :=
  let A := S.line p (fun _ => 0) a
  let B := S.line p (fun _ => 0) b
  ∀ x, meets A.boson B.boson x.anti → after x (S.flavour j) = some (S.flavour i) → denominator c x (plus A.k B.k) ≠ 0

/-- the propagators of the bosons that `a` and `b` become and that become `d` and `e` -/
def Mediating (c : Constants) (p : Nat → V4 ℝ) (a b d e : Fin 4) : Prop :=
  let A := S.line p (fun _ => 0) a
  let B := S.line p (fun _ => 0) b
  ∀ x, meets A.boson B.boson x.anti → meets (S.line p (fun _ => 0) d).boson (S.line p (fun _ => 0) e).boson x → denominator c x (plus A.k B.k) ≠ 0

/-- No particle exchanged in any diagram is on its pole. -/
def Regular (c : Constants) (p : Nat → V4 ℝ) : Prop :=
  match S.ends, S.starts, S.bosons with
  | [i], [j], [a, b] => S.Fermionic c p i j a b ∧ S.Fermionic c p i j b a ∧ S.Bosonic c p i j a b
  | [], [], [n₀, n₁, n₂, n₃] => S.Mediating c p n₀ n₁ n₂ n₃ ∧ S.Mediating c p n₀ n₂ n₁ n₃ ∧ S.Mediating c p n₀ n₃ n₁ n₂
  | _, _, _ => True

/-! ### sums over states -/

def spins (n : Fin 4) : Finset (Fin 3) := match S.leg n with
  | .fermion _ _ => {0, 1}
  | .boson b => b.spins
def colours (n : Fin 4) : Finset (Fin 3) := match S.leg n with
  | .fermion f _ => f.colours
  | .boson _ => {0}
def gluons (n : Fin 4) : Finset (Fin 8) := if S.boson n = .gluon then Finset.univ else {0}

/-- number of states of a particle -/
def states (n : Fin 4) : Nat := match S.leg n with
  | .fermion f _ => f.spins * f.colours.card
  | .boson b => b.spins.card * (S.gluons n).card

/-- identical particles in the final state are counted once -/
def symmetry : Nat := if S.leg 2 = S.leg 3 then 2 else 1

/-- The polarisation vectors are complete: orthogonal to the momentum and normalised to -1; for massless particles in a gauge given by a light-like vector `n`. -/
def Polarised (c : Constants) (p : V4 ℝ) (b : Boson) (ε : Fin 3 → Vec) : Prop := match b with
  | .higgs => True
  | .photon | .gluon => ∃ n : V4 ℝ, msq n = 0 ∧ dot n p ≠ 0 ∧ ∀ μ ν, ∑ t ∈ b.spins, ε t μ * star (ε t ν) =
      -(if μ = ν then metric μ else 0) + (four p μ * four n ν + four n μ * four p ν) / (dot n p : ℂ)
  | _ => ∀ μ ν, ∑ t ∈ b.spins, ε t μ * star (ε t ν) = -(if μ = ν then metric μ else 0) + four p μ * four p ν / (c.bosonMass b ^ 2 : ℝ)

/-- The spinors and polarisation vectors describe the spin states of a leg. -/
def Complete (c : Constants) (p : Nat → V4 ℝ) (n : Fin 4) (u : Fin 3 → Spinor) (ε : Fin 3 → Vec) : Prop := match S.leg n with
  | .fermion f a => ∑ s ∈ ({0, 1} : Finset (Fin 3)), vecMulVec (u s) (bar (u s)) = slash (p n) + (if a then -c.mass f else c.mass f : ℂ) • 1
  | .boson b => Polarised c (p n) b ε

/-- The squared amplitude, summed over spins and colours of the final state and averaged over those of the initial state. -/
noncomputable def squared (c : Constants) (p : Nat → V4 ℝ) (u : Fin 4 → Fin 3 → Spinor) (ε : Fin 4 → Fin 3 → Vec) : ℝ :=
  (∑ s ∈ Fintype.piFinset S.spins, ∑ κ ∈ Fintype.piFinset S.colours, ∑ γ ∈ Fintype.piFinset S.gluons, ‖S.amplitude c p κ γ (fun n => u n (s n)) (fun n => ε n (s n))‖ ^ 2) /
    (S.states 0 * S.states 1 * S.symmetry)

end Reaction
end Spinas.Spec
