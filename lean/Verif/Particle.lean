import Verif.CVector

/-! Model of `source/particle.cpp` / `include/particle.h`. -/

namespace Spinas

/-- The four kinds of spinor: `|i>`, `<i|`, `[i|`, `|i]` (rangle, langle, lsquare, rsquare). -/
inductive Br where
  | rangle | langle | lsquare | rsquare
  deriving DecidableEq, Repr

/-- The non-cached data members of `class particle` (include/particle.h:33-38). -/
structure Kin (R C : Type) where
  m : R
  p : V4 R
  pmag : R
  pxymag : R
  theta : R
  phi : R
  c : C
  s : C
  sc : C
  sqrtEpP : C
  sqrtEmP : C
  deriving DecidableEq, Repr

/-- `class particle` (include/particle.h:31-67).
A pair of members `xCalculated, x` is rendered as one `Option`: `none` means `xCalculated == false`.
Ghost members: `mInit`, `pInit`, `magInit`, `angInit` record which scalar members hold determinate values,
`ub` records that undefined behaviour was executed through this object. -/
structure Particle (R C : Type) where
  kin : Kin R C
  upMat : Option (CMat C)
  loMat : Option (CMat C)
  /-- helicity spinors m0rangle, m0langle, m0lsquare, m0rsquare -/
  hel : Br → Option (CVec C)
  /-- spin spinors, indexed by kind, `upper`, and `true` for spin2 = +1 (`P1`), `false` for -1 (`M1`) -/
  spn : Br → Bool → Bool → Option (CVec C)
  mInit : Bool
  pInit : Bool
  magInit : Bool
  angInit : Bool
  ub : Bool

variable {R C : Type} [Scalar R] [Cplx R C]

namespace Kin

/-- source/particle.cpp:69-70 -/
def withMags (k : Kin R C) : Kin R C :=
  let pxymag := Scalar.sqrt (k.p.x * k.p.x + k.p.y * k.p.y)
  { k with pxymag := pxymag, pmag := Scalar.sqrt (pxymag * pxymag + k.p.z * k.p.z) }

/-- source/particle.cpp:68,71: the condition under which `update` throws (evaluated after 69-70) -/
def offShell (k : Kin R C) : Bool :=
  Scalar.lt (Scalar.eps * int 1000000000) (Scalar.abs (k.p.t * k.p.t - k.pmag * k.pmag - k.m * k.m))

/-- source/particle.cpp:74-81 -/
def withAngles (k : Kin R C) : Kin R C :=
  let theta := Scalar.atan2 k.pxymag k.p.z
  let phi := Scalar.atan2 k.p.y k.p.x
  let s : C := Cplx.polar (Scalar.sin (theta / int 2)) phi
  { k with
    theta := theta
    phi := phi
    c := Cplx.cart (Scalar.cos (theta / int 2)) (int 0)
    s := s
    sc := Cplx.conj s
    sqrtEpP := Cplx.cart (Scalar.sqrt (k.p.t + k.pmag)) (int 0)
    sqrtEmP := Cplx.cart (Scalar.sqrt (k.p.t - k.pmag)) (int 0) }

/-- source/particle.cpp:136-137 -/
def umatVal (k : Kin R C) : CMat C :=
  ⟨Cplx.cart (k.p.t - k.p.z) (int 0), -(Cplx.polar k.pxymag (-k.phi)),
   -(Cplx.polar k.pxymag k.phi), Cplx.cart (k.p.t + k.p.z) (int 0)⟩

/-- source/particle.cpp:145-146 -/
def lmatVal (k : Kin R C) : CMat C :=
  ⟨Cplx.cart (k.p.t + k.p.z) (int 0), Cplx.polar k.pxymag (-k.phi),
   Cplx.polar k.pxymag k.phi, Cplx.cart (k.p.t - k.p.z) (int 0)⟩

/-- Helicity spinors: source/particle.cpp:159 (rangle), 181 (langle), 170 (lsquare), 192 (rsquare) -/
def helVal (k : Kin R C) : Br → CVec C
  | .rangle => ⟨k.sqrtEpP * k.c, k.sqrtEpP * k.s⟩
  | .langle => ⟨k.sqrtEpP * k.s, -k.sqrtEpP * k.c⟩
  | .lsquare => ⟨k.sqrtEpP * k.c, k.sqrtEpP * k.sc⟩
  | .rsquare => ⟨k.sqrtEpP * k.sc, -k.sqrtEpP * k.c⟩

/-- Spin spinors, `spnVal k kind upper plus`.  Lines of source/particle.cpp:
rangle 212, 222, 239, 249; langle 266, 276, 293, 303; lsquare 320, 330, 347, 357; rsquare 374, 384, 401, 411. -/
def spnVal (k : Kin R C) : Br → Bool → Bool → CVec C
  | .rangle, true, false => ⟨k.sqrtEpP * k.c, k.sqrtEpP * k.s⟩
  | .rangle, true, true => ⟨-k.sqrtEmP * k.sc, k.sqrtEmP * k.c⟩
  | .rangle, false, false => ⟨-k.sqrtEmP * k.sc, k.sqrtEmP * k.c⟩
  | .rangle, false, true => ⟨-k.sqrtEpP * k.c, -k.sqrtEpP * k.s⟩
  | .langle, true, false => ⟨k.sqrtEpP * k.s, -k.sqrtEpP * k.c⟩
  | .langle, true, true => ⟨k.sqrtEmP * k.c, k.sqrtEmP * k.sc⟩
  | .langle, false, false => ⟨k.sqrtEmP * k.c, k.sqrtEmP * k.sc⟩
  | .langle, false, true => ⟨-k.sqrtEpP * k.s, k.sqrtEpP * k.c⟩
  | .lsquare, true, false => ⟨k.sqrtEmP * k.s, -k.sqrtEmP * k.c⟩
  | .lsquare, true, true => ⟨k.sqrtEpP * k.c, k.sqrtEpP * k.sc⟩
  | .lsquare, false, false => ⟨k.sqrtEpP * k.c, k.sqrtEpP * k.sc⟩
  | .lsquare, false, true => ⟨-k.sqrtEmP * k.s, k.sqrtEmP * k.c⟩
  | .rsquare, true, false => ⟨-k.sqrtEmP * k.c, -k.sqrtEmP * k.s⟩
  | .rsquare, true, true => ⟨k.sqrtEpP * k.sc, -k.sqrtEpP * k.c⟩
  | .rsquare, false, false => ⟨k.sqrtEpP * k.sc, -k.sqrtEpP * k.c⟩
  | .rsquare, false, true => ⟨k.sqrtEmP * k.c, k.sqrtEmP * k.s⟩

/-- source/particle.cpp:105-121 (the message is not modelled) -/
def testAnglesVal (k : Kin R C) : Bool :=
  let epsilon : R := Scalar.eps * int 1000000
  let p0 := Cplx.re (k.sqrtEpP * Cplx.conj k.sqrtEpP + k.sqrtEmP * Cplx.conj k.sqrtEmP) / int 2
  let p1 := k.pmag * Scalar.sin k.theta * Scalar.cos k.phi
  let p2 := k.pmag * Scalar.sin k.theta * Scalar.sin k.phi
  let p3 := k.pmag * Scalar.cos k.theta
  !(Scalar.lt epsilon (Scalar.abs (k.p.t - p0)) || Scalar.lt epsilon (Scalar.abs (k.p.x - p1)) ||
    Scalar.lt epsilon (Scalar.abs (k.p.y - p2)) || Scalar.lt epsilon (Scalar.abs (k.p.z - p3)))

/-- source/particle.cpp:125-127 -/
def dot (a b : V4 R) : R := a.t * b.t - a.x * b.x - a.y * b.y - a.z * b.z

end Kin

/-- The Lorentz generators (source/particle.cpp:478-580): axis, and which kind of spinor they act on. -/
inductive JAxis where
  | j3 | jp | jm
  deriving DecidableEq, Repr

namespace Kin

/-- 0.5 as in `constexpr ldouble half=0.5` -/
def half : R := Scalar.dec 5 1

/-- `half*std::sqrt((p[0]-pmag)/(p[0]+pmag))` when `m!=0`, else the default, source/particle.cpp:487-488 and similar -/
def preMinus (k : Kin R C) : R :=
  if Scalar.ne k.m (int 0) then half * Scalar.sqrt ((k.p.t - k.pmag) / (k.p.t + k.pmag)) else int 0
/-- `half*std::sqrt((p[0]+pmag)/(p[0]-pmag))` when `m!=0`, else 1, source/particle.cpp:496-497 and similar -/
def prePlus (k : Kin R C) : R :=
  if Scalar.ne k.m (int 0) then half * Scalar.sqrt ((k.p.t + k.pmag) / (k.p.t - k.pmag)) else int 1

/-- `lorentz_{j3,jp,jm}_lu` acts on |j> : source/particle.cpp:478-501;
`lorentz_*_ul` acts on <j| : 503-526; `lorentz_*_lu_dot` acts on [j| : 531-554; `lorentz_*_ul_dot` acts on |j] : 556-580.
Indexed by the kind of spinor acted on. -/
def lorentzVal (k : Kin R C) : Br → JAxis → CMat C
  | .rangle, .j3 => CMat.mulR
      ⟨Cplx.smul (Scalar.cos k.theta) (ofReal (int 1)), Cplx.polar (Scalar.sin k.theta) (-k.phi),
       Cplx.polar (Scalar.sin k.theta) k.phi, Cplx.smul (-(Scalar.cos k.theta)) (ofReal (int 1))⟩ (-half)
  | .rangle, .jp => CMat.mulR
      ⟨ofReal (Scalar.sin k.theta), -(Cplx.polar (-(int 1) + Scalar.cos k.theta) (-k.phi)),
       -(Cplx.polar (int 1 + Scalar.cos k.theta) k.phi), ofReal (-(Scalar.sin k.theta))⟩ k.preMinus
  | .rangle, .jm => CMat.mulR
      ⟨ofReal (Scalar.sin k.theta), -(Cplx.polar (int 1 + Scalar.cos k.theta) (-k.phi)),
       -(Cplx.polar (-(int 1) + Scalar.cos k.theta) k.phi), ofReal (-(Scalar.sin k.theta))⟩ k.prePlus
  | .langle, .j3 => CMat.mulR
      ⟨Cplx.smul (Scalar.cos k.theta) (ofReal (int 1)), Cplx.polar (Scalar.sin k.theta) k.phi,
       Cplx.polar (Scalar.sin k.theta) (-k.phi), Cplx.smul (-(Scalar.cos k.theta)) (ofReal (int 1))⟩ half
  | .langle, .jp => CMat.mulR
      ⟨ofReal (-(Scalar.sin k.theta)), Cplx.polar (int 1 + Scalar.cos k.theta) k.phi,
       Cplx.polar (-(int 1) + Scalar.cos k.theta) (-k.phi), ofReal (Scalar.sin k.theta)⟩ k.preMinus
  | .langle, .jm => CMat.mulR
      ⟨ofReal (-(Scalar.sin k.theta)), Cplx.polar (-(int 1) + Scalar.cos k.theta) k.phi,
       Cplx.polar (int 1 + Scalar.cos k.theta) (-k.phi), ofReal (Scalar.sin k.theta)⟩ k.prePlus
  | .lsquare, .j3 => CMat.mulR
      ⟨Cplx.smul (Scalar.cos k.theta) (ofReal (int 1)), Cplx.polar (Scalar.sin k.theta) k.phi,
       Cplx.polar (Scalar.sin k.theta) (-k.phi), Cplx.smul (-(Scalar.cos k.theta)) (ofReal (int 1))⟩ half
  | .lsquare, .jp => CMat.mulR
      ⟨ofReal (-(Scalar.sin k.theta)), Cplx.polar (int 1 + Scalar.cos k.theta) k.phi,
       Cplx.polar (-(int 1) + Scalar.cos k.theta) (-k.phi), ofReal (Scalar.sin k.theta)⟩ k.prePlus
  | .lsquare, .jm => CMat.mulR
      ⟨ofReal (-(Scalar.sin k.theta)), Cplx.polar (-(int 1) + Scalar.cos k.theta) k.phi,
       Cplx.polar (int 1 + Scalar.cos k.theta) (-k.phi), ofReal (Scalar.sin k.theta)⟩ k.preMinus
  | .rsquare, .j3 => CMat.mulR
      ⟨Cplx.smul (-(Scalar.cos k.theta)) (ofReal (int 1)), -(Cplx.polar (Scalar.sin k.theta) (-k.phi)),
       -(Cplx.polar (Scalar.sin k.theta) k.phi), Cplx.smul (Scalar.cos k.theta) (ofReal (int 1))⟩ half
  | .rsquare, .jp => CMat.mulR
      ⟨ofReal (Scalar.sin k.theta), -(Cplx.polar (-(int 1) + Scalar.cos k.theta) (-k.phi)),
       -(Cplx.polar (int 1 + Scalar.cos k.theta) k.phi), ofReal (-(Scalar.sin k.theta))⟩ k.prePlus
  | .rsquare, .jm => CMat.mulR
      ⟨ofReal (Scalar.sin k.theta), -(Cplx.polar (int 1 + Scalar.cos k.theta) (-k.phi)),
       -(Cplx.polar (-(int 1) + Scalar.cos k.theta) k.phi), ofReal (-(Scalar.sin k.theta))⟩ k.preMinus

/-- The moduli passed to `std::polar` by the generator (for the undefined-behaviour flag). -/
def lorentzModuli (k : Kin R C) : JAxis → List R
  | .j3 => [Scalar.sin k.theta, Scalar.sin k.theta]
  | _ => [-(int 1) + Scalar.cos k.theta, int 1 + Scalar.cos k.theta]

/-- Spin generators: `spin_*_lu` (`upper = true`, source/particle.cpp:585-602) and `spin_*_ul` (606-623). -/
def spinGenVal (k : Kin R C) : Bool → JAxis → CMat C
  | true, .j3 => CMat.mulR ⟨-(ofReal (int 1)), czero, czero, ofReal (int 1)⟩ (half : R)
  | true, .jp => ⟨czero, czero, -(Cplx.polar (int 1) k.phi), czero⟩
  | true, .jm => ⟨czero, -(Cplx.polar (int 1) (-k.phi)), czero, czero⟩
  | false, .j3 => CMat.mulR ⟨ofReal (int 1), czero, czero, -(ofReal (int 1))⟩ (half : R)
  | false, .jp => ⟨czero, Cplx.polar (int 1) k.phi, czero, czero⟩
  | false, .jm => ⟨czero, czero, Cplx.polar (int 1) (-k.phi), czero⟩

end Kin

namespace Particle

/-- All caches empty (the default member initialisers, include/particle.h:40-67). -/
def noCaches (k : Kin R C) (mI pI gI aI u : Bool) : Particle R C :=
  { kin := k, upMat := none, loMat := none, hel := fun _ => none, spn := fun _ _ _ => none,
    mInit := mI, pInit := pI, magInit := gI, angInit := aI, ub := u }

/-- Kinematic members of an object whose scalar members still hold the indeterminate values of `junk`;
`c, s, sc, sqrtEpP, sqrtEmP` are default constructed (zero). -/
def rawKin (junk : Kin R C) : Kin R C :=
  { junk with c := czero, s := czero, sc := czero, sqrtEpP := czero, sqrtEmP := czero }

/-- `particle::particle()`, source/particle.cpp:35-36.  `junk` holds the indeterminate values. -/
def ctor0 (junk : Kin R C) : Particle R C := noCaches (rawKin junk) false false false false false

/-- `particle::particle(mass)`, source/particle.cpp:38-39 (no call of `update`). -/
def ctorM (junk : Kin R C) (mass : R) : Particle R C :=
  noCaches { rawKin junk with m := mass, p := ⟨mass, int 0, int 0, int 0⟩ } true true false false false

/-- source/particle.cpp:67-102 -/
def update : Prog (Particle R C) Unit := fun P =>
  let k1 := P.kin.withMags
  let ub1 := P.ub || !P.pInit || !P.mInit
  if k1.offShell then
    (.throw .massShell, { P with kin := k1, magInit := true, ub := ub1 })
  else
    let k2 := k1.withAngles
    (.ok (), noCaches k2 P.mInit P.pInit true true (ub1 || polarUB (Scalar.sin (k2.theta / int 2))))

/-- `particle::particle(momentum, mass)`, source/particle.cpp:41-45.  If `update` throws, no object exists;
the returned state is then unobservable. -/
def ctorPM (junk : Kin R C) (mom : V4 R) (mass : R) : Res Unit × Particle R C :=
  update (noCaches { rawKin junk with m := mass, p := mom } true true false false false)

/-- source/particle.cpp:48-50 -/
def setMass (mass : R) : Prog (Particle R C) Unit := fun P =>
  (.ok (), { P with kin := { P.kin with m := mass }, mInit := true })

/-- source/particle.cpp:51-54 -/
def setMomentum (mom : V4 R) : Prog (Particle R C) Unit := fun P =>
  update { P with kin := { P.kin with p := mom }, pInit := true }

/-- source/particle.cpp:56-61 (`mass()` and `get_mass()`) -/
def getMass : Prog (Particle R C) R := fun P => (.ok P.kin.m, { P with ub := P.ub || !P.mInit })

/-- source/particle.cpp:62-64; an index outside 0..3 reads outside the array -/
def getMomentum (mu : Int) : Prog (Particle R C) R := fun P =>
  let P' := { P with ub := P.ub || !P.pInit }
  if mu = 0 then (.ok P.kin.p.t, P') else if mu = 1 then (.ok P.kin.p.x, P')
  else if mu = 2 then (.ok P.kin.p.y, P') else if mu = 3 then (.ok P.kin.p.z, P')
  else (.crash, { P with ub := true })

/-- source/particle.cpp:105-121 -/
def testAngles : Prog (Particle R C) Bool := fun P =>
  (.ok P.kin.testAnglesVal, { P with ub := P.ub || !P.pInit || !P.magInit || !P.angInit })

/-- source/particle.cpp:134-141 -/
def umat : Prog (Particle R C) (CMat C) := fun P =>
  match P.upMat with
  | some v => (.ok v, P)
  | none => (.ok P.kin.umatVal,
      { P with upMat := some P.kin.umatVal,
               ub := P.ub || !P.pInit || !P.magInit || !P.angInit || polarUB P.kin.pxymag })

/-- source/particle.cpp:143-150 -/
def lmat : Prog (Particle R C) (CMat C) := fun P =>
  match P.loMat with
  | some v => (.ok v, P)
  | none => (.ok P.kin.lmatVal,
      { P with loMat := some P.kin.lmatVal,
               ub := P.ub || !P.pInit || !P.magInit || !P.angInit || polarUB P.kin.pxymag })

/-- rangle() 153-163, lsquare() 164-174, langle() 175-185, rsquare() 186-196 of source/particle.cpp -/
def helicity (b : Br) : Prog (Particle R C) (CVec C) := fun P =>
  match P.hel b with
  | some v => (.ok v, P)
  | none =>
    let P1 := { P with ub := P.ub || !P.mInit }
    if Scalar.ne P.kin.m (int 0) then (.throw .helicityOfMassive, P1)
    else (.ok (P.kin.helVal b), { P1 with hel := fun b' => if b' = b then some (P.kin.helVal b) else P.hel b' })

/-- `kind(spin2, upper)`: rangle 227-253, langle 281-307, lsquare 335-361, rsquare 389-415 of source/particle.cpp;
with `upper = true` it is `kind(spin2)`: rangle 201-226, langle 255-280, lsquare 309-334, rsquare 363-388. -/
def spinor (b : Br) (spin2 : Int) (upper : Bool) : Prog (Particle R C) (CVec C) := fun P =>
  if spin2 ≠ 1 ∧ spin2 ≠ -1 then (.throw .badSpin, P)
  else
    let plus := decide (spin2 ≠ -1)
    match P.spn b upper plus with
    | some v => (.ok v, P)
    | none =>
      let P1 := { P with ub := P.ub || !P.mInit }
      if Scalar.eq P.kin.m (int 0) then (.throw .spinOfMassless, P1)
      else (.ok (P.kin.spnVal b upper plus),
        { P1 with spn := fun b' u' q' =>
            if b' = b ∧ u' = upper ∧ q' = plus then some (P.kin.spnVal b upper plus) else P.spn b' u' q' })

/-- `kind_matrix(upper)`, source/particle.cpp:420-455: columns are spin -1 and +1 -/
def spinorMatrix (b : Br) (upper : Bool) : Prog (Particle R C) (CMat C) := do
  let vm ← spinor b (-1) upper
  let vp ← spinor b 1 upper
  pure ⟨vm.v0, vp.v0, vm.v1, vp.v1⟩

/-- the Lorentz generators, source/particle.cpp:478-580 -/
def lorentz (b : Br) (j : JAxis) : Prog (Particle R C) (CMat C) := fun P =>
  (.ok (P.kin.lorentzVal b j),
   { P with ub := P.ub || !P.mInit || !P.pInit || !P.magInit || !P.angInit || (P.kin.lorentzModuli j).any polarUB })

/-- the spin generators, source/particle.cpp:585-623 (`j3` reads no member) -/
def spinGen (upper : Bool) (j : JAxis) : Prog (Particle R C) (CMat C) := fun P =>
  (.ok (P.kin.spinGenVal upper j), { P with ub := P.ub || (j != .j3 && !P.angInit) })

end Particle

/-! ### The public interface as data -/

/-- Values returned by the accessors. -/
inductive PVal (R C : Type) where
  | unit
  | scalar (x : R)
  | bool (b : Bool)
  | mat (m : CMat C)
  | vec (v : CVec C)
  deriving DecidableEq

/-- The accessors of `class particle` (include/particle.h:75-138). -/
inductive PAcc where
  | mass
  | momentum (mu : Int)
  | testAngles
  | umat
  | lmat
  | helicity (b : Br)
  | spinor (b : Br) (spin2 : Int) (upper : Bool)
  | spinorMatrix (b : Br) (upper : Bool)
  | lorentz (b : Br) (j : JAxis)
  | spinGen (upper : Bool) (j : JAxis)
  deriving DecidableEq

/-- Post-compose the returned value. -/
def Prog.map {σ α β : Type} (f : α → β) (x : Prog σ α) : Prog σ β := fun s =>
  match x s with
  | (.ok a, s') => (.ok (f a), s')
  | (.throw e, s') => (.throw e, s')
  | (.crash, s') => (.crash, s')

/-- Running an accessor. -/
def PAcc.run : PAcc → Prog (Particle R C) (PVal R C)
  | .mass => Particle.getMass.map .scalar
  | .momentum mu => (Particle.getMomentum mu).map .scalar
  | .testAngles => Particle.testAngles.map .bool
  | .umat => Particle.umat.map .mat
  | .lmat => Particle.lmat.map .mat
  | .helicity b => (Particle.helicity b).map .vec
  | .spinor b s u => (Particle.spinor b s u).map .vec
  | .spinorMatrix b u => (Particle.spinorMatrix b u).map .mat
  | .lorentz b j => (Particle.lorentz b j).map .mat
  | .spinGen u j => (Particle.spinGen u j).map .mat

/-- All public calls on an existing particle. -/
inductive POp (R : Type) where
  | setMass (m : R)
  | setMomentum (p : V4 R)
  | update
  | acc (a : PAcc)

/-- Running one call. -/
def POp.run : POp R → Prog (Particle R C) (PVal R C)
  | .setMass m => (Particle.setMass m).map fun _ => .unit
  | .setMomentum p => (Particle.setMomentum p).map fun _ => .unit
  | .update => Particle.update.map fun _ => .unit
  | .acc a => a.run

/-- A client program: runs the calls one after another, catching exceptions, and collects the outcomes. -/
def runOps : List (POp R) → Particle R C → List (Res (PVal R C)) × Particle R C
  | [], P => ([], P)
  | op :: ops, P =>
    let (r, P1) := op.run P
    let (rs, P2) := runOps ops P1
    (r :: rs, P2)

end Spinas
