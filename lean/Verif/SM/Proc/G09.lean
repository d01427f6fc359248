import Verif.SM.Lang

/-! Generated by tools/sm/translate.py from SM/*.cpp: menn, mnen, nWWn, nZZn, nZnh, nenenene, nenenene2, nenenmnm, nenmnenm, nnWW, nnZZ, nnZh. -/

namespace Spinas.SM.Cls

namespace menn

/-- constructor (SM/menn.cpp:32-41); parameters: 0 `echarge`, 1 `masse`, 2 `massmu`, 3 `massW`, 4 `widthW`, 5 `sinW` -/
def ctor : List SInstr := [
  -- 32: e(echarge)
  .set .r 0 (.loc .r 0),
  -- 32: me(masse)
  .set .r 1 (.loc .r 1),
  -- 32: mm(massmu)
  .set .r 2 (.loc .r 2),
  -- 32: MW(massW)
  .set .r 3 (.loc .r 3),
  -- 32: WW(widthW)
  .set .r 4 (.loc .r 4),
  -- 32: SW(sinW)
  .set .r 5 (.loc .r 5),
  -- 32: p1(particle(mm))
  .part 0 (.mem .r 2),
  -- 32: p2(particle(me))
  .part 1 (.mem .r 1),
  -- 32: p3(particle(0))
  .part 2 (.lit 0),
  -- 32: p4(particle(0))
  .part 3 (.lit 0),
  -- 32: prop(massW,widthW)
  .prop 0 (.loc .r 3) (.loc .r 4),
  -- 32: s24s(sproduct(SQUARE,&p2,&p4))
  .sprod 0 ⟨false, 1, true, [], 3, true⟩,
  -- 32: a13a(sproduct(ANGLE,&p1,&p3))
  .sprod 1 ⟨true, 0, true, [], 2, true⟩,
  -- 32: s14s(sproduct(SQUARE,&p1,&p4))
  .sprod 2 ⟨false, 0, true, [], 3, true⟩,
  -- 32: a23a(sproduct(ANGLE,&p2,&p3))
  .sprod 3 ⟨true, 1, true, [], 2, true⟩]

/-- `set_masses` (SM/menn.cpp:42-51); parameters: 0 `masse`, 1 `massmu`, 2 `massW` -/
def setMasses : List SInstr := [
  -- 43: me=masse
  .set .r 1 (.loc .r 0),
  -- 44: mm=massmu
  .set .r 2 (.loc .r 1),
  -- 45: MW=massW
  .set .r 3 (.loc .r 2),
  -- 46: p1.set_mass(mm)
  .setMass 0 (.mem .r 2),
  -- 47: p2.set_mass(me)
  .setMass 1 (.mem .r 1),
  -- 48: p3.set_mass(0)
  .setMass 2 (.lit 0),
  -- 49: p4.set_mass(0)
  .setMass 3 (.lit 0),
  -- 50: prop.set_mass(massW)
  .propMass 0 (.loc .r 2)]

/-- `set_momenta` (SM/menn.cpp:52-67); parameters: 0 `mom1`, 1 `mom2`, 2 `mom3`, 3 `mom4` -/
def setMomenta : List SInstr := [
  -- 54: p1.set_momentum(mom1)
  .setMom 0 0,
  -- 55: p2.set_momentum(mom2)
  .setMom 1 1,
  -- 56: p3.set_momentum(mom3)
  .setMom 2 2,
  -- 57: p4.set_momentum(mom4)
  .setMom 3 3,
  -- 58: s24s.update()
  .update 0,
  -- 59: a13a.update()
  .update 1,
  -- 60: s14s.update()
  .update 2,
  -- 61: a23a.update()
  .update 3,
  -- 66: pDenU=prop.denominator(propP)
  .den .c 0 0 (.sub 0 3)]

/-- `cdouble amp(ds1,ds2)` (SM/menn.cpp:72-77); variables: i 0 `ds1`, i 1 `ds2` -/
def m_amp : Method := ⟨2, 
  -- 76: return e*e/2.0/SW/SW*(2.0*MW*MW*s24s.v(ds2)*a13a.v(ds1)+mm*me*s14s.v(ds1)*a23a.v(ds2))/(MW*MW*pDenU)
  .ret .c (.div (.smul (.div (.div (.div (.mul (.mem .r 0) (.mem .r 0)) (.lit 2)) (.mem .r 5)) (.mem .r 5)) (.add (.mul (.smul (.mul (.mul (.lit 2) (.mem .r 3)) (.mem .r 3)) (.v 0 [.var 1])) (.v 1 [.var 0])) (.mul (.smul (.mul (.mem .r 2) (.mem .r 1)) (.v 2 [.var 0])) (.v 3 [.var 1])))) (.smul (.mul (.mem .r 3) (.mem .r 3)) (.mem .c 0)))⟩

/-- `ldouble amp2()` (SM/menn.cpp:80-92); variables: r 0 `amp2`, c 0 `M`, i 0 `j1`, i 1 `j2` -/
def m_amp2 : Method := ⟨0, 
  -- 81: ldouble amp2
  .seq (.set .r 0 (.lit 0)) <|
  -- 82: cdouble M
  .seq (.set .c 0 (.ofR (.lit 0))) <|
  -- 85: for(int j1=-1;j1<=1;j1+=2)
  .seq (.loop 0 (-1) true (.lit 1) 2 (
    -- 86: for(int j2=-1;j2<=1;j2+=2)
    .loop 1 (-1) true (.lit 1) 2 (
      -- 87: M=amp(j1,j2)
      .seq (.set .c 0 (.call 0 [.var 0, .var 1])) <|
      -- 88: amp2+=std::pow(std::abs(M),2)
      .set .r 0 (.add (.loc .r 0) (.pow (.abs (.loc .c 0)) 2))))) <|
  -- 91: return amp2/4.0
  .ret .r (.div (.loc .r 0) (.lit 4))⟩

end menn

/-- `class menn` (SM/menn.cpp, SM/include/menn.h:25-31).  Members:
* ldouble: 0 `e`, 1 `me`, 2 `mm`, 3 `MW`, 4 `WW`, 5 `SW`
* cdouble: 0 `pDenU`
* propagator: 0 `prop`
* sproduct: 0 `s24s`, 1 `a13a`, 2 `s14s`, 3 `a23a` -/
def menn : Proc where
  name := "menn"
  nPar := 6
  ctor := menn.ctor
  setMasses := menn.setMasses
  massPar := [1, 2, 3]
  setMomenta := menn.setMomenta
  methods := [menn.m_amp2, menn.m_amp]
  amp2 := 1
  others := []

namespace mnen

/-- constructor (SM/mnen.cpp:32-43); parameters: 0 `echarge`, 1 `masse`, 2 `massmu`, 3 `massW`, 4 `widthW`, 5 `sinW` -/
def ctor : List SInstr := [
  -- 32: e(echarge)
  .set .r 0 (.loc .r 0),
  -- 32: me(masse)
  .set .r 1 (.loc .r 1),
  -- 32: mm(massmu)
  .set .r 2 (.loc .r 2),
  -- 32: MW(massW)
  .set .r 3 (.loc .r 3),
  -- 32: WW(widthW)
  .set .r 4 (.loc .r 4),
  -- 32: SW(sinW)
  .set .r 5 (.loc .r 5),
  -- 32: p1(particle(mm))
  .part 0 (.mem .r 2),
  -- 32: p2(particle(0))
  .part 1 (.lit 0),
  -- 32: p3(particle(me))
  .part 2 (.mem .r 1),
  -- 32: p4(particle(0))
  .part 3 (.lit 0),
  -- 32: prop(massW,widthW)
  .prop 0 (.loc .r 3) (.loc .r 4),
  -- 32: s34s(sproduct(SQUARE,&p3,&p4))
  .sprod 0 ⟨false, 2, true, [], 3, true⟩,
  -- 32: a12a(sproduct(ANGLE,&p1,&p2))
  .sprod 1 ⟨true, 0, true, [], 1, true⟩,
  -- 32: s14s(sproduct(SQUARE,&p1,&p4))
  .sprod 2 ⟨false, 0, true, [], 3, true⟩,
  -- 32: a23a(sproduct(ANGLE,&p2,&p3))
  .sprod 3 ⟨true, 1, true, [], 2, true⟩,
  -- 42: preW=e*e/(4.0*MW*MW*SW*SW)
  .set .r 6 (.div (.mul (.mem .r 0) (.mem .r 0)) (.mul (.mul (.mul (.mul (.lit 4) (.mem .r 3)) (.mem .r 3)) (.mem .r 5)) (.mem .r 5)))]

/-- `set_masses` (SM/mnen.cpp:44-52); parameters: 0 `masse`, 1 `massmu`, 2 `massW` -/
def setMasses : List SInstr := [
  -- 45: me=masse
  .set .r 1 (.loc .r 0),
  -- 46: mm=massmu
  .set .r 2 (.loc .r 1),
  -- 47: MW=massW
  .set .r 3 (.loc .r 2),
  -- 48: p1.set_mass(mm)
  .setMass 0 (.mem .r 2),
  -- 49: p3.set_mass(me)
  .setMass 2 (.mem .r 1),
  -- 50: prop.set_mass(massW)
  .propMass 0 (.loc .r 2),
  -- 51: preW=e*e/(4.0*MW*MW*SW*SW)
  .set .r 6 (.div (.mul (.mem .r 0) (.mem .r 0)) (.mul (.mul (.mul (.mul (.lit 4) (.mem .r 3)) (.mem .r 3)) (.mem .r 5)) (.mem .r 5)))]

/-- `set_momenta` (SM/mnen.cpp:53-68); parameters: 0 `mom1`, 1 `mom2`, 2 `mom3`, 3 `mom4` -/
def setMomenta : List SInstr := [
  -- 55: p1.set_momentum(mom1)
  .setMom 0 0,
  -- 56: p2.set_momentum(mom2)
  .setMom 1 1,
  -- 57: p3.set_momentum(mom3)
  .setMom 2 2,
  -- 58: p4.set_momentum(mom4)
  .setMom 3 3,
  -- 59: s34s.update()
  .update 0,
  -- 60: a12a.update()
  .update 1,
  -- 61: s14s.update()
  .update 2,
  -- 62: a23a.update()
  .update 3,
  -- 67: pDenU=prop.denominator(propP)
  .den .c 0 0 (.sub 0 3)]

/-- `cdouble amp(ds1,ds3)` (SM/mnen.cpp:73-85); variables: i 0 `ds1`, i 1 `ds3` -/
def m_amp : Method := ⟨2, 
  -- 81: return -preW*2.0*(+2.0*MW*MW*s34s.v(ds3)*a12a.v(ds1)+mm*me*s14s.v(ds1)*a23a.v(ds3))/pDenU
  .ret .c (.div (.smul (.mul (.neg (.mem .r 6)) (.lit 2)) (.add (.mul (.smul (.mul (.mul (.lit 2) (.mem .r 3)) (.mem .r 3)) (.v 0 [.var 1])) (.v 1 [.var 0])) (.mul (.smul (.mul (.mem .r 2) (.mem .r 1)) (.v 2 [.var 0])) (.v 3 [.var 1])))) (.mem .c 0))⟩

/-- `ldouble amp2()` (SM/mnen.cpp:88-100); variables: r 0 `amp2`, c 0 `M`, i 0 `j1`, i 1 `j2` -/
def m_amp2 : Method := ⟨0, 
  -- 89: ldouble amp2
  .seq (.set .r 0 (.lit 0)) <|
  -- 90: cdouble M
  .seq (.set .c 0 (.ofR (.lit 0))) <|
  -- 93: for(int j1=-1;j1<=1;j1+=2)
  .seq (.loop 0 (-1) true (.lit 1) 2 (
    -- 94: for(int j2=-1;j2<=1;j2+=2)
    .loop 1 (-1) true (.lit 1) 2 (
      -- 95: M=amp(j1,j2)
      .seq (.set .c 0 (.call 0 [.var 0, .var 1])) <|
      -- 96: amp2+=std::pow(std::abs(M),2)
      .set .r 0 (.add (.loc .r 0) (.pow (.abs (.loc .c 0)) 2))))) <|
  -- 99: return amp2/2.0
  .ret .r (.div (.loc .r 0) (.lit 2))⟩

end mnen

/-- `class mnen` (SM/mnen.cpp, SM/include/mnen.h:25-32).  Members:
* ldouble: 0 `e`, 1 `me`, 2 `mm`, 3 `MW`, 4 `WW`, 5 `SW`, 6 `preW`
* cdouble: 0 `pDenU`
* propagator: 0 `prop`
* sproduct: 0 `s34s`, 1 `a12a`, 2 `s14s`, 3 `a23a` -/
def mnen : Proc where
  name := "mnen"
  nPar := 6
  ctor := mnen.ctor
  setMasses := mnen.setMasses
  massPar := [1, 2, 3]
  setMomenta := mnen.setMomenta
  methods := [mnen.m_amp2, mnen.m_amp]
  amp2 := 1
  others := []

namespace nWWn

/-- constructor (SM/nWWn.cpp:32-55); parameters: 0 `echarge`, 1 `masse`, 2 `massW`, 3 `sinW`, 4 `widthZ` -/
def ctor : List SInstr := [
  -- 32: e(echarge)
  .set .r 0 (.loc .r 0),
  -- 32: me(masse)
  .set .r 1 (.loc .r 1),
  -- 32: MW(massW)
  .set .r 2 (.loc .r 2),
  -- 32: SW(sinW)
  .set .r 3 (.loc .r 3),
  -- 32: CW(std::sqrt(1.0-sinW*sinW))
  .set .r 4 (.sqrt (.sub (.lit 1) (.mul (.loc .r 3) (.loc .r 3)))),
  -- 32: MZ(massW/CW)
  .set .r 5 (.div (.loc .r 2) (.mem .r 4)),
  -- 32: WZ(widthZ)
  .set .r 6 (.loc .r 4),
  -- 32: prope(0,0)
  .prop 0 (.lit 0) (.lit 0),
  -- 35: sqrt2=std::sqrt(two)
  .set .r 7 (.sqrt (.lit 2)),
  -- 36: MZ=MW/CW
  .set .r 5 (.div (.mem .r 2) (.mem .r 4)),
  -- 37: propZ=propagator(MZ,WZ)
  .prop 1 (.mem .r 5) (.mem .r 6),
  -- 38: p1=particle(0)
  .part 0 (.lit 0),
  -- 39: p2=particle(MW)
  .part 1 (.mem .r 2),
  -- 40: p3=particle(MW)
  .part 2 (.mem .r 2),
  -- 41: p4=particle(0)
  .part 3 (.lit 0),
  -- 43: s34s=sproduct(SQUARE,&p3,&p4)
  .sprod 0 ⟨false, 2, true, [], 3, true⟩,
  -- 44: a13a=sproduct(ANGLE,&p1,&p3)
  .sprod 1 ⟨true, 0, true, [], 2, true⟩,
  -- 45: s23s=sproduct(SQUARE,&p2,&p3)
  .sprod 2 ⟨false, 1, true, [], 2, true⟩,
  -- 46: a23a=sproduct(ANGLE,&p2,&p3)
  .sprod 3 ⟨true, 1, true, [], 2, true⟩,
  -- 47: s24s=sproduct(SQUARE,&p2,&p4)
  .sprod 4 ⟨false, 1, true, [], 3, true⟩,
  -- 48: a12a=sproduct(ANGLE,&p1,&p2)
  .sprod 5 ⟨true, 0, true, [], 1, true⟩,
  -- 50: s312a=sproduct(SQUARE,&p3,&p1,&p2)
  .sprod 6 ⟨false, 2, true, [0], 1, true⟩,
  -- 51: s431a=sproduct(SQUARE,&p4,&p3,&p1)
  .sprod 7 ⟨false, 3, true, [2], 0, true⟩,
  -- 53: pree=2.0*e*e/(2.0*MW*MW*SW*SW)
  .set .r 8 (.div (.mul (.mul (.lit 2) (.mem .r 0)) (.mem .r 0)) (.mul (.mul (.mul (.mul (.lit 2) (.mem .r 2)) (.mem .r 2)) (.mem .r 3)) (.mem .r 3))),
  -- 54: preZ=2.0*e*e/(2.0*MW*MW*SW*SW)
  .set .r 9 (.div (.mul (.mul (.lit 2) (.mem .r 0)) (.mem .r 0)) (.mul (.mul (.mul (.mul (.lit 2) (.mem .r 2)) (.mem .r 2)) (.mem .r 3)) (.mem .r 3)))]

/-- `set_masses` (SM/nWWn.cpp:56-67); parameters: 0 `masse`, 1 `massW` -/
def setMasses : List SInstr := [
  -- 57: me=masse
  .set .r 1 (.loc .r 0),
  -- 58: prope.set_mass(me)
  .propMass 0 (.mem .r 1),
  -- 59: MW=massW
  .set .r 2 (.loc .r 1),
  -- 60: MZ=MW/CW
  .set .r 5 (.div (.mem .r 2) (.mem .r 4)),
  -- 61: p2.set_mass(MW)
  .setMass 1 (.mem .r 2),
  -- 62: p3.set_mass(MW)
  .setMass 2 (.mem .r 2),
  -- 63: propZ.set_mass(MZ)
  .propMass 1 (.mem .r 5),
  -- 65: pree=2.0*e*e/(2.0*MW*MW*SW*SW)
  .set .r 8 (.div (.mul (.mul (.lit 2) (.mem .r 0)) (.mem .r 0)) (.mul (.mul (.mul (.mul (.lit 2) (.mem .r 2)) (.mem .r 2)) (.mem .r 3)) (.mem .r 3))),
  -- 66: preZ=2.0*e*e/(2.0*MW*MW*SW*SW)
  .set .r 9 (.div (.mul (.mul (.lit 2) (.mem .r 0)) (.mem .r 0)) (.mul (.mul (.mul (.mul (.lit 2) (.mem .r 2)) (.mem .r 2)) (.mem .r 3)) (.mem .r 3)))]

/-- `set_momenta` (SM/nWWn.cpp:68-92); parameters: 0 `mom1`, 1 `mom2`, 2 `mom3`, 3 `mom4` -/
def setMomenta : List SInstr := [
  -- 70: p1.set_momentum(mom1)
  .setMom 0 0,
  -- 71: p2.set_momentum(mom2)
  .setMom 1 1,
  -- 72: p3.set_momentum(mom3)
  .setMom 2 2,
  -- 73: p4.set_momentum(mom4)
  .setMom 3 3,
  -- 75: s34s.update()
  .update 0,
  -- 76: a13a.update()
  .update 1,
  -- 77: s23s.update()
  .update 2,
  -- 78: a23a.update()
  .update 3,
  -- 79: s24s.update()
  .update 4,
  -- 80: a12a.update()
  .update 5,
  -- 82: s312a.update()
  .update 6,
  -- 83: s431a.update()
  .update 7,
  -- 90: pDeneT=prope.denominator(propTP)
  .den .c 0 0 (.sub 0 2),
  -- 91: pDenZU=propZ.denominator(propUP)
  .den .c 1 1 (.sub 0 3)]

/-- `cdouble amp(ds3,ds2)` (SM/nWWn.cpp:97-136); variables: i 0 `ds3`, i 1 `ds2`, c 0 `amplitude`, i 2 `ds3a`, i 3 `ds3b`, i 4 `ds2a`, i 5 `ds2b`, i 6 `nCombs`, r 0 `normFactor`, i 7 `i` -/
def m_amp : Method := ⟨2, 
  -- 98: cdouble amplitude
  .seq (.set .c 0 (.ofR (.lit 0))) <|
  -- 103: int nCombs
  .seq (.seti 6 (.loops [0, 1])) <|
  -- 104: ldouble normFactor
  .seq (.set .r 0 (.norm [0, 1])) <|
  -- 106: for(int i=0;i<nCombs;i++)
  .seq (.loop 7 0 false (.var 6) 1 (
    -- 107: get_spinor_spins(ds3,ds3a,ds3b,ds2,ds2a,ds2b,i)
    .seq (.spins [(0, 2, 3), (1, 4, 5)] (.var 7)) <|
    -- 117: amplitude+=-normFactor*pree*s24s.v(ds2a)*a13a.v(ds3a)*(MW*a23a.v(ds2b,ds3b)+s312a.v(ds3b,ds2b))/pDeneT
    .seq (.set .c 0 (.add (.loc .c 0) (.div (.mul (.mul (.smul (.mul (.neg (.loc .r 0)) (.mem .r 8)) (.v 4 [.var 4])) (.v 1 [.var 2])) (.add (.smul (.mem .r 2) (.v 3 [.var 5, .var 3])) (.v 6 [.var 3, .var 5]))) (.mem .c 0)))) <|
    -- 128: amplitude+=-normFactor*preZ*(s23s.v(ds2a,ds3a)*a23a.v(ds2b,ds3b)*s431a.v()+MW*(s23s.v(ds2a,ds3a)-a23a.v(ds2a,ds3a))*(s34s.v(ds3b)*a12a.v(ds2b)-s24s.v(ds2b)*a13a.v(ds3b)))/pDenZU
    .set .c 0 (.add (.loc .c 0) (.div (.smul (.mul (.neg (.loc .r 0)) (.mem .r 9)) (.add (.mul (.mul (.v 2 [.var 4, .var 2]) (.v 3 [.var 5, .var 3])) (.v 7 [])) (.mul (.smul (.mem .r 2) (.sub (.v 2 [.var 4, .var 2]) (.v 3 [.var 4, .var 2]))) (.sub (.mul (.v 0 [.var 3]) (.v 5 [.var 5])) (.mul (.v 4 [.var 5]) (.v 1 [.var 3])))))) (.mem .c 1))))) <|
  -- 135: return amplitude
  .ret .c (.loc .c 0)⟩

/-- `ldouble amp2()` (SM/nWWn.cpp:139-151); variables: r 0 `amp2`, c 0 `M`, i 0 `j2`, i 1 `j3` -/
def m_amp2 : Method := ⟨0, 
  -- 140: ldouble amp2
  .seq (.set .r 0 (.lit 0)) <|
  -- 141: cdouble M
  .seq (.set .c 0 (.ofR (.lit 0))) <|
  -- 144: for(int j2=-2;j2<=2;j2+=2)
  .seq (.loop 0 (-2) true (.lit 2) 2 (
    -- 145: for(int j3=-2;j3<=2;j3+=2)
    .loop 1 (-2) true (.lit 2) 2 (
      -- 146: M=amp(j2,j3)
      .seq (.set .c 0 (.call 0 [.var 0, .var 1])) <|
      -- 147: amp2+=std::pow(std::abs(M),2)
      .set .r 0 (.add (.loc .r 0) (.pow (.abs (.loc .c 0)) 2))))) <|
  -- 150: return amp2/3.0
  .ret .r (.div (.loc .r 0) (.lit 3))⟩

end nWWn

/-- `class nWWn` (SM/nWWn.cpp, SM/include/nWWn.h:25-36).  Members:
* ldouble: 0 `e`, 1 `me`, 2 `MW`, 3 `SW`, 4 `CW`, 5 `MZ`, 6 `WZ`, 7 `sqrt2`, 8 `pree`, 9 `preZ`
* cdouble: 0 `pDeneT`, 1 `pDenZU`
* propagator: 0 `prope`, 1 `propZ`
* sproduct: 0 `s34s`, 1 `a13a`, 2 `s23s`, 3 `a23a`, 4 `s24s`, 5 `a12a`, 6 `s312a`, 7 `s431a` -/
def nWWn : Proc where
  name := "nWWn"
  nPar := 5
  ctor := nWWn.ctor
  setMasses := nWWn.setMasses
  massPar := [1, 2]
  setMomenta := nWWn.setMomenta
  methods := [nWWn.m_amp2, nWWn.m_amp]
  amp2 := 1
  others := []

namespace nZZn

/-- constructor (SM/nZZn.cpp:32-52); parameters: 0 `echarge`, 1 `massW`, 2 `sinW`, 3 `widthZ` -/
def ctor : List SInstr := [
  -- 32: e(echarge)
  .set .r 0 (.loc .r 0),
  -- 32: MW(massW)
  .set .r 1 (.loc .r 1),
  -- 32: SW(sinW)
  .set .r 2 (.loc .r 2),
  -- 32: CW(std::sqrt(1.0-sinW*sinW))
  .set .r 3 (.sqrt (.sub (.lit 1) (.mul (.loc .r 2) (.loc .r 2)))),
  -- 32: MZ(massW/CW)
  .set .r 4 (.div (.loc .r 1) (.mem .r 3)),
  -- 32: WZ(widthZ)
  .set .r 5 (.loc .r 3),
  -- 32: propne(0,0)
  .prop 0 (.lit 0) (.lit 0),
  -- 35: sqrt2=std::sqrt(two)
  .set .r 6 (.sqrt (.lit 2)),
  -- 36: MZ=MW/CW
  .set .r 4 (.div (.mem .r 1) (.mem .r 3)),
  -- 37: p1=particle(0)
  .part 0 (.lit 0),
  -- 38: p2=particle(MZ)
  .part 1 (.mem .r 4),
  -- 39: p3=particle(MZ)
  .part 2 (.mem .r 4),
  -- 40: p4=particle(0)
  .part 3 (.lit 0),
  -- 42: s34s=sproduct(SQUARE,&p3,&p4)
  .sprod 0 ⟨false, 2, true, [], 3, true⟩,
  -- 43: s24s=sproduct(SQUARE,&p2,&p4)
  .sprod 1 ⟨false, 1, true, [], 3, true⟩,
  -- 44: a13a=sproduct(ANGLE,&p1,&p3)
  .sprod 2 ⟨true, 0, true, [], 2, true⟩,
  -- 45: a12a=sproduct(ANGLE,&p1,&p2)
  .sprod 3 ⟨true, 0, true, [], 1, true⟩,
  -- 46: a23a=sproduct(ANGLE,&p2,&p3)
  .sprod 4 ⟨true, 1, true, [], 2, true⟩,
  -- 48: s312a=sproduct(SQUARE,&p3,&p1,&p2)
  .sprod 5 ⟨false, 2, true, [0], 1, true⟩,
  -- 49: s213a=sproduct(SQUARE,&p2,&p1,&p3)
  .sprod 6 ⟨false, 1, true, [0], 2, true⟩,
  -- 51: preTU=e*e/(2.0*MW*MW*SW*SW)
  .set .r 7 (.div (.mul (.mem .r 0) (.mem .r 0)) (.mul (.mul (.mul (.mul (.lit 2) (.mem .r 1)) (.mem .r 1)) (.mem .r 2)) (.mem .r 2)))]

/-- `set_masses` (SM/nZZn.cpp:53-60); parameters: 0 `massW` -/
def setMasses : List SInstr := [
  -- 54: MW=massW
  .set .r 1 (.loc .r 0),
  -- 55: MZ=MW/CW
  .set .r 4 (.div (.mem .r 1) (.mem .r 3)),
  -- 56: p2.set_mass(MZ)
  .setMass 1 (.mem .r 4),
  -- 57: p3.set_mass(MZ)
  .setMass 2 (.mem .r 4),
  -- 59: preTU=e*e/(2.0*MW*MW*SW*SW)
  .set .r 7 (.div (.mul (.mem .r 0) (.mem .r 0)) (.mul (.mul (.mul (.mul (.lit 2) (.mem .r 1)) (.mem .r 1)) (.mem .r 2)) (.mem .r 2)))]

/-- `set_momenta` (SM/nZZn.cpp:61-84); parameters: 0 `mom1`, 1 `mom2`, 2 `mom3`, 3 `mom4` -/
def setMomenta : List SInstr := [
  -- 63: p1.set_momentum(mom1)
  .setMom 0 0,
  -- 64: p2.set_momentum(mom2)
  .setMom 1 1,
  -- 65: p3.set_momentum(mom3)
  .setMom 2 2,
  -- 66: p4.set_momentum(mom4)
  .setMom 3 3,
  -- 68: s34s.update()
  .update 0,
  -- 69: s24s.update()
  .update 1,
  -- 70: a13a.update()
  .update 2,
  -- 71: a12a.update()
  .update 3,
  -- 72: a23a.update()
  .update 4,
  -- 74: s312a.update()
  .update 5,
  -- 75: s213a.update()
  .update 6,
  -- 82: pDenT=propne.denominator(propTP)
  .den .c 0 0 (.sub 0 2),
  -- 83: pDenS=propne.denominator(propSP)
  .den .c 1 0 (.add 0 1)]

/-- `cdouble amp(ds2,ds3)` (SM/nZZn.cpp:89-123); variables: i 0 `ds2`, i 1 `ds3`, c 0 `amplitude`, i 2 `ds2a`, i 3 `ds2b`, i 4 `ds3a`, i 5 `ds3b`, i 6 `nCombs`, r 0 `normFactor`, i 7 `i` -/
def m_amp : Method := ⟨2, 
  -- 90: cdouble amplitude
  .seq (.set .c 0 (.ofR (.lit 0))) <|
  -- 94: int nCombs
  .seq (.seti 6 (.loops [0, 1])) <|
  -- 95: ldouble normFactor
  .seq (.set .r 0 (.norm [0, 1])) <|
  -- 97: for(int i=0;i<nCombs;i++)
  .seq (.loop 7 0 false (.var 6) 1 (
    -- 98: get_spinor_spins(ds2,ds2a,ds2b,ds3,ds3a,ds3b,i)
    .seq (.spins [(0, 2, 3), (1, 4, 5)] (.var 7)) <|
    -- 108: amplitude+=-normFactor*preTU*s24s.v(ds2a)*a13a.v(ds3a)*(MZ*a23a.v(ds2b,ds3b)+s312a.v(ds3b,ds2b))/pDenT
    .seq (.set .c 0 (.add (.loc .c 0) (.div (.mul (.mul (.smul (.mul (.neg (.loc .r 0)) (.mem .r 7)) (.v 1 [.var 2])) (.v 2 [.var 4])) (.add (.smul (.mem .r 4) (.v 4 [.var 3, .var 5])) (.v 5 [.var 5, .var 3]))) (.mem .c 0)))) <|
    -- 118: amplitude+=-normFactor*preTU*s34s.v(ds3a)*a12a.v(ds2a)*(MZ*a23a.v(ds2b,ds3b)+s213a.v(ds2b,ds3b))/pDenS
    .set .c 0 (.add (.loc .c 0) (.div (.mul (.mul (.smul (.mul (.neg (.loc .r 0)) (.mem .r 7)) (.v 0 [.var 4])) (.v 3 [.var 2])) (.add (.smul (.mem .r 4) (.v 4 [.var 3, .var 5])) (.v 6 [.var 3, .var 5]))) (.mem .c 1))))) <|
  -- 122: return amplitude
  .ret .c (.loc .c 0)⟩

/-- `ldouble amp2()` (SM/nZZn.cpp:126-138); variables: r 0 `amp2`, c 0 `M`, i 0 `j2`, i 1 `j3` -/
def m_amp2 : Method := ⟨0, 
  -- 127: ldouble amp2
  .seq (.set .r 0 (.lit 0)) <|
  -- 128: cdouble M
  .seq (.set .c 0 (.ofR (.lit 0))) <|
  -- 131: for(int j2=-2;j2<=2;j2+=2)
  .seq (.loop 0 (-2) true (.lit 2) 2 (
    -- 132: for(int j3=-2;j3<=2;j3+=2)
    .loop 1 (-2) true (.lit 2) 2 (
      -- 133: M=amp(j2,j3)
      .seq (.set .c 0 (.call 0 [.var 0, .var 1])) <|
      -- 134: amp2+=std::pow(std::abs(M),2)
      .set .r 0 (.add (.loc .r 0) (.pow (.abs (.loc .c 0)) 2))))) <|
  -- 137: return amp2/3.0
  .ret .r (.div (.loc .r 0) (.lit 3))⟩

end nZZn

/-- `class nZZn` (SM/nZZn.cpp, SM/include/nZZn.h:25-36).  Members:
* ldouble: 0 `e`, 1 `MW`, 2 `SW`, 3 `CW`, 4 `MZ`, 5 `WZ`, 6 `sqrt2`, 7 `preTU`
* cdouble: 0 `pDenT`, 1 `pDenS`
* propagator: 0 `propne`
* sproduct: 0 `s34s`, 1 `s24s`, 2 `a13a`, 3 `a12a`, 4 `a23a`, 5 `s312a`, 6 `s213a` -/
def nZZn : Proc where
  name := "nZZn"
  nPar := 4
  ctor := nZZn.ctor
  setMasses := nZZn.setMasses
  massPar := [1]
  setMomenta := nZZn.setMomenta
  methods := [nZZn.m_amp2, nZZn.m_amp]
  amp2 := 1
  others := []

namespace nZnh

/-- constructor (SM/nZnh.cpp:32-47); parameters: 0 `echarge`, 1 `massh`, 2 `massW`, 3 `sinW`, 4 `widthZ` -/
def ctor : List SInstr := [
  -- 32: e(echarge)
  .set .r 0 (.loc .r 0),
  -- 32: mh(massh)
  .set .r 1 (.loc .r 1),
  -- 32: MW(massW)
  .set .r 2 (.loc .r 2),
  -- 32: SW(sinW)
  .set .r 3 (.loc .r 3),
  -- 32: CW(std::sqrt(1.0-sinW*sinW))
  .set .r 4 (.sqrt (.sub (.lit 1) (.mul (.loc .r 3) (.loc .r 3)))),
  -- 32: MZ(massW/CW)
  .set .r 5 (.div (.loc .r 2) (.mem .r 4)),
  -- 32: WZ(widthZ)
  .set .r 6 (.loc .r 4),
  -- 35: sqrt2=std::sqrt(two)
  .set .r 7 (.sqrt (.lit 2)),
  -- 36: MZ=MW/CW
  .set .r 5 (.div (.mem .r 2) (.mem .r 4)),
  -- 37: propZ=propagator(MZ,WZ)
  .prop 0 (.mem .r 5) (.mem .r 6),
  -- 38: p1=particle(0)
  .part 0 (.lit 0),
  -- 39: p2=particle(MZ)
  .part 1 (.mem .r 5),
  -- 40: p3=particle(0)
  .part 2 (.lit 0),
  -- 41: p4=particle(mh)
  .part 3 (.mem .r 1),
  -- 43: s23s=sproduct(SQUARE,&p2,&p3)
  .sprod 0 ⟨false, 1, true, [], 2, true⟩,
  -- 44: a12a=sproduct(ANGLE,&p1,&p2)
  .sprod 1 ⟨true, 0, true, [], 1, true⟩,
  -- 46: preZ=sqrt2*two*e*e/(4.0*CW*CW*SW*SW)
  .set .r 8 (.div (.mul (.mul (.mul (.mem .r 7) (.lit 2)) (.mem .r 0)) (.mem .r 0)) (.mul (.mul (.mul (.mul (.lit 4) (.mem .r 4)) (.mem .r 4)) (.mem .r 3)) (.mem .r 3)))]

/-- `set_masses` (SM/nZnh.cpp:48-55); parameters: 0 `massh`, 1 `massW` -/
def setMasses : List SInstr := [
  -- 49: mh=massh
  .set .r 1 (.loc .r 0),
  -- 50: MW=massW
  .set .r 2 (.loc .r 1),
  -- 51: MZ=MW/CW
  .set .r 5 (.div (.mem .r 2) (.mem .r 4)),
  -- 52: p2.set_mass(MZ)
  .setMass 1 (.mem .r 5),
  -- 53: p4.set_mass(mh)
  .setMass 3 (.mem .r 1),
  -- 54: propZ.set_mass(MZ)
  .propMass 0 (.mem .r 5)]

/-- `set_momenta` (SM/nZnh.cpp:56-70); parameters: 0 `mom1`, 1 `mom2`, 2 `mom3`, 3 `mom4` -/
def setMomenta : List SInstr := [
  -- 58: p1.set_momentum(mom1)
  .setMom 0 0,
  -- 59: p2.set_momentum(mom2)
  .setMom 1 1,
  -- 60: p3.set_momentum(mom3)
  .setMom 2 2,
  -- 61: p4.set_momentum(mom4)
  .setMom 3 3,
  -- 63: s23s.update()
  .update 0,
  -- 64: a12a.update()
  .update 1,
  -- 69: pDenT=propZ.denominator(propTP)
  .den .c 0 0 (.sub 0 2)]

/-- `cdouble amp(ds2)` (SM/nZnh.cpp:75-98); variables: i 0 `ds2`, c 0 `amplitude`, i 1 `ds2a`, i 2 `ds2b`, i 3 `nCombs`, r 0 `normFactor`, i 4 `i` -/
def m_amp : Method := ⟨1, 
  -- 76: cdouble amplitude
  .seq (.set .c 0 (.ofR (.lit 0))) <|
  -- 80: int nCombs
  .seq (.seti 3 (.loops [0])) <|
  -- 81: ldouble normFactor
  .seq (.set .r 0 (.norm [0])) <|
  -- 82: for(int i=0;i<nCombs;i++)
  .seq (.loop 4 0 false (.var 3) 1 (
    -- 83: get_spinor_spins(ds2,ds2a,ds2b,i)
    .seq (.spins [(0, 1, 2)] (.var 4)) <|
    -- 93: amplitude+=-normFactor*preZ*s23s.v(ds2a)*a12a.v(ds2b)/pDenT
    .set .c 0 (.add (.loc .c 0) (.div (.mul (.smul (.mul (.neg (.loc .r 0)) (.mem .r 8)) (.v 0 [.var 1])) (.v 1 [.var 2])) (.mem .c 0))))) <|
  -- 97: return amplitude
  .ret .c (.loc .c 0)⟩

/-- `ldouble amp2()` (SM/nZnh.cpp:101-112); variables: r 0 `amp2`, c 0 `M`, i 0 `j2` -/
def m_amp2 : Method := ⟨0, 
  -- 102: ldouble amp2
  .seq (.set .r 0 (.lit 0)) <|
  -- 103: cdouble M
  .seq (.set .c 0 (.ofR (.lit 0))) <|
  -- 106: for(int j2=-2;j2<=2;j2+=2)
  .seq (.loop 0 (-2) true (.lit 2) 2 (
    -- 107: M=amp(j2)
    .seq (.set .c 0 (.call 0 [.var 0])) <|
    -- 108: amp2+=std::pow(std::abs(M),2)
    .set .r 0 (.add (.loc .r 0) (.pow (.abs (.loc .c 0)) 2)))) <|
  -- 111: return amp2/3.0
  .ret .r (.div (.loc .r 0) (.lit 3))⟩

end nZnh

/-- `class nZnh` (SM/nZnh.cpp, SM/include/nZnh.h:25-34).  Members:
* ldouble: 0 `e`, 1 `mh`, 2 `MW`, 3 `SW`, 4 `CW`, 5 `MZ`, 6 `WZ`, 7 `sqrt2`, 8 `preZ`
* cdouble: 0 `pDenT`
* propagator: 0 `propZ`
* sproduct: 0 `s23s`, 1 `a12a` -/
def nZnh : Proc where
  name := "nZnh"
  nPar := 5
  ctor := nZnh.ctor
  setMasses := nZnh.setMasses
  massPar := [1, 2]
  setMomenta := nZnh.setMomenta
  methods := [nZnh.m_amp2, nZnh.m_amp]
  amp2 := 1
  others := []

namespace nenenene

/-- constructor (SM/nenenene.cpp:32-43); parameters: 0 `echarge`, 1 `massW`, 2 `sinW`, 3 `widthZ` -/
def ctor : List SInstr := [
  -- 32: e(echarge)
  .set .r 0 (.loc .r 0),
  -- 32: WZ(widthZ)
  .set .r 2 (.loc .r 3),
  -- 32: MW(massW)
  .set .r 3 (.loc .r 1),
  -- 32: SW(sinW)
  .set .r 4 (.loc .r 2),
  -- 32: CW(std::sqrt(1.0-sinW*sinW))
  .set .r 5 (.sqrt (.sub (.lit 1) (.mul (.loc .r 2) (.loc .r 2)))),
  -- 32: p1(particle(0))
  .part 0 (.lit 0),
  -- 32: p2(particle(0))
  .part 1 (.lit 0),
  -- 32: p3(particle(0))
  .part 2 (.lit 0),
  -- 32: p4(particle(0))
  .part 3 (.lit 0),
  -- 32: a14a(sproduct(ANGLE,&p1,&p4))
  .sprod 0 ⟨true, 0, true, [], 3, true⟩,
  -- 32: s23s(sproduct(SQUARE,&p2,&p3))
  .sprod 1 ⟨false, 1, true, [], 2, true⟩,
  -- 40: MZ=MW/CW
  .set .r 1 (.div (.mem .r 3) (.mem .r 5)),
  -- 41: propZ.set_mass(MZ)
  .propMass 0 (.mem .r 1),
  -- 42: preZ=e*e/(4.0*CW*CW*SW*SW)
  .set .r 6 (.div (.mul (.mem .r 0) (.mem .r 0)) (.mul (.mul (.mul (.mul (.lit 4) (.mem .r 5)) (.mem .r 5)) (.mem .r 4)) (.mem .r 4)))]

/-- `set_masses` (SM/nenenene.cpp:44-48); parameters: 0 `massW` -/
def setMasses : List SInstr := [
  -- 45: MW=massW
  .set .r 3 (.loc .r 0),
  -- 46: MZ=MW/CW
  .set .r 1 (.div (.mem .r 3) (.mem .r 5)),
  -- 47: propZ.set_mass(MZ)
  .propMass 0 (.mem .r 1)]

/-- `set_momenta` (SM/nenenene.cpp:49-65); parameters: 0 `mom1`, 1 `mom2`, 2 `mom3`, 3 `mom4` -/
def setMomenta : List SInstr := [
  -- 51: p1.set_momentum(mom1)
  .setMom 0 0,
  -- 52: p2.set_momentum(mom2)
  .setMom 1 1,
  -- 53: p3.set_momentum(mom3)
  .setMom 2 2,
  -- 54: p4.set_momentum(mom4)
  .setMom 3 3,
  -- 55: a14a.update()
  .update 0,
  -- 56: s23s.update()
  .update 1,
  -- 63: pDenSZ=propZ.denominator(propPS)
  .den .c 0 0 (.add 0 1),
  -- 64: pDenTZ=propZ.denominator(propPT)
  .den .c 1 0 (.sub 0 2)]

/-- `cdouble amp()` (SM/nenenene.cpp:70-85); variables: c 0 `amplitude` -/
def m_amp : Method := ⟨0, 
  -- 72: cdouble amplitude
  .seq (.set .c 0 (.ofR (.lit 0))) <|
  -- 82: amplitude+=-two*preZ*s23s.v()*a14a.v()*(one/pDenSZ+one/pDenTZ)
  .seq (.set .c 0 (.add (.loc .c 0) (.mul (.mul (.smul (.mul (.neg (.lit 2)) (.mem .r 6)) (.v 1 [])) (.v 0 [])) (.add (.div (.ofR (.lit 1)) (.mem .c 0)) (.div (.ofR (.lit 1)) (.mem .c 1)))))) <|
  -- 84: return amplitude
  .ret .c (.loc .c 0)⟩

/-- `ldouble amp2()` (SM/nenenene.cpp:88-96); variables: r 0 `amp2`, c 0 `M` -/
def m_amp2 : Method := ⟨0, 
  -- 89: ldouble amp2
  .seq (.set .r 0 (.lit 0)) <|
  -- 90: cdouble M
  .seq (.set .c 0 (.ofR (.lit 0))) <|
  -- 92: M=amp()
  .seq (.set .c 0 (.call 0 [])) <|
  -- 93: amp2=std::pow(std::abs(M),2)
  .seq (.set .r 0 (.pow (.abs (.loc .c 0)) 2)) <|
  -- 95: return amp2
  .ret .r (.loc .r 0)⟩

end nenenene

/-- `class nenenene` (SM/nenenene.cpp, SM/include/nenenene.h:25-32).  Members:
* ldouble: 0 `e`, 1 `MZ`, 2 `WZ`, 3 `MW`, 4 `SW`, 5 `CW`, 6 `preZ`
* cdouble: 0 `pDenSZ`, 1 `pDenTZ`
* propagator: 0 `propZ`
* sproduct: 0 `a14a`, 1 `s23s` -/
def nenenene : Proc where
  name := "nenenene"
  nPar := 4
  ctor := nenenene.ctor
  setMasses := nenenene.setMasses
  massPar := [1]
  setMomenta := nenenene.setMomenta
  methods := [nenenene.m_amp2, nenenene.m_amp]
  amp2 := 1
  others := []

namespace nenenene2

/-- constructor (SM/nenenene2.cpp:32-43); parameters: 0 `echarge`, 1 `massW`, 2 `sinW`, 3 `widthZ` -/
def ctor : List SInstr := [
  -- 32: e(echarge)
  .set .r 0 (.loc .r 0),
  -- 32: WZ(widthZ)
  .set .r 2 (.loc .r 3),
  -- 32: MW(massW)
  .set .r 3 (.loc .r 1),
  -- 32: SW(sinW)
  .set .r 4 (.loc .r 2),
  -- 32: CW(std::sqrt(1.0-sinW*sinW))
  .set .r 5 (.sqrt (.sub (.lit 1) (.mul (.loc .r 2) (.loc .r 2)))),
  -- 32: p1(particle(0))
  .part 0 (.lit 0),
  -- 32: p2(particle(0))
  .part 1 (.lit 0),
  -- 32: p3(particle(0))
  .part 2 (.lit 0),
  -- 32: p4(particle(0))
  .part 3 (.lit 0),
  -- 32: a12a(sproduct(ANGLE,&p1,&p2))
  .sprod 0 ⟨true, 0, true, [], 1, true⟩,
  -- 32: s34s(sproduct(SQUARE,&p3,&p4))
  .sprod 1 ⟨false, 2, true, [], 3, true⟩,
  -- 40: MZ=MW/CW
  .set .r 1 (.div (.mem .r 3) (.mem .r 5)),
  -- 41: propZ.set_mass(MZ)
  .propMass 0 (.mem .r 1),
  -- 42: preZ=e*e/(4.0*CW*CW*SW*SW)
  .set .r 6 (.div (.mul (.mem .r 0) (.mem .r 0)) (.mul (.mul (.mul (.mul (.lit 4) (.mem .r 5)) (.mem .r 5)) (.mem .r 4)) (.mem .r 4)))]

/-- `set_masses` (SM/nenenene2.cpp:44-48); parameters: 0 `massW` -/
def setMasses : List SInstr := [
  -- 45: MW=massW
  .set .r 3 (.loc .r 0),
  -- 46: MZ=MW/CW
  .set .r 1 (.div (.mem .r 3) (.mem .r 5)),
  -- 47: propZ.set_mass(MZ)
  .propMass 0 (.mem .r 1)]

/-- `set_momenta` (SM/nenenene2.cpp:49-65); parameters: 0 `mom1`, 1 `mom2`, 2 `mom3`, 3 `mom4` -/
def setMomenta : List SInstr := [
  -- 51: p1.set_momentum(mom1)
  .setMom 0 0,
  -- 52: p2.set_momentum(mom2)
  .setMom 1 1,
  -- 53: p3.set_momentum(mom3)
  .setMom 2 2,
  -- 54: p4.set_momentum(mom4)
  .setMom 3 3,
  -- 55: a12a.update()
  .update 0,
  -- 56: s34s.update()
  .update 1,
  -- 63: pDenUZ=propZ.denominator(propPU)
  .den .c 0 0 (.sub 0 3),
  -- 64: pDenTZ=propZ.denominator(propPT)
  .den .c 1 0 (.sub 0 2)]

/-- `cdouble amp()` (SM/nenenene2.cpp:70-86); variables: c 0 `amplitude` -/
def m_amp : Method := ⟨0, 
  -- 72: cdouble amplitude
  .seq (.set .c 0 (.ofR (.lit 0))) <|
  -- 83: amplitude+=-two*preZ*s34s.v()*a12a.v()*(one/pDenUZ+one/pDenTZ)
  .seq (.set .c 0 (.add (.loc .c 0) (.mul (.mul (.smul (.mul (.neg (.lit 2)) (.mem .r 6)) (.v 1 [])) (.v 0 [])) (.add (.div (.ofR (.lit 1)) (.mem .c 0)) (.div (.ofR (.lit 1)) (.mem .c 1)))))) <|
  -- 85: return amplitude
  .ret .c (.loc .c 0)⟩

/-- `ldouble amp2()` (SM/nenenene2.cpp:89-98); variables: r 0 `amp2`, c 0 `M` -/
def m_amp2 : Method := ⟨0, 
  -- 90: ldouble amp2
  .seq (.set .r 0 (.lit 0)) <|
  -- 91: cdouble M
  .seq (.set .c 0 (.ofR (.lit 0))) <|
  -- 93: M=amp()
  .seq (.set .c 0 (.call 0 [])) <|
  -- 94: amp2=std::pow(std::abs(M),2)
  .seq (.set .r 0 (.pow (.abs (.loc .c 0)) 2)) <|
  -- 97: return amp2/2.0
  .ret .r (.div (.loc .r 0) (.lit 2))⟩

end nenenene2

/-- `class nenenene2` (SM/nenenene2.cpp, SM/include/nenenene2.h:25-32).  Members:
* ldouble: 0 `e`, 1 `MZ`, 2 `WZ`, 3 `MW`, 4 `SW`, 5 `CW`, 6 `preZ`
* cdouble: 0 `pDenUZ`, 1 `pDenTZ`
* propagator: 0 `propZ`
* sproduct: 0 `a12a`, 1 `s34s` -/
def nenenene2 : Proc where
  name := "nenenene2"
  nPar := 4
  ctor := nenenene2.ctor
  setMasses := nenenene2.setMasses
  massPar := [1]
  setMomenta := nenenene2.setMomenta
  methods := [nenenene2.m_amp2, nenenene2.m_amp]
  amp2 := 1
  others := []

namespace nenenmnm

/-- constructor (SM/nenenmnm.cpp:32-43); parameters: 0 `echarge`, 1 `massW`, 2 `sinW`, 3 `widthZ` -/
def ctor : List SInstr := [
  -- 32: e(echarge)
  .set .r 0 (.loc .r 0),
  -- 32: WZ(widthZ)
  .set .r 2 (.loc .r 3),
  -- 32: MW(massW)
  .set .r 3 (.loc .r 1),
  -- 32: SW(sinW)
  .set .r 4 (.loc .r 2),
  -- 32: CW(std::sqrt(1.0-sinW*sinW))
  .set .r 5 (.sqrt (.sub (.lit 1) (.mul (.loc .r 2) (.loc .r 2)))),
  -- 32: p1(particle(0))
  .part 0 (.lit 0),
  -- 32: p2(particle(0))
  .part 1 (.lit 0),
  -- 32: p3(particle(0))
  .part 2 (.lit 0),
  -- 32: p4(particle(0))
  .part 3 (.lit 0),
  -- 32: a14a(sproduct(ANGLE,&p1,&p4))
  .sprod 0 ⟨true, 0, true, [], 3, true⟩,
  -- 32: s23s(sproduct(SQUARE,&p2,&p3))
  .sprod 1 ⟨false, 1, true, [], 2, true⟩,
  -- 40: MZ=MW/CW
  .set .r 1 (.div (.mem .r 3) (.mem .r 5)),
  -- 41: propZ.set_mass(MZ)
  .propMass 0 (.mem .r 1),
  -- 42: preZ=e*e/(4.0*CW*CW*SW*SW)
  .set .r 6 (.div (.mul (.mem .r 0) (.mem .r 0)) (.mul (.mul (.mul (.mul (.lit 4) (.mem .r 5)) (.mem .r 5)) (.mem .r 4)) (.mem .r 4)))]

/-- `set_masses` (SM/nenenmnm.cpp:44-48); parameters: 0 `massW` -/
def setMasses : List SInstr := [
  -- 45: MW=massW
  .set .r 3 (.loc .r 0),
  -- 46: MZ=MW/CW
  .set .r 1 (.div (.mem .r 3) (.mem .r 5)),
  -- 47: propZ.set_mass(MZ)
  .propMass 0 (.mem .r 1)]

/-- `set_momenta` (SM/nenenmnm.cpp:49-62); parameters: 0 `mom1`, 1 `mom2`, 2 `mom3`, 3 `mom4` -/
def setMomenta : List SInstr := [
  -- 51: p1.set_momentum(mom1)
  .setMom 0 0,
  -- 52: p2.set_momentum(mom2)
  .setMom 1 1,
  -- 53: p3.set_momentum(mom3)
  .setMom 2 2,
  -- 54: p4.set_momentum(mom4)
  .setMom 3 3,
  -- 55: a14a.update()
  .update 0,
  -- 56: s23s.update()
  .update 1,
  -- 61: pDenSZ=propZ.denominator(propP)
  .den .c 0 0 (.add 0 1)]

/-- `cdouble amp()` (SM/nenenmnm.cpp:67-81); variables:  -/
def m_amp : Method := ⟨0, 
  -- 80: return +two*preZ*s23s.v()*a14a.v()/pDenSZ
  .ret .c (.div (.mul (.smul (.mul (.lit 2) (.mem .r 6)) (.v 1 [])) (.v 0 [])) (.mem .c 0))⟩

/-- `ldouble amp2()` (SM/nenenmnm.cpp:84-92); variables: r 0 `amp2`, c 0 `M` -/
def m_amp2 : Method := ⟨0, 
  -- 85: ldouble amp2
  .seq (.set .r 0 (.lit 0)) <|
  -- 86: cdouble M
  .seq (.set .c 0 (.ofR (.lit 0))) <|
  -- 88: M=amp()
  .seq (.set .c 0 (.call 0 [])) <|
  -- 89: amp2=std::pow(std::abs(M),2)
  .seq (.set .r 0 (.pow (.abs (.loc .c 0)) 2)) <|
  -- 91: return amp2
  .ret .r (.loc .r 0)⟩

end nenenmnm

/-- `class nenenmnm` (SM/nenenmnm.cpp, SM/include/nenenmnm.h:25-32).  Members:
* ldouble: 0 `e`, 1 `MZ`, 2 `WZ`, 3 `MW`, 4 `SW`, 5 `CW`, 6 `preZ`
* cdouble: 0 `pDenSZ`
* propagator: 0 `propZ`
* sproduct: 0 `a14a`, 1 `s23s` -/
def nenenmnm : Proc where
  name := "nenenmnm"
  nPar := 4
  ctor := nenenmnm.ctor
  setMasses := nenenmnm.setMasses
  massPar := [1]
  setMomenta := nenenmnm.setMomenta
  methods := [nenenmnm.m_amp2, nenenmnm.m_amp]
  amp2 := 1
  others := []

namespace nenmnenm

/-- constructor (SM/nenmnenm.cpp:32-43); parameters: 0 `echarge`, 1 `massW`, 2 `sinW`, 3 `widthZ` -/
def ctor : List SInstr := [
  -- 32: e(echarge)
  .set .r 0 (.loc .r 0),
  -- 32: WZ(widthZ)
  .set .r 2 (.loc .r 3),
  -- 32: MW(massW)
  .set .r 3 (.loc .r 1),
  -- 32: SW(sinW)
  .set .r 4 (.loc .r 2),
  -- 32: CW(std::sqrt(1.0-sinW*sinW))
  .set .r 5 (.sqrt (.sub (.lit 1) (.mul (.loc .r 2) (.loc .r 2)))),
  -- 32: p1(particle(0))
  .part 0 (.lit 0),
  -- 32: p2(particle(0))
  .part 1 (.lit 0),
  -- 32: p3(particle(0))
  .part 2 (.lit 0),
  -- 32: p4(particle(0))
  .part 3 (.lit 0),
  -- 32: a12a(sproduct(ANGLE,&p1,&p2))
  .sprod 0 ⟨true, 0, true, [], 1, true⟩,
  -- 32: s34s(sproduct(SQUARE,&p3,&p4))
  .sprod 1 ⟨false, 2, true, [], 3, true⟩,
  -- 40: MZ=MW/CW
  .set .r 1 (.div (.mem .r 3) (.mem .r 5)),
  -- 41: propZ.set_mass(MZ)
  .propMass 0 (.mem .r 1),
  -- 42: preZ=e*e/(4.0*CW*CW*SW*SW)
  .set .r 6 (.div (.mul (.mem .r 0) (.mem .r 0)) (.mul (.mul (.mul (.mul (.lit 4) (.mem .r 5)) (.mem .r 5)) (.mem .r 4)) (.mem .r 4)))]

/-- `set_masses` (SM/nenmnenm.cpp:44-48); parameters: 0 `massW` -/
def setMasses : List SInstr := [
  -- 45: MW=massW
  .set .r 3 (.loc .r 0),
  -- 46: MZ=MW/CW
  .set .r 1 (.div (.mem .r 3) (.mem .r 5)),
  -- 47: propZ.set_mass(MZ)
  .propMass 0 (.mem .r 1)]

/-- `set_momenta` (SM/nenmnenm.cpp:49-62); parameters: 0 `mom1`, 1 `mom2`, 2 `mom3`, 3 `mom4` -/
def setMomenta : List SInstr := [
  -- 51: p1.set_momentum(mom1)
  .setMom 0 0,
  -- 52: p2.set_momentum(mom2)
  .setMom 1 1,
  -- 53: p3.set_momentum(mom3)
  .setMom 2 2,
  -- 54: p4.set_momentum(mom4)
  .setMom 3 3,
  -- 55: a12a.update()
  .update 0,
  -- 56: s34s.update()
  .update 1,
  -- 61: pDenTZ=propZ.denominator(propP)
  .den .c 0 0 (.sub 0 2)]

/-- `cdouble amp()` (SM/nenmnenm.cpp:67-82); variables:  -/
def m_amp : Method := ⟨0, 
  -- 81: return +two*preZ*s34s.v()*a12a.v()/pDenTZ
  .ret .c (.div (.mul (.smul (.mul (.lit 2) (.mem .r 6)) (.v 1 [])) (.v 0 [])) (.mem .c 0))⟩

/-- `ldouble amp2()` (SM/nenmnenm.cpp:85-93); variables: r 0 `amp2`, c 0 `M` -/
def m_amp2 : Method := ⟨0, 
  -- 86: ldouble amp2
  .seq (.set .r 0 (.lit 0)) <|
  -- 87: cdouble M
  .seq (.set .c 0 (.ofR (.lit 0))) <|
  -- 89: M=amp()
  .seq (.set .c 0 (.call 0 [])) <|
  -- 90: amp2=std::pow(std::abs(M),2)
  .seq (.set .r 0 (.pow (.abs (.loc .c 0)) 2)) <|
  -- 92: return amp2
  .ret .r (.loc .r 0)⟩

end nenmnenm

/-- `class nenmnenm` (SM/nenmnenm.cpp, SM/include/nenmnenm.h:25-32).  Members:
* ldouble: 0 `e`, 1 `MZ`, 2 `WZ`, 3 `MW`, 4 `SW`, 5 `CW`, 6 `preZ`
* cdouble: 0 `pDenTZ`
* propagator: 0 `propZ`
* sproduct: 0 `a12a`, 1 `s34s` -/
def nenmnenm : Proc where
  name := "nenmnenm"
  nPar := 4
  ctor := nenmnenm.ctor
  setMasses := nenmnenm.setMasses
  massPar := [1]
  setMomenta := nenmnenm.setMomenta
  methods := [nenmnenm.m_amp2, nenmnenm.m_amp]
  amp2 := 1
  others := []

namespace nnWW

/-- constructor (SM/nnWW.cpp:32-55); parameters: 0 `echarge`, 1 `masse`, 2 `massW`, 3 `sinW`, 4 `widthZ` -/
def ctor : List SInstr := [
  -- 32: e(echarge)
  .set .r 0 (.loc .r 0),
  -- 32: me(masse)
  .set .r 1 (.loc .r 1),
  -- 32: MW(massW)
  .set .r 2 (.loc .r 2),
  -- 32: SW(sinW)
  .set .r 3 (.loc .r 3),
  -- 32: CW(std::sqrt(1.0-sinW*sinW))
  .set .r 4 (.sqrt (.sub (.lit 1) (.mul (.loc .r 3) (.loc .r 3)))),
  -- 32: MZ(massW/CW)
  .set .r 5 (.div (.loc .r 2) (.mem .r 4)),
  -- 32: WZ(widthZ)
  .set .r 6 (.loc .r 4),
  -- 32: prope(0,0)
  .prop 0 (.lit 0) (.lit 0),
  -- 35: sqrt2=std::sqrt(two)
  .set .r 7 (.sqrt (.lit 2)),
  -- 36: MZ=MW/CW
  .set .r 5 (.div (.mem .r 2) (.mem .r 4)),
  -- 37: propZ=propagator(MZ,WZ)
  .prop 1 (.mem .r 5) (.mem .r 6),
  -- 38: p1=particle(0)
  .part 0 (.lit 0),
  -- 39: p2=particle(0)
  .part 1 (.lit 0),
  -- 40: p3=particle(MW)
  .part 2 (.mem .r 2),
  -- 41: p4=particle(MW)
  .part 3 (.mem .r 2),
  -- 43: s23s=sproduct(SQUARE,&p2,&p3)
  .sprod 0 ⟨false, 1, true, [], 2, true⟩,
  -- 44: a13a=sproduct(ANGLE,&p1,&p3)
  .sprod 1 ⟨true, 0, true, [], 2, true⟩,
  -- 45: s34s=sproduct(SQUARE,&p3,&p4)
  .sprod 2 ⟨false, 2, true, [], 3, true⟩,
  -- 46: a34a=sproduct(ANGLE,&p3,&p4)
  .sprod 3 ⟨true, 2, true, [], 3, true⟩,
  -- 47: s24s=sproduct(SQUARE,&p2,&p4)
  .sprod 4 ⟨false, 1, true, [], 3, true⟩,
  -- 48: a14a=sproduct(ANGLE,&p1,&p4)
  .sprod 5 ⟨true, 0, true, [], 3, true⟩,
  -- 50: s314a=sproduct(SQUARE,&p3,&p1,&p4)
  .sprod 6 ⟨false, 2, true, [0], 3, true⟩,
  -- 51: s231a=sproduct(SQUARE,&p2,&p3,&p1)
  .sprod 7 ⟨false, 1, true, [2], 0, true⟩,
  -- 53: pree=e*e/(MW*MW*SW*SW)
  .set .r 8 (.div (.mul (.mem .r 0) (.mem .r 0)) (.mul (.mul (.mul (.mem .r 2) (.mem .r 2)) (.mem .r 3)) (.mem .r 3))),
  -- 54: preZ=e*e/(MW*MW*SW*SW)
  .set .r 9 (.div (.mul (.mem .r 0) (.mem .r 0)) (.mul (.mul (.mul (.mem .r 2) (.mem .r 2)) (.mem .r 3)) (.mem .r 3)))]

/-- `set_masses` (SM/nnWW.cpp:56-67); parameters: 0 `masse`, 1 `massW` -/
def setMasses : List SInstr := [
  -- 57: me=masse
  .set .r 1 (.loc .r 0),
  -- 58: prope.set_mass(me)
  .propMass 0 (.mem .r 1),
  -- 59: MW=massW
  .set .r 2 (.loc .r 1),
  -- 60: MZ=MW/CW
  .set .r 5 (.div (.mem .r 2) (.mem .r 4)),
  -- 61: p3.set_mass(MW)
  .setMass 2 (.mem .r 2),
  -- 62: p4.set_mass(MW)
  .setMass 3 (.mem .r 2),
  -- 63: propZ.set_mass(MZ)
  .propMass 1 (.mem .r 5),
  -- 65: pree=e*e/(MW*MW*SW*SW)
  .set .r 8 (.div (.mul (.mem .r 0) (.mem .r 0)) (.mul (.mul (.mul (.mem .r 2) (.mem .r 2)) (.mem .r 3)) (.mem .r 3))),
  -- 66: preZ=e*e/(MW*MW*SW*SW)
  .set .r 9 (.div (.mul (.mem .r 0) (.mem .r 0)) (.mul (.mul (.mul (.mem .r 2) (.mem .r 2)) (.mem .r 3)) (.mem .r 3)))]

/-- `set_momenta` (SM/nnWW.cpp:68-92); parameters: 0 `mom1`, 1 `mom2`, 2 `mom3`, 3 `mom4` -/
def setMomenta : List SInstr := [
  -- 70: p1.set_momentum(mom1)
  .setMom 0 0,
  -- 71: p2.set_momentum(mom2)
  .setMom 1 1,
  -- 72: p3.set_momentum(mom3)
  .setMom 2 2,
  -- 73: p4.set_momentum(mom4)
  .setMom 3 3,
  -- 75: s23s.update()
  .update 0,
  -- 76: a13a.update()
  .update 1,
  -- 77: s34s.update()
  .update 2,
  -- 78: a34a.update()
  .update 3,
  -- 79: s24s.update()
  .update 4,
  -- 80: a14a.update()
  .update 5,
  -- 82: s314a.update()
  .update 6,
  -- 83: s231a.update()
  .update 7,
  -- 90: pDeneT=prope.denominator(propTP)
  .den .c 0 0 (.sub 0 2),
  -- 91: pDenZS=propZ.denominator(propSP)
  .den .c 1 1 (.add 0 1)]

/-- `cdouble amp(ds3,ds4)` (SM/nnWW.cpp:97-132); variables: i 0 `ds3`, i 1 `ds4`, c 0 `amplitude`, i 2 `ds3a`, i 3 `ds3b`, i 4 `ds4a`, i 5 `ds4b`, i 6 `nCombs`, r 0 `normFactor`, i 7 `i` -/
def m_amp : Method := ⟨2, 
  -- 98: cdouble amplitude
  .seq (.set .c 0 (.ofR (.lit 0))) <|
  -- 103: int nCombs
  .seq (.seti 6 (.loops [0, 1])) <|
  -- 104: ldouble normFactor
  .seq (.set .r 0 (.norm [0, 1])) <|
  -- 106: for(int i=0;i<nCombs;i++)
  .seq (.loop 7 0 false (.var 6) 1 (
    -- 107: get_spinor_spins(ds3,ds3a,ds3b,ds4,ds4a,ds4b,i)
    .seq (.spins [(0, 2, 3), (1, 4, 5)] (.var 7)) <|
    -- 115: amplitude+=-normFactor*pree*s24s.v(ds4a)*a13a.v(ds3a)*(MW*a34a.v(ds3b,ds4b)-s314a.v(ds3b,ds4b))/pDeneT
    .seq (.set .c 0 (.add (.loc .c 0) (.div (.mul (.mul (.smul (.mul (.neg (.loc .r 0)) (.mem .r 8)) (.v 4 [.var 4])) (.v 1 [.var 2])) (.sub (.smul (.mem .r 2) (.v 3 [.var 3, .var 5])) (.v 6 [.var 3, .var 5]))) (.mem .c 0)))) <|
    -- 124: amplitude+=-normFactor*preZ*(s34s.v(ds3a,ds4a)*a34a.v(ds3b,ds4b)*s231a.v()+MW*(s34s.v(ds3a,ds4a)+a34a.v(ds3a,ds4a))*(s23s.v(ds3b)*a14a.v(ds4b)+s24s.v(ds4b)*a13a.v(ds3b)))/pDenZS
    .set .c 0 (.add (.loc .c 0) (.div (.smul (.mul (.neg (.loc .r 0)) (.mem .r 9)) (.add (.mul (.mul (.v 2 [.var 2, .var 4]) (.v 3 [.var 3, .var 5])) (.v 7 [])) (.mul (.smul (.mem .r 2) (.add (.v 2 [.var 2, .var 4]) (.v 3 [.var 2, .var 4]))) (.add (.mul (.v 0 [.var 3]) (.v 5 [.var 5])) (.mul (.v 4 [.var 5]) (.v 1 [.var 3])))))) (.mem .c 1))))) <|
  -- 131: return amplitude
  .ret .c (.loc .c 0)⟩

/-- `ldouble amp2()` (SM/nnWW.cpp:135-147); variables: r 0 `amp2`, c 0 `M`, i 0 `j3`, i 1 `j4` -/
def m_amp2 : Method := ⟨0, 
  -- 136: ldouble amp2
  .seq (.set .r 0 (.lit 0)) <|
  -- 137: cdouble M
  .seq (.set .c 0 (.ofR (.lit 0))) <|
  -- 140: for(int j3=-2;j3<=2;j3+=2)
  .seq (.loop 0 (-2) true (.lit 2) 2 (
    -- 141: for(int j4=-2;j4<=2;j4+=2)
    .loop 1 (-2) true (.lit 2) 2 (
      -- 142: M=amp(j3,j4)
      .seq (.set .c 0 (.call 0 [.var 0, .var 1])) <|
      -- 143: amp2+=std::pow(std::abs(M),2)
      .set .r 0 (.add (.loc .r 0) (.pow (.abs (.loc .c 0)) 2))))) <|
  -- 146: return amp2
  .ret .r (.loc .r 0)⟩

end nnWW

/-- `class nnWW` (SM/nnWW.cpp, SM/include/nnWW.h:25-36).  Members:
* ldouble: 0 `e`, 1 `me`, 2 `MW`, 3 `SW`, 4 `CW`, 5 `MZ`, 6 `WZ`, 7 `sqrt2`, 8 `pree`, 9 `preZ`
* cdouble: 0 `pDeneT`, 1 `pDenZS`
* propagator: 0 `prope`, 1 `propZ`
* sproduct: 0 `s23s`, 1 `a13a`, 2 `s34s`, 3 `a34a`, 4 `s24s`, 5 `a14a`, 6 `s314a`, 7 `s231a` -/
def nnWW : Proc where
  name := "nnWW"
  nPar := 5
  ctor := nnWW.ctor
  setMasses := nnWW.setMasses
  massPar := [1, 2]
  setMomenta := nnWW.setMomenta
  methods := [nnWW.m_amp2, nnWW.m_amp]
  amp2 := 1
  others := []

namespace nnZZ

/-- constructor (SM/nnZZ.cpp:32-52); parameters: 0 `echarge`, 1 `massW`, 2 `sinW`, 3 `widthZ` -/
def ctor : List SInstr := [
  -- 32: e(echarge)
  .set .r 0 (.loc .r 0),
  -- 32: MW(massW)
  .set .r 1 (.loc .r 1),
  -- 32: SW(sinW)
  .set .r 2 (.loc .r 2),
  -- 32: CW(std::sqrt(1.0-sinW*sinW))
  .set .r 3 (.sqrt (.sub (.lit 1) (.mul (.loc .r 2) (.loc .r 2)))),
  -- 32: MZ(massW/CW)
  .set .r 4 (.div (.loc .r 1) (.mem .r 3)),
  -- 32: WZ(widthZ)
  .set .r 5 (.loc .r 3),
  -- 32: propne(0,0)
  .prop 0 (.lit 0) (.lit 0),
  -- 35: sqrt2=std::sqrt(two)
  .set .r 6 (.sqrt (.lit 2)),
  -- 36: MZ=MW/CW
  .set .r 4 (.div (.mem .r 1) (.mem .r 3)),
  -- 37: p1=particle(0)
  .part 0 (.lit 0),
  -- 38: p2=particle(0)
  .part 1 (.lit 0),
  -- 39: p3=particle(MZ)
  .part 2 (.mem .r 4),
  -- 40: p4=particle(MZ)
  .part 3 (.mem .r 4),
  -- 42: s23s=sproduct(SQUARE,&p2,&p3)
  .sprod 0 ⟨false, 1, true, [], 2, true⟩,
  -- 43: s24s=sproduct(SQUARE,&p2,&p4)
  .sprod 1 ⟨false, 1, true, [], 3, true⟩,
  -- 44: a13a=sproduct(ANGLE,&p1,&p3)
  .sprod 2 ⟨true, 0, true, [], 2, true⟩,
  -- 45: a14a=sproduct(ANGLE,&p1,&p4)
  .sprod 3 ⟨true, 0, true, [], 3, true⟩,
  -- 46: a34a=sproduct(ANGLE,&p3,&p4)
  .sprod 4 ⟨true, 2, true, [], 3, true⟩,
  -- 48: s314a=sproduct(SQUARE,&p3,&p1,&p4)
  .sprod 5 ⟨false, 2, true, [0], 3, true⟩,
  -- 49: s413a=sproduct(SQUARE,&p4,&p1,&p3)
  .sprod 6 ⟨false, 3, true, [0], 2, true⟩,
  -- 51: preTU=e*e/(2.0*MW*MW*SW*SW)
  .set .r 7 (.div (.mul (.mem .r 0) (.mem .r 0)) (.mul (.mul (.mul (.mul (.lit 2) (.mem .r 1)) (.mem .r 1)) (.mem .r 2)) (.mem .r 2)))]

/-- `set_masses` (SM/nnZZ.cpp:53-60); parameters: 0 `massW` -/
def setMasses : List SInstr := [
  -- 54: MW=massW
  .set .r 1 (.loc .r 0),
  -- 55: MZ=MW/CW
  .set .r 4 (.div (.mem .r 1) (.mem .r 3)),
  -- 56: p3.set_mass(MZ)
  .setMass 2 (.mem .r 4),
  -- 57: p4.set_mass(MZ)
  .setMass 3 (.mem .r 4),
  -- 59: preTU=e*e/(2.0*MW*MW*SW*SW)
  .set .r 7 (.div (.mul (.mem .r 0) (.mem .r 0)) (.mul (.mul (.mul (.mul (.lit 2) (.mem .r 1)) (.mem .r 1)) (.mem .r 2)) (.mem .r 2)))]

/-- `set_momenta` (SM/nnZZ.cpp:61-84); parameters: 0 `mom1`, 1 `mom2`, 2 `mom3`, 3 `mom4` -/
def setMomenta : List SInstr := [
  -- 63: p1.set_momentum(mom1)
  .setMom 0 0,
  -- 64: p2.set_momentum(mom2)
  .setMom 1 1,
  -- 65: p3.set_momentum(mom3)
  .setMom 2 2,
  -- 66: p4.set_momentum(mom4)
  .setMom 3 3,
  -- 68: s23s.update()
  .update 0,
  -- 69: s24s.update()
  .update 1,
  -- 70: a13a.update()
  .update 2,
  -- 71: a14a.update()
  .update 3,
  -- 72: a34a.update()
  .update 4,
  -- 74: s314a.update()
  .update 5,
  -- 75: s413a.update()
  .update 6,
  -- 82: pDenT=propne.denominator(propTP)
  .den .c 0 0 (.sub 0 2),
  -- 83: pDenU=propne.denominator(propUP)
  .den .c 1 0 (.sub 0 3)]

/-- `cdouble amp(ds3,ds4)` (SM/nnZZ.cpp:89-119); variables: i 0 `ds3`, i 1 `ds4`, c 0 `amplitude`, i 2 `ds3a`, i 3 `ds3b`, i 4 `ds4a`, i 5 `ds4b`, i 6 `nCombs`, r 0 `normFactor`, i 7 `i` -/
def m_amp : Method := ⟨2, 
  -- 90: cdouble amplitude
  .seq (.set .c 0 (.ofR (.lit 0))) <|
  -- 94: int nCombs
  .seq (.seti 6 (.loops [0, 1])) <|
  -- 95: ldouble normFactor
  .seq (.set .r 0 (.norm [0, 1])) <|
  -- 97: for(int i=0;i<nCombs;i++)
  .seq (.loop 7 0 false (.var 6) 1 (
    -- 98: get_spinor_spins(ds3,ds3a,ds3b,ds4,ds4a,ds4b,i)
    .seq (.spins [(0, 2, 3), (1, 4, 5)] (.var 7)) <|
    -- 106: amplitude+=normFactor*preTU*s24s.v(ds4a)*a13a.v(ds3a)*(MZ*a34a.v(ds3b,ds4b)-s314a.v(ds3b,ds4b))/pDenT
    .seq (.set .c 0 (.add (.loc .c 0) (.div (.mul (.mul (.smul (.mul (.loc .r 0) (.mem .r 7)) (.v 1 [.var 4])) (.v 2 [.var 2])) (.sub (.smul (.mem .r 4) (.v 4 [.var 3, .var 5])) (.v 5 [.var 3, .var 5]))) (.mem .c 0)))) <|
    -- 114: amplitude+=-normFactor*preTU*s23s.v(ds3a)*a14a.v(ds4a)*(MZ*a34a.v(ds3b,ds4b)+s413a.v(ds4b,ds3b))/pDenU
    .set .c 0 (.add (.loc .c 0) (.div (.mul (.mul (.smul (.mul (.neg (.loc .r 0)) (.mem .r 7)) (.v 0 [.var 2])) (.v 3 [.var 4])) (.add (.smul (.mem .r 4) (.v 4 [.var 3, .var 5])) (.v 6 [.var 5, .var 3]))) (.mem .c 1))))) <|
  -- 118: return amplitude
  .ret .c (.loc .c 0)⟩

/-- `ldouble amp2()` (SM/nnZZ.cpp:122-135); variables: r 0 `amp2`, c 0 `M`, i 0 `j3`, i 1 `j4` -/
def m_amp2 : Method := ⟨0, 
  -- 123: ldouble amp2
  .seq (.set .r 0 (.lit 0)) <|
  -- 124: cdouble M
  .seq (.set .c 0 (.ofR (.lit 0))) <|
  -- 127: for(int j3=-2;j3<=2;j3+=2)
  .seq (.loop 0 (-2) true (.lit 2) 2 (
    -- 128: for(int j4=-2;j4<=2;j4+=2)
    .loop 1 (-2) true (.lit 2) 2 (
      -- 129: M=amp(j3,j4)
      .seq (.set .c 0 (.call 0 [.var 0, .var 1])) <|
      -- 130: amp2+=std::pow(std::abs(M),2)
      .set .r 0 (.add (.loc .r 0) (.pow (.abs (.loc .c 0)) 2))))) <|
  -- 134: return amp2/2.0
  .ret .r (.div (.loc .r 0) (.lit 2))⟩

end nnZZ

/-- `class nnZZ` (SM/nnZZ.cpp, SM/include/nnZZ.h:25-36).  Members:
* ldouble: 0 `e`, 1 `MW`, 2 `SW`, 3 `CW`, 4 `MZ`, 5 `WZ`, 6 `sqrt2`, 7 `preTU`
* cdouble: 0 `pDenT`, 1 `pDenU`
* propagator: 0 `propne`
* sproduct: 0 `s23s`, 1 `s24s`, 2 `a13a`, 3 `a14a`, 4 `a34a`, 5 `s314a`, 6 `s413a` -/
def nnZZ : Proc where
  name := "nnZZ"
  nPar := 4
  ctor := nnZZ.ctor
  setMasses := nnZZ.setMasses
  massPar := [1]
  setMomenta := nnZZ.setMomenta
  methods := [nnZZ.m_amp2, nnZZ.m_amp]
  amp2 := 1
  others := []

namespace nnZh

/-- constructor (SM/nnZh.cpp:32-47); parameters: 0 `echarge`, 1 `massh`, 2 `massW`, 3 `sinW`, 4 `widthZ` -/
def ctor : List SInstr := [
  -- 32: e(echarge)
  .set .r 0 (.loc .r 0),
  -- 32: mh(massh)
  .set .r 1 (.loc .r 1),
  -- 32: MW(massW)
  .set .r 2 (.loc .r 2),
  -- 32: SW(sinW)
  .set .r 3 (.loc .r 3),
  -- 32: CW(std::sqrt(1.0-sinW*sinW))
  .set .r 4 (.sqrt (.sub (.lit 1) (.mul (.loc .r 3) (.loc .r 3)))),
  -- 32: MZ(massW/CW)
  .set .r 5 (.div (.loc .r 2) (.mem .r 4)),
  -- 32: WZ(widthZ)
  .set .r 6 (.loc .r 4),
  -- 35: sqrt2=std::sqrt(two)
  .set .r 7 (.sqrt (.lit 2)),
  -- 36: MZ=MW/CW
  .set .r 5 (.div (.mem .r 2) (.mem .r 4)),
  -- 37: propZ=propagator(MZ,WZ)
  .prop 0 (.mem .r 5) (.mem .r 6),
  -- 38: p1=particle(0)
  .part 0 (.lit 0),
  -- 39: p2=particle(0)
  .part 1 (.lit 0),
  -- 40: p3=particle(MZ)
  .part 2 (.mem .r 5),
  -- 41: p4=particle(mh)
  .part 3 (.mem .r 1),
  -- 43: s23s=sproduct(SQUARE,&p2,&p3)
  .sprod 0 ⟨false, 1, true, [], 2, true⟩,
  -- 44: a13a=sproduct(ANGLE,&p1,&p3)
  .sprod 1 ⟨true, 0, true, [], 2, true⟩,
  -- 46: preZ=e*e/(sqrt2*CW*CW*SW*SW)
  .set .r 8 (.div (.mul (.mem .r 0) (.mem .r 0)) (.mul (.mul (.mul (.mul (.mem .r 7) (.mem .r 4)) (.mem .r 4)) (.mem .r 3)) (.mem .r 3)))]

/-- `set_masses` (SM/nnZh.cpp:48-55); parameters: 0 `massh`, 1 `massW` -/
def setMasses : List SInstr := [
  -- 49: mh=massh
  .set .r 1 (.loc .r 0),
  -- 50: MW=massW
  .set .r 2 (.loc .r 1),
  -- 51: MZ=MW/CW
  .set .r 5 (.div (.mem .r 2) (.mem .r 4)),
  -- 52: p3.set_mass(MZ)
  .setMass 2 (.mem .r 5),
  -- 53: p4.set_mass(mh)
  .setMass 3 (.mem .r 1),
  -- 54: propZ.set_mass(MZ)
  .propMass 0 (.mem .r 5)]

/-- `set_momenta` (SM/nnZh.cpp:56-70); parameters: 0 `mom1`, 1 `mom2`, 2 `mom3`, 3 `mom4` -/
def setMomenta : List SInstr := [
  -- 58: p1.set_momentum(mom1)
  .setMom 0 0,
  -- 59: p2.set_momentum(mom2)
  .setMom 1 1,
  -- 60: p3.set_momentum(mom3)
  .setMom 2 2,
  -- 61: p4.set_momentum(mom4)
  .setMom 3 3,
  -- 63: s23s.update()
  .update 0,
  -- 64: a13a.update()
  .update 1,
  -- 69: pDenS=propZ.denominator(propSP)
  .den .c 0 0 (.add 0 1)]

/-- `cdouble amp(ds3)` (SM/nnZh.cpp:75-96); variables: i 0 `ds3`, c 0 `amplitude`, i 1 `ds3a`, i 2 `ds3b`, i 3 `nCombs`, r 0 `normFactor`, i 4 `i` -/
def m_amp : Method := ⟨1, 
  -- 76: cdouble amplitude
  .seq (.set .c 0 (.ofR (.lit 0))) <|
  -- 80: int nCombs
  .seq (.seti 3 (.loops [0])) <|
  -- 81: ldouble normFactor
  .seq (.set .r 0 (.norm [0])) <|
  -- 82: for(int i=0;i<nCombs;i++)
  .seq (.loop 4 0 false (.var 3) 1 (
    -- 83: get_spinor_spins(ds3,ds3a,ds3b,i)
    .seq (.spins [(0, 1, 2)] (.var 4)) <|
    -- 91: amplitude+=-normFactor*preZ*s23s.v(ds3a)*a13a.v(ds3b)/pDenS
    .set .c 0 (.add (.loc .c 0) (.div (.mul (.smul (.mul (.neg (.loc .r 0)) (.mem .r 8)) (.v 0 [.var 1])) (.v 1 [.var 2])) (.mem .c 0))))) <|
  -- 95: return amplitude
  .ret .c (.loc .c 0)⟩

/-- `ldouble amp2()` (SM/nnZh.cpp:99-110); variables: r 0 `amp2`, c 0 `M`, i 0 `j3` -/
def m_amp2 : Method := ⟨0, 
  -- 100: ldouble amp2
  .seq (.set .r 0 (.lit 0)) <|
  -- 101: cdouble M
  .seq (.set .c 0 (.ofR (.lit 0))) <|
  -- 104: for(int j3=-2;j3<=2;j3+=2)
  .seq (.loop 0 (-2) true (.lit 2) 2 (
    -- 105: M=amp(j3)
    .seq (.set .c 0 (.call 0 [.var 0])) <|
    -- 106: amp2+=std::pow(std::abs(M),2)
    .set .r 0 (.add (.loc .r 0) (.pow (.abs (.loc .c 0)) 2)))) <|
  -- 109: return amp2
  .ret .r (.loc .r 0)⟩

end nnZh

/-- `class nnZh` (SM/nnZh.cpp, SM/include/nnZh.h:25-34).  Members:
* ldouble: 0 `e`, 1 `mh`, 2 `MW`, 3 `SW`, 4 `CW`, 5 `MZ`, 6 `WZ`, 7 `sqrt2`, 8 `preZ`
* cdouble: 0 `pDenS`
* propagator: 0 `propZ`
* sproduct: 0 `s23s`, 1 `a13a` -/
def nnZh : Proc where
  name := "nnZh"
  nPar := 5
  ctor := nnZh.ctor
  setMasses := nnZh.setMasses
  massPar := [1, 2]
  setMomenta := nnZh.setMomenta
  methods := [nnZh.m_amp2, nnZh.m_amp]
  amp2 := 1
  others := []

end Spinas.SM.Cls
