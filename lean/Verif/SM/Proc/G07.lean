import Verif.SM.Lang

/-! Generated by tools/sm/translate.py from SM/*.cpp: enWh, enZW, enenee, enmenm, gAdd, gAuu, gWud, gZdd, gZuu, gdZd, ggdd, gggg. -/

namespace Spinas.SM.Cls

namespace enWh

/-- constructor (SM/enWh.cpp:32-47); parameters: 0 `echarge`, 1 `masse`, 2 `massh`, 3 `massW`, 4 `widthW`, 5 `sinW` -/
def ctor : List SInstr := [
  -- 32: e(echarge)
  .set .r 0 (.loc .r 0),
  -- 32: me(masse)
  .set .r 1 (.loc .r 1),
  -- 32: mh(massh)
  .set .r 2 (.loc .r 2),
  -- 32: MW(massW)
  .set .r 3 (.loc .r 3),
  -- 32: WW(widthW)
  .set .r 4 (.loc .r 4),
  -- 32: SW(sinW)
  .set .r 5 (.loc .r 5),
  -- 32: prope(masse,0)
  .prop 0 (.loc .r 1) (.lit 0),
  -- 32: propW(massW,widthW)
  .prop 1 (.loc .r 3) (.loc .r 4),
  -- 34: p1=particle(me)
  .part 0 (.mem .r 1),
  -- 35: p2=particle(0)
  .part 1 (.lit 0),
  -- 36: p3=particle(MW)
  .part 2 (.mem .r 3),
  -- 37: p4=particle(mh)
  .part 3 (.mem .r 2),
  -- 39: a23a=sproduct(ANGLE,&p2,&p3)
  .sprod 0 ⟨true, 1, true, [], 2, true⟩,
  -- 40: s13s=sproduct(SQUARE,&p1,&p3)
  .sprod 1 ⟨false, 0, true, [], 2, true⟩,
  -- 41: a12a=sproduct(ANGLE,&p1,&p2)
  .sprod 2 ⟨true, 0, true, [], 1, true⟩,
  -- 42: s343a=sproduct(SQUARE,&p3,&p4,&p3)
  .sprod 3 ⟨false, 2, true, [3], 2, true⟩,
  -- 43: s341a=sproduct(SQUARE,&p3,&p4,&p1)
  .sprod 4 ⟨false, 2, true, [3], 0, true⟩,
  -- 45: preW=e*e/(2.0*MW*MW*SW*SW)
  .set .r 7 (.div (.mul (.mem .r 0) (.mem .r 0)) (.mul (.mul (.mul (.mul (.lit 2) (.mem .r 3)) (.mem .r 3)) (.mem .r 5)) (.mem .r 5))),
  -- 46: pree=me*preW
  .set .r 6 (.mul (.mem .r 1) (.mem .r 7))]

/-- `set_masses` (SM/enWh.cpp:48-60); parameters: 0 `masse`, 1 `massh`, 2 `massW` -/
def setMasses : List SInstr := [
  -- 49: me=masse
  .set .r 1 (.loc .r 0),
  -- 50: mh=massh
  .set .r 2 (.loc .r 1),
  -- 51: MW=massW
  .set .r 3 (.loc .r 2),
  -- 52: p1.set_mass(me)
  .setMass 0 (.mem .r 1),
  -- 53: p3.set_mass(MW)
  .setMass 2 (.mem .r 3),
  -- 54: p4.set_mass(mh)
  .setMass 3 (.mem .r 2),
  -- 55: prope.set_mass(me)
  .propMass 0 (.mem .r 1),
  -- 56: propW.set_mass(MW)
  .propMass 1 (.mem .r 3),
  -- 58: preW=e*e/(2.0*MW*MW*SW*SW)
  .set .r 7 (.div (.mul (.mem .r 0) (.mem .r 0)) (.mul (.mul (.mul (.mul (.lit 2) (.mem .r 3)) (.mem .r 3)) (.mem .r 5)) (.mem .r 5))),
  -- 59: pree=me*preW
  .set .r 6 (.mul (.mem .r 1) (.mem .r 7))]

/-- `set_momenta` (SM/enWh.cpp:61-82); parameters: 0 `mom1`, 1 `mom2`, 2 `mom3`, 3 `mom4` -/
def setMomenta : List SInstr := [
  -- 63: p1.set_momentum(mom1)
  .setMom 0 0,
  -- 64: p2.set_momentum(mom2)
  .setMom 1 1,
  -- 65: p3.set_momentum(mom3)
  .setMom 2 2,
  -- 66: p4.set_momentum(mom4)
  .setMom 3 3,
  -- 68: a23a.update()
  .update 0,
  -- 69: s13s.update()
  .update 1,
  -- 70: a12a.update()
  .update 2,
  -- 71: s343a.update()
  .update 3,
  -- 72: s341a.update()
  .update 4,
  -- 80: pDenWS=propW.denominator(propSP)
  .den .c 0 1 (.add 0 1),
  -- 81: pDeneU=prope.denominator(propUP)
  .den .c 1 0 (.sub 0 3)]

/-- `cdouble amp(ds1,ds3)` (SM/enWh.cpp:87-118); variables: i 0 `ds1`, i 1 `ds3`, c 0 `amplitude`, i 2 `ds3a`, i 3 `ds3b`, i 4 `nCombs`, r 0 `normFactor`, i 5 `i` -/
def m_amp : Method := ⟨2, 
  -- 88: cdouble amplitude
  .seq (.set .c 0 (.ofR (.lit 0))) <|
  -- 93: int nCombs
  .seq (.seti 4 (.loops [1])) <|
  -- 94: ldouble normFactor
  .seq (.set .r 0 (.norm [1])) <|
  -- 96: for(int i=0;i<nCombs;i++)
  .seq (.loop 5 0 false (.var 4) 1 (
    -- 97: get_spinor_spins(ds3,ds3a,ds3b,i)
    .seq (.spins [(1, 2, 3)] (.var 5)) <|
    -- 105: amplitude+=normFactor*preW*(two*MW*MW*a23a.v(ds3a)*s13s.v(ds1,ds3b)+me*a12a.v(ds1)*s343a.v(ds3a,ds3b))/pDenWS
    .seq (.set .c 0 (.add (.loc .c 0) (.div (.smul (.mul (.loc .r 0) (.mem .r 7)) (.add (.mul (.smul (.mul (.mul (.lit 2) (.mem .r 3)) (.mem .r 3)) (.v 0 [.var 2])) (.v 1 [.var 0, .var 3])) (.mul (.smul (.mem .r 1) (.v 2 [.var 0])) (.v 3 [.var 2, .var 3])))) (.mem .c 0)))) <|
    -- 113: amplitude+=normFactor*pree*a23a.v(ds3a)*(two*me*s13s.v(ds1,ds3b)-s341a.v(ds3b,ds1))/pDeneU
    .set .c 0 (.add (.loc .c 0) (.div (.mul (.smul (.mul (.loc .r 0) (.mem .r 6)) (.v 0 [.var 2])) (.sub (.smul (.mul (.lit 2) (.mem .r 1)) (.v 1 [.var 0, .var 3])) (.v 4 [.var 3, .var 0]))) (.mem .c 1))))) <|
  -- 117: return amplitude
  .ret .c (.loc .c 0)⟩

/-- `ldouble amp2()` (SM/enWh.cpp:121-133); variables: r 0 `amp2`, c 0 `M`, i 0 `j1`, i 1 `j3` -/
def m_amp2 : Method := ⟨0, 
  -- 122: ldouble amp2
  .seq (.set .r 0 (.lit 0)) <|
  -- 123: cdouble M
  .seq (.set .c 0 (.ofR (.lit 0))) <|
  -- 126: for(int j1=-1;j1<=1;j1+=2)
  .seq (.loop 0 (-1) true (.lit 1) 2 (
    -- 127: for(int j3=-2;j3<=2;j3+=2)
    .loop 1 (-2) true (.lit 2) 2 (
      -- 128: M=amp(j1,j3)
      .seq (.set .c 0 (.call 0 [.var 0, .var 1])) <|
      -- 129: amp2+=std::pow(std::abs(M),2)
      .set .r 0 (.add (.loc .r 0) (.pow (.abs (.loc .c 0)) 2))))) <|
  -- 132: return amp2/2.0
  .ret .r (.div (.loc .r 0) (.lit 2))⟩

end enWh

/-- `class enWh` (SM/enWh.cpp, SM/include/enWh.h:25-32).  Members:
* ldouble: 0 `e`, 1 `me`, 2 `mh`, 3 `MW`, 4 `WW`, 5 `SW`, 6 `pree`, 7 `preW`
* cdouble: 0 `pDenWS`, 1 `pDeneU`
* propagator: 0 `prope`, 1 `propW`
* sproduct: 0 `a23a`, 1 `s13s`, 2 `a12a`, 3 `s343a`, 4 `s341a` -/
def enWh : Proc where
  name := "enWh"
  nPar := 6
  ctor := enWh.ctor
  setMasses := enWh.setMasses
  massPar := [1, 2, 3]
  setMomenta := enWh.setMomenta
  methods := [enWh.m_amp2, enWh.m_amp]
  amp2 := 1
  others := []

namespace enZW

/-- constructor (SM/enZW.cpp:32-65); parameters: 0 `echarge`, 1 `masse`, 2 `massW`, 3 `sinW`, 4 `widthW` -/
def ctor : List SInstr := [
  -- 32: e(echarge)
  .set .r 0 (.loc .r 0),
  -- 32: me(masse)
  .set .r 1 (.loc .r 1),
  -- 32: MW(massW)
  .set .r 2 (.loc .r 2),
  -- 32: SW(sinW)
  .set .r 4 (.loc .r 3),
  -- 32: WW(widthW)
  .set .r 6 (.loc .r 4),
  -- 35: CW=std::sqrt(1-SW*SW)
  .set .r 5 (.sqrt (.sub (.lit 1) (.mul (.mem .r 4) (.mem .r 4)))),
  -- 36: MZ=MW/CW
  .set .r 3 (.div (.mem .r 2) (.mem .r 5)),
  -- 37: propW=propagator(MW,WW)
  .prop 0 (.mem .r 2) (.mem .r 6),
  -- 38: prope=propagator(me,0)
  .prop 1 (.mem .r 1) (.lit 0),
  -- 39: propne=propagator(0,0)
  .prop 2 (.lit 0) (.lit 0),
  -- 40: p1=particle(me)
  .part 0 (.mem .r 1),
  -- 41: p2=particle(0)
  .part 1 (.lit 0),
  -- 42: p3=particle(MZ)
  .part 2 (.mem .r 3),
  -- 43: p4=particle(MW)
  .part 3 (.mem .r 2),
  -- 45: a34a=sproduct(ANGLE,&p3,&p4)
  .sprod 0 ⟨true, 2, true, [], 3, true⟩,
  -- 46: s34s=sproduct(SQUARE,&p3,&p4)
  .sprod 1 ⟨false, 2, true, [], 3, true⟩,
  -- 47: a23a=sproduct(ANGLE,&p2,&p3)
  .sprod 2 ⟨true, 1, true, [], 2, true⟩,
  -- 48: s14s=sproduct(SQUARE,&p1,&p4)
  .sprod 3 ⟨false, 0, true, [], 3, true⟩,
  -- 49: a24a=sproduct(ANGLE,&p2,&p4)
  .sprod 4 ⟨true, 1, true, [], 3, true⟩,
  -- 50: s13s=sproduct(SQUARE,&p1,&p3)
  .sprod 5 ⟨false, 0, true, [], 2, true⟩,
  -- 51: a12a=sproduct(ANGLE,&p1,&p2)
  .sprod 6 ⟨true, 0, true, [], 1, true⟩,
  -- 52: s132a=sproduct(SQUARE,&p1,&p3,&p2)
  .sprod 7 ⟨false, 0, true, [2], 1, true⟩,
  -- 54: a13a=sproduct(ANGLE,&p1,&p3)
  .sprod 8 ⟨true, 0, true, [], 2, true⟩,
  -- 55: s413a=sproduct(SQUARE,&p4,&p1,&p3)
  .sprod 9 ⟨false, 3, true, [0], 2, true⟩,
  -- 57: s314a=sproduct(SQUARE,&p3,&p1,&p4)
  .sprod 10 ⟨false, 2, true, [0], 3, true⟩,
  -- 59: preW=e*e/(std::sqrt(2.0)*MW*MW*MZ*MZ*SW*SW)
  .set .r 7 (.div (.mul (.mem .r 0) (.mem .r 0)) (.mul (.mul (.mul (.mul (.mul (.mul (.sqrt (.lit 2)) (.mem .r 2)) (.mem .r 2)) (.mem .r 3)) (.mem .r 3)) (.mem .r 4)) (.mem .r 4))),
  -- 60: pree=e*e/(std::sqrt(2.0)*MW*MW*SW*SW)
  .set .r 8 (.div (.mul (.mem .r 0) (.mem .r 0)) (.mul (.mul (.mul (.mul (.sqrt (.lit 2)) (.mem .r 2)) (.mem .r 2)) (.mem .r 4)) (.mem .r 4))),
  -- 61: pren=e*e/(std::sqrt(2.0)*MW*MW*SW*SW)
  .set .r 9 (.div (.mul (.mem .r 0) (.mem .r 0)) (.mul (.mul (.mul (.mul (.sqrt (.lit 2)) (.mem .r 2)) (.mem .r 2)) (.mem .r 4)) (.mem .r 4))),
  -- 63: gL=two*SW*SW-one
  .set .r 10 (.sub (.mul (.mul (.lit 2) (.mem .r 4)) (.mem .r 4)) (.lit 1)),
  -- 64: gR=two*SW*SW
  .set .r 11 (.mul (.mul (.lit 2) (.mem .r 4)) (.mem .r 4))]

/-- `set_masses` (SM/enZW.cpp:66-80); parameters: 0 `masse`, 1 `massW` -/
def setMasses : List SInstr := [
  -- 68: me=masse
  .set .r 1 (.loc .r 0),
  -- 69: MW=massW
  .set .r 2 (.loc .r 1),
  -- 70: MZ=MW/CW
  .set .r 3 (.div (.mem .r 2) (.mem .r 5)),
  -- 71: p1.set_mass(me)
  .setMass 0 (.mem .r 1),
  -- 72: p3.set_mass(MZ)
  .setMass 2 (.mem .r 3),
  -- 73: p4.set_mass(MW)
  .setMass 3 (.mem .r 2),
  -- 74: propW.set_mass(MW)
  .propMass 0 (.mem .r 2),
  -- 75: prope.set_mass(me)
  .propMass 1 (.mem .r 1),
  -- 77: preW=e*e/(std::sqrt(2.0)*MW*MW*MZ*MZ*SW*SW)
  .set .r 7 (.div (.mul (.mem .r 0) (.mem .r 0)) (.mul (.mul (.mul (.mul (.mul (.mul (.sqrt (.lit 2)) (.mem .r 2)) (.mem .r 2)) (.mem .r 3)) (.mem .r 3)) (.mem .r 4)) (.mem .r 4))),
  -- 78: pree=e*e/(std::sqrt(2.0)*MW*MW*SW*SW)
  .set .r 8 (.div (.mul (.mem .r 0) (.mem .r 0)) (.mul (.mul (.mul (.mul (.sqrt (.lit 2)) (.mem .r 2)) (.mem .r 2)) (.mem .r 4)) (.mem .r 4))),
  -- 79: pren=e*e/(std::sqrt(2.0)*MW*MW*SW*SW)
  .set .r 9 (.div (.mul (.mem .r 0) (.mem .r 0)) (.mul (.mul (.mul (.mul (.sqrt (.lit 2)) (.mem .r 2)) (.mem .r 2)) (.mem .r 4)) (.mem .r 4)))]

/-- `set_momenta` (SM/enZW.cpp:81-111); parameters: 0 `mom1`, 1 `mom2`, 2 `mom3`, 3 `mom4` -/
def setMomenta : List SInstr := [
  -- 83: p1.set_momentum(mom1)
  .setMom 0 0,
  -- 84: p2.set_momentum(mom2)
  .setMom 1 1,
  -- 85: p3.set_momentum(mom3)
  .setMom 2 2,
  -- 86: p4.set_momentum(mom4)
  .setMom 3 3,
  -- 88: a34a.update()
  .update 0,
  -- 89: s34s.update()
  .update 1,
  -- 90: a23a.update()
  .update 2,
  -- 91: s14s.update()
  .update 3,
  -- 92: a24a.update()
  .update 4,
  -- 93: s13s.update()
  .update 5,
  -- 94: a12a.update()
  .update 6,
  -- 95: s132a.update()
  .update 7,
  -- 97: a13a.update()
  .update 8,
  -- 98: s413a.update()
  .update 9,
  -- 100: s314a.update()
  .update 10,
  -- 108: pDenS=propW.denominator(propSP)
  .den .c 0 0 (.add 0 1),
  -- 109: pDenT=prope.denominator(propTP)
  .den .c 1 1 (.sub 0 2),
  -- 110: pDenU=propne.denominator(propUP)
  .den .c 2 2 (.sub 0 3)]

/-- `cdouble amp(ds1,ds3,ds4)` (SM/enZW.cpp:116-167); variables: i 0 `ds1`, i 1 `ds3`, i 2 `ds4`, c 0 `amplitude`, i 3 `ds3a`, i 4 `ds3b`, i 5 `ds4a`, i 6 `ds4b`, i 7 `nCombs`, r 0 `normFactor`, i 8 `i` -/
def m_amp : Method := ⟨3, 
  -- 117: cdouble amplitude
  .seq (.set .c 0 (.ofR (.lit 0))) <|
  -- 122: int nCombs
  .seq (.seti 7 (.loops [1, 2])) <|
  -- 123: ldouble normFactor
  .seq (.set .r 0 (.norm [1, 2])) <|
  -- 125: for(int i=0;i<nCombs;i++)
  .seq (.loop 8 0 false (.var 7) 1 (
    -- 126: get_spinor_spins(ds3,ds3a,ds3b,ds4,ds4a,ds4b,i)
    .seq (.spins [(1, 3, 4), (2, 5, 6)] (.var 8)) <|
    -- 135: amplitude+=normFactor*preW*(+two*(MZ*a34a.v(ds3b,ds4a)+MW*s34s.v(ds3b,ds4a))*MW*MW*a23a.v(ds3a)*s14s.v(ds1,ds4b)+two*(MW*a34a.v(ds3a,ds4b)+MZ*s34s.v(ds3a,ds4b))*MW*MW*a24a.v(ds4a)*s13s.v(ds1,ds3b)+((MZ*MZ-two*MW*MW)*me*a12a.v(ds1)+two*MW*MW*s132a.v(ds1))*a34a.v(ds3a,ds4a)*s34s.v(ds3b,ds4b))/pDenS
    .seq (.set .c 0 (.add (.loc .c 0) (.div (.smul (.mul (.loc .r 0) (.mem .r 7)) (.add (.add (.mul (.mul (.smul (.mem .r 2) (.smul (.mem .r 2) (.smul (.lit 2) (.add (.smul (.mem .r 3) (.v 0 [.var 4, .var 5])) (.smul (.mem .r 2) (.v 1 [.var 4, .var 5])))))) (.v 2 [.var 3])) (.v 3 [.var 0, .var 6])) (.mul (.mul (.smul (.mem .r 2) (.smul (.mem .r 2) (.smul (.lit 2) (.add (.smul (.mem .r 2) (.v 0 [.var 3, .var 6])) (.smul (.mem .r 3) (.v 1 [.var 3, .var 6])))))) (.v 4 [.var 5])) (.v 5 [.var 0, .var 4]))) (.mul (.mul (.add (.smul (.mul (.sub (.mul (.mem .r 3) (.mem .r 3)) (.mul (.mul (.lit 2) (.mem .r 2)) (.mem .r 2))) (.mem .r 1)) (.v 6 [.var 0])) (.smul (.mul (.mul (.lit 2) (.mem .r 2)) (.mem .r 2)) (.v 7 [.var 0]))) (.v 0 [.var 3, .var 5])) (.v 1 [.var 4, .var 6])))) (.mem .c 0)))) <|
    -- 148: amplitude+=normFactor*pree*a24a.v(ds4a)*(+gR*me*a13a.v(ds1,ds3b)*s34s.v(ds3a,ds4b)+gL*(-MZ*s34s.v(ds3b,ds4b)+s413a.v(ds4b,ds3b))*s13s.v(ds1,ds3a))/pDenT
    .seq (.set .c 0 (.add (.loc .c 0) (.div (.mul (.smul (.mul (.loc .r 0) (.mem .r 8)) (.v 4 [.var 5])) (.add (.mul (.smul (.mul (.mem .r 11) (.mem .r 1)) (.v 8 [.var 0, .var 4])) (.v 1 [.var 3, .var 6])) (.mul (.smul (.mem .r 10) (.add (.smul (.neg (.mem .r 3)) (.v 1 [.var 4, .var 6])) (.v 9 [.var 6, .var 4]))) (.v 5 [.var 0, .var 3])))) (.mem .c 1)))) <|
    -- 161: amplitude+=normFactor*pren*a23a.v(ds3a)*s14s.v(ds1,ds4a)*(MW*s34s.v(ds3b,ds4b)+s314a.v(ds3b,ds4b))/pDenU
    .set .c 0 (.add (.loc .c 0) (.div (.mul (.mul (.smul (.mul (.loc .r 0) (.mem .r 9)) (.v 2 [.var 3])) (.v 3 [.var 0, .var 5])) (.add (.smul (.mem .r 2) (.v 1 [.var 4, .var 6])) (.v 10 [.var 4, .var 6]))) (.mem .c 2))))) <|
  -- 166: return amplitude
  .ret .c (.loc .c 0)⟩

/-- `ldouble amp2()` (SM/enZW.cpp:170-183); variables: r 0 `amp2`, c 0 `M`, i 0 `j1`, i 1 `j3`, i 2 `j4` -/
def m_amp2 : Method := ⟨0, 
  -- 171: ldouble amp2
  .seq (.set .r 0 (.lit 0)) <|
  -- 172: cdouble M
  .seq (.set .c 0 (.ofR (.lit 0))) <|
  -- 175: for(int j1=-1;j1<=1;j1+=2)
  .seq (.loop 0 (-1) true (.lit 1) 2 (
    -- 176: for(int j3=-2;j3<=2;j3+=2)
    .loop 1 (-2) true (.lit 2) 2 (
      -- 177: for(int j4=-2;j4<=2;j4+=2)
      .loop 2 (-2) true (.lit 2) 2 (
        -- 178: M=amp(j1,j3,j4)
        .seq (.set .c 0 (.call 0 [.var 0, .var 1, .var 2])) <|
        -- 179: amp2+=std::pow(std::abs(M),2)
        .set .r 0 (.add (.loc .r 0) (.pow (.abs (.loc .c 0)) 2)))))) <|
  -- 182: return amp2/2.0
  .ret .r (.div (.loc .r 0) (.lit 2))⟩

end enZW

/-- `class enZW` (SM/enZW.cpp, SM/include/enZW.h:25-37).  Members:
* ldouble: 0 `e`, 1 `me`, 2 `MW`, 3 `MZ`, 4 `SW`, 5 `CW`, 6 `WW`, 7 `preW`, 8 `pree`, 9 `pren`, 10 `gL`, 11 `gR`
* cdouble: 0 `pDenS`, 1 `pDenT`, 2 `pDenU`
* propagator: 0 `propW`, 1 `prope`, 2 `propne`
* sproduct: 0 `a34a`, 1 `s34s`, 2 `a23a`, 3 `s14s`, 4 `a24a`, 5 `s13s`, 6 `a12a`, 7 `s132a`, 8 `a13a`, 9 `s413a`, 10 `s314a` -/
def enZW : Proc where
  name := "enZW"
  nPar := 5
  ctor := enZW.ctor
  setMasses := enZW.setMasses
  massPar := [1, 2]
  setMomenta := enZW.setMomenta
  methods := [enZW.m_amp2, enZW.m_amp]
  amp2 := 1
  others := []

namespace enenee

/-- constructor (SM/enenee.cpp:32-57); parameters: 0 `echarge`, 1 `masse`, 2 `massW`, 3 `widthW`, 4 `sinW`, 5 `widthZ` -/
def ctor : List SInstr := [
  -- 32: e(echarge)
  .set .r 0 (.loc .r 0),
  -- 32: me(masse)
  .set .r 1 (.loc .r 1),
  -- 32: WZ(widthZ)
  .set .r 3 (.loc .r 5),
  -- 32: MW(massW)
  .set .r 4 (.loc .r 2),
  -- 32: WW(widthW)
  .set .r 5 (.loc .r 3),
  -- 32: SW(sinW)
  .set .r 6 (.loc .r 4),
  -- 32: CW(std::sqrt(1.0-sinW*sinW))
  .set .r 7 (.sqrt (.sub (.lit 1) (.mul (.loc .r 4) (.loc .r 4)))),
  -- 32: p1(particle(me))
  .part 0 (.mem .r 1),
  -- 32: p2(particle(0))
  .part 1 (.lit 0),
  -- 32: p3(particle(0))
  .part 2 (.lit 0),
  -- 32: p4(particle(me))
  .part 3 (.mem .r 1),
  -- 32: propW(MW,WW)
  .prop 1 (.mem .r 4) (.mem .r 5),
  -- 32: a13a(sproduct(ANGLE,&p1,&p3))
  .sprod 0 ⟨true, 0, true, [], 2, true⟩,
  -- 32: s13s(sproduct(SQUARE,&p1,&p3))
  .sprod 1 ⟨false, 0, true, [], 2, true⟩,
  -- 32: a14a(sproduct(ANGLE,&p1,&p4))
  .sprod 2 ⟨true, 0, true, [], 3, true⟩,
  -- 32: s14s(sproduct(SQUARE,&p1,&p4))
  .sprod 3 ⟨false, 0, true, [], 3, true⟩,
  -- 32: a23a(sproduct(ANGLE,&p2,&p3))
  .sprod 4 ⟨true, 1, true, [], 2, true⟩,
  -- 32: s23s(sproduct(SQUARE,&p2,&p3))
  .sprod 5 ⟨false, 1, true, [], 2, true⟩,
  -- 32: a24a(sproduct(ANGLE,&p2,&p4))
  .sprod 6 ⟨true, 1, true, [], 3, true⟩,
  -- 32: s24s(sproduct(SQUARE,&p2,&p4))
  .sprod 7 ⟨false, 1, true, [], 3, true⟩,
  -- 32: s12s(sproduct(SQUARE,&p1,&p2))
  .sprod 8 ⟨false, 0, true, [], 1, true⟩,
  -- 32: a12a(sproduct(ANGLE,&p1,&p2))
  .sprod 9 ⟨true, 0, true, [], 1, true⟩,
  -- 32: s34s(sproduct(SQUARE,&p3,&p4))
  .sprod 10 ⟨false, 2, true, [], 3, true⟩,
  -- 32: a34a(sproduct(ANGLE,&p3,&p4))
  .sprod 11 ⟨true, 2, true, [], 3, true⟩,
  -- 51: MZ=MW/CW
  .set .r 2 (.div (.mem .r 4) (.mem .r 7)),
  -- 52: propZ.set_mass(MZ)
  .propMass 0 (.mem .r 2),
  -- 53: gL=2.0*SW*SW-1.0
  .set .r 8 (.sub (.mul (.mul (.lit 2) (.mem .r 6)) (.mem .r 6)) (.lit 1)),
  -- 54: gR=2.0*SW*SW
  .set .r 9 (.mul (.mul (.lit 2) (.mem .r 6)) (.mem .r 6)),
  -- 55: preZ=e*e/(4.0*CW*CW*SW*SW)
  .set .r 10 (.div (.mul (.mem .r 0) (.mem .r 0)) (.mul (.mul (.mul (.mul (.lit 4) (.mem .r 7)) (.mem .r 7)) (.mem .r 6)) (.mem .r 6))),
  -- 56: preW=e*e/SW/SW/(4.0*MW*MW)
  .set .r 11 (.div (.div (.div (.mul (.mem .r 0) (.mem .r 0)) (.mem .r 6)) (.mem .r 6)) (.mul (.mul (.lit 4) (.mem .r 4)) (.mem .r 4)))]

/-- `set_masses` (SM/enenee.cpp:58-67); parameters: 0 `masse`, 1 `massW` -/
def setMasses : List SInstr := [
  -- 59: me=masse
  .set .r 1 (.loc .r 0),
  -- 60: MW=massW
  .set .r 4 (.loc .r 1),
  -- 61: propW.set_mass(MW)
  .propMass 1 (.mem .r 4),
  -- 62: MZ=MW/CW
  .set .r 2 (.div (.mem .r 4) (.mem .r 7)),
  -- 63: propZ.set_mass(MZ)
  .propMass 0 (.mem .r 2),
  -- 64: p1.set_mass(me)
  .setMass 0 (.mem .r 1),
  -- 65: p4.set_mass(me)
  .setMass 3 (.mem .r 1),
  -- 66: preW=e*e/SW/SW/(4.0*MW*MW)
  .set .r 11 (.div (.div (.div (.mul (.mem .r 0) (.mem .r 0)) (.mem .r 6)) (.mem .r 6)) (.mul (.mul (.lit 4) (.mem .r 4)) (.mem .r 4)))]

/-- `set_momenta` (SM/enenee.cpp:68-94); parameters: 0 `mom1`, 1 `mom2`, 2 `mom3`, 3 `mom4` -/
def setMomenta : List SInstr := [
  -- 70: p1.set_momentum(mom1)
  .setMom 0 0,
  -- 71: p2.set_momentum(mom2)
  .setMom 1 1,
  -- 72: p3.set_momentum(mom3)
  .setMom 2 2,
  -- 73: p4.set_momentum(mom4)
  .setMom 3 3,
  -- 74: a13a.update()
  .update 0,
  -- 75: s13s.update()
  .update 1,
  -- 76: a14a.update()
  .update 2,
  -- 77: s14s.update()
  .update 3,
  -- 78: a23a.update()
  .update 4,
  -- 79: s23s.update()
  .update 5,
  -- 80: a24a.update()
  .update 6,
  -- 81: s24s.update()
  .update 7,
  -- 82: s12s.update()
  .update 8,
  -- 83: a12a.update()
  .update 9,
  -- 84: s34s.update()
  .update 10,
  -- 85: a34a.update()
  .update 11,
  -- 92: pDenUZ=propZ.denominator(propPU)
  .den .c 0 0 (.sub 0 3),
  -- 93: pDenTW=propW.denominator(propPT)
  .den .c 1 1 (.sub 0 2)]

/-- `cdouble amp(ds1,ds4)` (SM/enenee.cpp:99-133); variables: i 0 `ds1`, i 1 `ds4`, c 0 `amplitude` -/
def m_amp : Method := ⟨2, 
  -- 101: cdouble amplitude
  .seq (.set .c 0 (.ofR (.lit 0))) <|
  -- 114: amplitude=-two*preZ*(+gL*s34s.v(ds4)*a12a.v(ds1)-gR*s13s.v(ds1)*a24a.v(ds4))/pDenUZ
  .seq (.set .c 0 (.div (.smul (.mul (.neg (.lit 2)) (.mem .r 10)) (.sub (.mul (.smul (.mem .r 8) (.v 10 [.var 1])) (.v 9 [.var 0])) (.mul (.smul (.mem .r 9) (.v 1 [.var 0])) (.v 6 [.var 1])))) (.mem .c 0))) <|
  -- 127: amplitude+=-two*preW*(+2.0*MW*MW*s34s.v(ds4)*a12a.v(ds1)-me*me*s13s.v(ds1)*a24a.v(ds4))/pDenTW
  .seq (.set .c 0 (.add (.loc .c 0) (.div (.smul (.mul (.neg (.lit 2)) (.mem .r 11)) (.sub (.mul (.smul (.mul (.mul (.lit 2) (.mem .r 4)) (.mem .r 4)) (.v 10 [.var 1])) (.v 9 [.var 0])) (.mul (.smul (.mul (.mem .r 1) (.mem .r 1)) (.v 1 [.var 0])) (.v 6 [.var 1])))) (.mem .c 1)))) <|
  -- 132: return amplitude
  .ret .c (.loc .c 0)⟩

/-- `ldouble amp2()` (SM/enenee.cpp:136-148); variables: r 0 `amp2`, c 0 `M`, i 0 `j1`, i 1 `j2` -/
def m_amp2 : Method := ⟨0, 
  -- 137: ldouble amp2
  .seq (.set .r 0 (.lit 0)) <|
  -- 138: cdouble M
  .seq (.set .c 0 (.ofR (.lit 0))) <|
  -- 141: for(int j1=-1;j1<=1;j1+=2)
  .seq (.loop 0 (-1) true (.lit 1) 2 (
    -- 142: for(int j2=-1;j2<=1;j2+=2)
    .loop 1 (-1) true (.lit 1) 2 (
      -- 143: M=amp(j1,j2)
      .seq (.set .c 0 (.call 0 [.var 0, .var 1])) <|
      -- 144: amp2+=std::pow(std::abs(M),2)
      .set .r 0 (.add (.loc .r 0) (.pow (.abs (.loc .c 0)) 2))))) <|
  -- 147: return amp2/2.0
  .ret .r (.div (.loc .r 0) (.lit 2))⟩

end enenee

/-- `class enenee` (SM/enenee.cpp, SM/include/enenee.h:25-33).  Members:
* ldouble: 0 `e`, 1 `me`, 2 `MZ`, 3 `WZ`, 4 `MW`, 5 `WW`, 6 `SW`, 7 `CW`, 8 `gL`, 9 `gR`, 10 `preZ`, 11 `preW`
* cdouble: 0 `pDenUZ`, 1 `pDenTW`
* propagator: 0 `propZ`, 1 `propW`
* sproduct: 0 `a13a`, 1 `s13s`, 2 `a14a`, 3 `s14s`, 4 `a23a`, 5 `s23s`, 6 `a24a`, 7 `s24s`, 8 `s12s`, 9 `a12a`, 10 `s34s`, 11 `a34a` -/
def enenee : Proc where
  name := "enenee"
  nPar := 6
  ctor := enenee.ctor
  setMasses := enenee.setMasses
  massPar := [1, 2]
  setMomenta := enenee.setMomenta
  methods := [enenee.m_amp2, enenee.m_amp]
  amp2 := 1
  others := []

namespace enmenm

/-- constructor (SM/enmenm.cpp:32-55); parameters: 0 `echarge`, 1 `masse`, 2 `massW`, 3 `sinW`, 4 `widthZ` -/
def ctor : List SInstr := [
  -- 32: e(echarge)
  .set .r 0 (.loc .r 0),
  -- 32: me(masse)
  .set .r 1 (.loc .r 1),
  -- 32: WZ(widthZ)
  .set .r 3 (.loc .r 4),
  -- 32: MW(massW)
  .set .r 4 (.loc .r 2),
  -- 32: SW(sinW)
  .set .r 5 (.loc .r 3),
  -- 32: CW(std::sqrt(1.0-sinW*sinW))
  .set .r 6 (.sqrt (.sub (.lit 1) (.mul (.loc .r 3) (.loc .r 3)))),
  -- 32: p1(particle(me))
  .part 0 (.mem .r 1),
  -- 32: p2(particle(0))
  .part 1 (.lit 0),
  -- 32: p3(particle(me))
  .part 2 (.mem .r 1),
  -- 32: p4(particle(0))
  .part 3 (.lit 0),
  -- 32: a13a(sproduct(ANGLE,&p1,&p3))
  .sprod 0 ⟨true, 0, true, [], 2, true⟩,
  -- 32: s13s(sproduct(SQUARE,&p1,&p3))
  .sprod 1 ⟨false, 0, true, [], 2, true⟩,
  -- 32: a14a(sproduct(ANGLE,&p1,&p4))
  .sprod 2 ⟨true, 0, true, [], 3, true⟩,
  -- 32: s14s(sproduct(SQUARE,&p1,&p4))
  .sprod 3 ⟨false, 0, true, [], 3, true⟩,
  -- 32: a23a(sproduct(ANGLE,&p2,&p3))
  .sprod 4 ⟨true, 1, true, [], 2, true⟩,
  -- 32: s23s(sproduct(SQUARE,&p2,&p3))
  .sprod 5 ⟨false, 1, true, [], 2, true⟩,
  -- 32: a24a(sproduct(ANGLE,&p2,&p4))
  .sprod 6 ⟨true, 1, true, [], 3, true⟩,
  -- 32: s24s(sproduct(SQUARE,&p2,&p4))
  .sprod 7 ⟨false, 1, true, [], 3, true⟩,
  -- 32: s12s(sproduct(SQUARE,&p1,&p2))
  .sprod 8 ⟨false, 0, true, [], 1, true⟩,
  -- 32: a12a(sproduct(ANGLE,&p1,&p2))
  .sprod 9 ⟨true, 0, true, [], 1, true⟩,
  -- 32: s34s(sproduct(SQUARE,&p3,&p4))
  .sprod 10 ⟨false, 2, true, [], 3, true⟩,
  -- 32: a34a(sproduct(ANGLE,&p3,&p4))
  .sprod 11 ⟨true, 2, true, [], 3, true⟩,
  -- 50: MZ=MW/CW
  .set .r 2 (.div (.mem .r 4) (.mem .r 6)),
  -- 51: propZ.set_mass(MZ)
  .propMass 0 (.mem .r 2),
  -- 52: gL=2.0*SW*SW-1.0
  .set .r 7 (.sub (.mul (.mul (.lit 2) (.mem .r 5)) (.mem .r 5)) (.lit 1)),
  -- 53: gR=2.0*SW*SW
  .set .r 8 (.mul (.mul (.lit 2) (.mem .r 5)) (.mem .r 5)),
  -- 54: preZ=e*e/(4.0*CW*CW*SW*SW)
  .set .r 9 (.div (.mul (.mem .r 0) (.mem .r 0)) (.mul (.mul (.mul (.mul (.lit 4) (.mem .r 6)) (.mem .r 6)) (.mem .r 5)) (.mem .r 5)))]

/-- `set_masses` (SM/enmenm.cpp:56-63); parameters: 0 `masse`, 1 `massW` -/
def setMasses : List SInstr := [
  -- 57: me=masse
  .set .r 1 (.loc .r 0),
  -- 58: MW=massW
  .set .r 4 (.loc .r 1),
  -- 59: MZ=MW/CW
  .set .r 2 (.div (.mem .r 4) (.mem .r 6)),
  -- 60: propZ.set_mass(MZ)
  .propMass 0 (.mem .r 2),
  -- 61: p1.set_mass(me)
  .setMass 0 (.mem .r 1),
  -- 62: p3.set_mass(me)
  .setMass 2 (.mem .r 1)]

/-- `set_momenta` (SM/enmenm.cpp:64-87); parameters: 0 `mom1`, 1 `mom2`, 2 `mom3`, 3 `mom4` -/
def setMomenta : List SInstr := [
  -- 66: p1.set_momentum(mom1)
  .setMom 0 0,
  -- 67: p2.set_momentum(mom2)
  .setMom 1 1,
  -- 68: p3.set_momentum(mom3)
  .setMom 2 2,
  -- 69: p4.set_momentum(mom4)
  .setMom 3 3,
  -- 70: a13a.update()
  .update 0,
  -- 71: s13s.update()
  .update 1,
  -- 72: a14a.update()
  .update 2,
  -- 73: s14s.update()
  .update 3,
  -- 74: a23a.update()
  .update 4,
  -- 75: s23s.update()
  .update 5,
  -- 76: a24a.update()
  .update 6,
  -- 77: s24s.update()
  .update 7,
  -- 78: s12s.update()
  .update 8,
  -- 79: a12a.update()
  .update 9,
  -- 80: s34s.update()
  .update 10,
  -- 81: a34a.update()
  .update 11,
  -- 86: pDenTZ=propZ.denominator(propP)
  .den .c 0 0 (.sub 0 2)]

/-- `cdouble amp(ds1,ds3)` (SM/enmenm.cpp:92-107); variables: i 0 `ds1`, i 1 `ds3` -/
def m_amp : Method := ⟨2, 
  -- 106: return -two*preZ*(gL*s34s.v(ds3)*a12a.v(ds1)+gR*s14s.v(ds1)*a23a.v(ds3))/pDenTZ
  .ret .c (.div (.smul (.mul (.neg (.lit 2)) (.mem .r 9)) (.add (.mul (.smul (.mem .r 7) (.v 10 [.var 1])) (.v 9 [.var 0])) (.mul (.smul (.mem .r 8) (.v 3 [.var 0])) (.v 4 [.var 1])))) (.mem .c 0))⟩

/-- `ldouble amp2()` (SM/enmenm.cpp:110-122); variables: r 0 `amp2`, c 0 `M`, i 0 `j1`, i 1 `j3` -/
def m_amp2 : Method := ⟨0, 
  -- 111: ldouble amp2
  .seq (.set .r 0 (.lit 0)) <|
  -- 112: cdouble M
  .seq (.set .c 0 (.ofR (.lit 0))) <|
  -- 115: for(int j1=-1;j1<=1;j1+=2)
  .seq (.loop 0 (-1) true (.lit 1) 2 (
    -- 116: for(int j3=-1;j3<=1;j3+=2)
    .loop 1 (-1) true (.lit 1) 2 (
      -- 117: M=amp(j1,j3)
      .seq (.set .c 0 (.call 0 [.var 0, .var 1])) <|
      -- 118: amp2+=std::pow(std::abs(M),2)
      .set .r 0 (.add (.loc .r 0) (.pow (.abs (.loc .c 0)) 2))))) <|
  -- 121: return amp2/2.0
  .ret .r (.div (.loc .r 0) (.lit 2))⟩

end enmenm

/-- `class enmenm` (SM/enmenm.cpp, SM/include/enmenm.h:25-33).  Members:
* ldouble: 0 `e`, 1 `me`, 2 `MZ`, 3 `WZ`, 4 `MW`, 5 `SW`, 6 `CW`, 7 `gL`, 8 `gR`, 9 `preZ`
* cdouble: 0 `pDenTZ`
* propagator: 0 `propZ`
* sproduct: 0 `a13a`, 1 `s13s`, 2 `a14a`, 3 `s14s`, 4 `a23a`, 5 `s23s`, 6 `a24a`, 7 `s24s`, 8 `s12s`, 9 `a12a`, 10 `s34s`, 11 `a34a` -/
def enmenm : Proc where
  name := "enmenm"
  nPar := 5
  ctor := enmenm.ctor
  setMasses := enmenm.setMasses
  massPar := [1, 2]
  setMomenta := enmenm.setMomenta
  methods := [enmenm.m_amp2, enmenm.m_amp]
  amp2 := 1
  others := []

namespace gAdd

/-- constructor (SM/gAdd.cpp:32-54); parameters: 0 `echarge`, 1 `gscharge`, 2 `massd` -/
def ctor : List SInstr := [
  -- 32: e(echarge)
  .set .r 0 (.loc .r 0),
  -- 32: Qd(-1.0/3.0)
  .set .r 1 (.div (.neg (.lit 1)) (.lit 3)),
  -- 32: gs(gscharge)
  .set .r 2 (.loc .r 1),
  -- 32: md(massd)
  .set .r 3 (.loc .r 2),
  -- 32: prop(massd,0)
  .prop 0 (.loc .r 2) (.lit 0),
  -- 35: sqrt2=std::sqrt(two)
  .set .r 4 (.sqrt (.lit 2)),
  -- 36: p1=particle(0)
  .part 0 (.lit 0),
  -- 37: p2=particle(0)
  .part 1 (.lit 0),
  -- 38: p3=particle(md)
  .part 2 (.mem .r 3),
  -- 39: p4=particle(md)
  .part 3 (.mem .r 3),
  -- 40: s34s=sproduct(SQUARE,&p3,&p4)
  .sprod 0 ⟨false, 2, true, [], 3, true⟩,
  -- 41: a34a=sproduct(ANGLE,&p3,&p4)
  .sprod 1 ⟨true, 2, true, [], 3, true⟩,
  -- 42: s12s=sproduct(SQUARE,&p1,&p2)
  .sprod 2 ⟨false, 0, true, [], 1, true⟩,
  -- 43: a12a=sproduct(ANGLE,&p1,&p2)
  .sprod 3 ⟨true, 0, true, [], 1, true⟩,
  -- 44: s13s=sproduct(SQUARE,&p1,&p3)
  .sprod 4 ⟨false, 0, true, [], 2, true⟩,
  -- 45: a13a=sproduct(ANGLE,&p1,&p3)
  .sprod 5 ⟨true, 0, true, [], 2, true⟩,
  -- 46: s24s=sproduct(SQUARE,&p2,&p4)
  .sprod 6 ⟨false, 1, true, [], 3, true⟩,
  -- 47: a24a=sproduct(ANGLE,&p2,&p4)
  .sprod 7 ⟨true, 1, true, [], 3, true⟩,
  -- 48: s23s=sproduct(SQUARE,&p2,&p3)
  .sprod 8 ⟨false, 1, true, [], 2, true⟩,
  -- 49: a23a=sproduct(ANGLE,&p2,&p3)
  .sprod 9 ⟨true, 1, true, [], 2, true⟩,
  -- 50: s14s=sproduct(SQUARE,&p1,&p4)
  .sprod 10 ⟨false, 0, true, [], 3, true⟩,
  -- 51: a14a=sproduct(ANGLE,&p1,&p4)
  .sprod 11 ⟨true, 0, true, [], 3, true⟩,
  -- 52: s132a=sproduct(SQUARE,&p1,&p3,&p2)
  .sprod 12 ⟨false, 0, true, [2], 1, true⟩,
  -- 53: s231a=sproduct(SQUARE,&p2,&p3,&p1)
  .sprod 13 ⟨false, 1, true, [2], 0, true⟩]

/-- `set_masses` (SM/gAdd.cpp:55-60); parameters: 0 `massd` -/
def setMasses : List SInstr := [
  -- 56: md=massd
  .set .r 3 (.loc .r 0),
  -- 57: p3.set_mass(md)
  .setMass 2 (.mem .r 3),
  -- 58: p4.set_mass(md)
  .setMass 3 (.mem .r 3),
  -- 59: prop.set_mass(md)
  .propMass 0 (.mem .r 3)]

/-- `set_momenta` (SM/gAdd.cpp:61-90); parameters: 0 `mom1`, 1 `mom2`, 2 `mom3`, 3 `mom4` -/
def setMomenta : List SInstr := [
  -- 63: p1.set_momentum(mom1)
  .setMom 0 0,
  -- 64: p2.set_momentum(mom2)
  .setMom 1 1,
  -- 65: p3.set_momentum(mom3)
  .setMom 2 2,
  -- 66: p4.set_momentum(mom4)
  .setMom 3 3,
  -- 67: s34s.update()
  .update 0,
  -- 68: a34a.update()
  .update 1,
  -- 69: s12s.update()
  .update 2,
  -- 70: a12a.update()
  .update 3,
  -- 71: s13s.update()
  .update 4,
  -- 72: a13a.update()
  .update 5,
  -- 73: s24s.update()
  .update 6,
  -- 74: a24a.update()
  .update 7,
  -- 75: s23s.update()
  .update 8,
  -- 76: a23a.update()
  .update 9,
  -- 77: s14s.update()
  .update 10,
  -- 78: a14a.update()
  .update 11,
  -- 79: s132a.update()
  .update 12,
  -- 80: s231a.update()
  .update 13,
  -- 87: pDenT=prop.denominator(propTP)
  .den .c 0 0 (.sub 0 2),
  -- 88: pDenU=prop.denominator(propUP)
  .den .c 1 0 (.sub 0 3)]

/-- `cdouble amp(ds1,ds2,ds3,ds4)` (SM/gAdd.cpp:97-119); variables: i 0 `ds1`, i 1 `ds2`, i 2 `ds3`, i 3 `ds4` -/
def m_amp : Method := ⟨4, 
  -- 98: if(ds1>0&&ds2>0)
  .seq (.ite (.and (.lt (.lit 0) (.var 0)) (.lt (.lit 0) (.var 1))) (
    -- 101: return 2.0*e*Qd*gs*md*s12s.v()*s12s.v()*a34a.v(ds3,ds4)/pDenT/pDenU
    .ret .c (.div (.div (.mul (.mul (.smul (.mul (.mul (.mul (.mul (.lit 2) (.mem .r 0)) (.mem .r 1)) (.mem .r 2)) (.mem .r 3)) (.v 2 [])) (.v 2 [])) (.v 1 [.var 2, .var 3])) (.mem .c 0)) (.mem .c 1))) (
    -- 103: if(ds1<0&&ds2<0)
    .ite (.and (.lt (.var 0) (.lit 0)) (.lt (.var 1) (.lit 0))) (
      -- 106: return 2.0*e*Qd*gs*md*a12a.v()*a12a.v()*s34s.v(ds3,ds4)/pDenT/pDenU
      .ret .c (.div (.div (.mul (.mul (.smul (.mul (.mul (.mul (.mul (.lit 2) (.mem .r 0)) (.mem .r 1)) (.mem .r 2)) (.mem .r 3)) (.v 3 [])) (.v 3 [])) (.v 0 [.var 2, .var 3])) (.mem .c 0)) (.mem .c 1))) (
      -- 108: if(ds1>0&&ds2<0)
      .ite (.and (.lt (.lit 0) (.var 0)) (.lt (.var 1) (.lit 0))) (
        -- 111: return -2.0*e*Qd*gs*(s13s.v(ds3)*a24a.v(ds4)+s14s.v(ds4)*a23a.v(ds3))*s132a.v()/pDenT/pDenU
        .ret .c (.div (.div (.mul (.smul (.mul (.mul (.mul (.neg (.lit 2)) (.mem .r 0)) (.mem .r 1)) (.mem .r 2)) (.add (.mul (.v 4 [.var 2]) (.v 7 [.var 3])) (.mul (.v 10 [.var 3]) (.v 9 [.var 2])))) (.v 12 [])) (.mem .c 0)) (.mem .c 1))) (
        -- 113: if(ds1<0&&ds2>0)
        .ite (.and (.lt (.var 0) (.lit 0)) (.lt (.lit 0) (.var 1))) (
          -- 116: return -2.0*e*Qd*gs*(a13a.v(ds3)*s24s.v(ds4)+a14a.v(ds4)*s23s.v(ds3))*s231a.v()/pDenT/pDenU
          .ret .c (.div (.div (.mul (.smul (.mul (.mul (.mul (.neg (.lit 2)) (.mem .r 0)) (.mem .r 1)) (.mem .r 2)) (.add (.mul (.v 5 [.var 2]) (.v 6 [.var 3])) (.mul (.v 11 [.var 3]) (.v 8 [.var 2])))) (.v 13 [])) (.mem .c 0)) (.mem .c 1))) (
          .skip))))) <|
  -- 118: return cdouble(0,0)
  .ret .c (.ofR (.lit 0))⟩

/-- `ldouble amp2()` (SM/gAdd.cpp:123-138); variables: r 0 `amp2`, c 0 `M`, i 0 `j1`, i 1 `j2`, i 2 `j3`, i 3 `j4` -/
def m_amp2 : Method := ⟨0, 
  -- 124: ldouble amp2
  .seq (.set .r 0 (.lit 0)) <|
  -- 125: cdouble M
  .seq (.set .c 0 (.ofR (.lit 0))) <|
  -- 128: for(int j1=-2;j1<=2;j1+=4)
  .seq (.loop 0 (-2) true (.lit 2) 4 (
    -- 129: for(int j2=-2;j2<=2;j2+=4)
    .loop 1 (-2) true (.lit 2) 4 (
      -- 130: for(int j3=-1;j3<=1;j3+=2)
      .loop 2 (-1) true (.lit 1) 2 (
        -- 131: for(int j4=-1;j4<=1;j4+=2)
        .loop 3 (-1) true (.lit 1) 2 (
          -- 132: M=amp(j1,j2,j3,j4)
          .seq (.set .c 0 (.call 0 [.var 0, .var 1, .var 2, .var 3])) <|
          -- 133: amp2+=4.0*std::pow(std::abs(M),2)
          .set .r 0 (.add (.loc .r 0) (.mul (.lit 4) (.pow (.abs (.loc .c 0)) 2)))))))) <|
  -- 137: return amp2/32.0
  .ret .r (.div (.loc .r 0) (.lit 32))⟩

/-- `ldouble amp2_gplus_Aplus()` (SM/gAdd.cpp:141-153); variables: r 0 `amp2`, c 0 `M`, i 0 `j3`, i 1 `j4` -/
def m_amp2_gplus_Aplus : Method := ⟨0, 
  -- 142: ldouble amp2
  .seq (.set .r 0 (.lit 0)) <|
  -- 143: cdouble M
  .seq (.set .c 0 (.ofR (.lit 0))) <|
  -- 146: for(int j3=-1;j3<=1;j3+=2)
  .seq (.loop 0 (-1) true (.lit 1) 2 (
    -- 147: for(int j4=-1;j4<=1;j4+=2)
    .loop 1 (-1) true (.lit 1) 2 (
      -- 148: M=amp(2,2,j3,j4)
      .seq (.set .c 0 (.call 0 [.lit 2, .lit 2, .var 0, .var 1])) <|
      -- 149: amp2+=4.0*std::pow(std::abs(M),2)
      .set .r 0 (.add (.loc .r 0) (.mul (.lit 4) (.pow (.abs (.loc .c 0)) 2)))))) <|
  -- 152: return amp2/8.0
  .ret .r (.div (.loc .r 0) (.lit 8))⟩

/-- `ldouble amp2_gplus_Aminus()` (SM/gAdd.cpp:156-168); variables: r 0 `amp2`, c 0 `M`, i 0 `j3`, i 1 `j4` -/
def m_amp2_gplus_Aminus : Method := ⟨0, 
  -- 157: ldouble amp2
  .seq (.set .r 0 (.lit 0)) <|
  -- 158: cdouble M
  .seq (.set .c 0 (.ofR (.lit 0))) <|
  -- 161: for(int j3=-1;j3<=1;j3+=2)
  .seq (.loop 0 (-1) true (.lit 1) 2 (
    -- 162: for(int j4=-1;j4<=1;j4+=2)
    .loop 1 (-1) true (.lit 1) 2 (
      -- 163: M=amp(2,-2,j3,j4)
      .seq (.set .c 0 (.call 0 [.lit 2, .lit (-2), .var 0, .var 1])) <|
      -- 164: amp2+=4.0*std::pow(std::abs(M),2)
      .set .r 0 (.add (.loc .r 0) (.mul (.lit 4) (.pow (.abs (.loc .c 0)) 2)))))) <|
  -- 167: return amp2/8.0
  .ret .r (.div (.loc .r 0) (.lit 8))⟩

end gAdd

/-- `class gAdd` (SM/gAdd.cpp, SM/include/gAdd.h:25-32).  Members:
* ldouble: 0 `e`, 1 `Qd`, 2 `gs`, 3 `md`, 4 `sqrt2`
* cdouble: 0 `pDenT`, 1 `pDenU`
* propagator: 0 `prop`
* sproduct: 0 `s34s`, 1 `a34a`, 2 `s12s`, 3 `a12a`, 4 `s13s`, 5 `a13a`, 6 `s24s`, 7 `a24a`, 8 `s23s`, 9 `a23a`, 10 `s14s`, 11 `a14a`, 12 `s132a`, 13 `s231a` -/
def gAdd : Proc where
  name := "gAdd"
  nPar := 3
  ctor := gAdd.ctor
  setMasses := gAdd.setMasses
  massPar := [2]
  setMomenta := gAdd.setMomenta
  methods := [gAdd.m_amp2_gplus_Aminus, gAdd.m_amp2_gplus_Aplus, gAdd.m_amp2, gAdd.m_amp]
  amp2 := 1
  others := [("amp2_gplus_Aplus", 2), ("amp2_gplus_Aminus", 3)]

namespace gAuu

/-- constructor (SM/gAuu.cpp:32-54); parameters: 0 `echarge`, 1 `gscharge`, 2 `massu` -/
def ctor : List SInstr := [
  -- 32: e(echarge)
  .set .r 0 (.loc .r 0),
  -- 32: Qu(2.0/3.0)
  .set .r 1 (.div (.lit 2) (.lit 3)),
  -- 32: gs(gscharge)
  .set .r 2 (.loc .r 1),
  -- 32: mu(massu)
  .set .r 3 (.loc .r 2),
  -- 32: prop(massu,0)
  .prop 0 (.loc .r 2) (.lit 0),
  -- 35: sqrt2=std::sqrt(two)
  .set .r 4 (.sqrt (.lit 2)),
  -- 36: p1=particle(0)
  .part 0 (.lit 0),
  -- 37: p2=particle(0)
  .part 1 (.lit 0),
  -- 38: p3=particle(mu)
  .part 2 (.mem .r 3),
  -- 39: p4=particle(mu)
  .part 3 (.mem .r 3),
  -- 40: s34s=sproduct(SQUARE,&p3,&p4)
  .sprod 0 ⟨false, 2, true, [], 3, true⟩,
  -- 41: a34a=sproduct(ANGLE,&p3,&p4)
  .sprod 1 ⟨true, 2, true, [], 3, true⟩,
  -- 42: s12s=sproduct(SQUARE,&p1,&p2)
  .sprod 2 ⟨false, 0, true, [], 1, true⟩,
  -- 43: a12a=sproduct(ANGLE,&p1,&p2)
  .sprod 3 ⟨true, 0, true, [], 1, true⟩,
  -- 44: s13s=sproduct(SQUARE,&p1,&p3)
  .sprod 4 ⟨false, 0, true, [], 2, true⟩,
  -- 45: a13a=sproduct(ANGLE,&p1,&p3)
  .sprod 5 ⟨true, 0, true, [], 2, true⟩,
  -- 46: s24s=sproduct(SQUARE,&p2,&p4)
  .sprod 6 ⟨false, 1, true, [], 3, true⟩,
  -- 47: a24a=sproduct(ANGLE,&p2,&p4)
  .sprod 7 ⟨true, 1, true, [], 3, true⟩,
  -- 48: s23s=sproduct(SQUARE,&p2,&p3)
  .sprod 8 ⟨false, 1, true, [], 2, true⟩,
  -- 49: a23a=sproduct(ANGLE,&p2,&p3)
  .sprod 9 ⟨true, 1, true, [], 2, true⟩,
  -- 50: s14s=sproduct(SQUARE,&p1,&p4)
  .sprod 10 ⟨false, 0, true, [], 3, true⟩,
  -- 51: a14a=sproduct(ANGLE,&p1,&p4)
  .sprod 11 ⟨true, 0, true, [], 3, true⟩,
  -- 52: s132a=sproduct(SQUARE,&p1,&p3,&p2)
  .sprod 12 ⟨false, 0, true, [2], 1, true⟩,
  -- 53: s231a=sproduct(SQUARE,&p2,&p3,&p1)
  .sprod 13 ⟨false, 1, true, [2], 0, true⟩]

/-- `set_masses` (SM/gAuu.cpp:55-60); parameters: 0 `massu` -/
def setMasses : List SInstr := [
  -- 56: mu=massu
  .set .r 3 (.loc .r 0),
  -- 57: p3.set_mass(mu)
  .setMass 2 (.mem .r 3),
  -- 58: p4.set_mass(mu)
  .setMass 3 (.mem .r 3),
  -- 59: prop.set_mass(mu)
  .propMass 0 (.mem .r 3)]

/-- `set_momenta` (SM/gAuu.cpp:61-90); parameters: 0 `mom1`, 1 `mom2`, 2 `mom3`, 3 `mom4` -/
def setMomenta : List SInstr := [
  -- 63: p1.set_momentum(mom1)
  .setMom 0 0,
  -- 64: p2.set_momentum(mom2)
  .setMom 1 1,
  -- 65: p3.set_momentum(mom3)
  .setMom 2 2,
  -- 66: p4.set_momentum(mom4)
  .setMom 3 3,
  -- 67: s34s.update()
  .update 0,
  -- 68: a34a.update()
  .update 1,
  -- 69: s12s.update()
  .update 2,
  -- 70: a12a.update()
  .update 3,
  -- 71: s13s.update()
  .update 4,
  -- 72: a13a.update()
  .update 5,
  -- 73: s24s.update()
  .update 6,
  -- 74: a24a.update()
  .update 7,
  -- 75: s23s.update()
  .update 8,
  -- 76: a23a.update()
  .update 9,
  -- 77: s14s.update()
  .update 10,
  -- 78: a14a.update()
  .update 11,
  -- 79: s132a.update()
  .update 12,
  -- 80: s231a.update()
  .update 13,
  -- 87: pDenT=prop.denominator(propTP)
  .den .c 0 0 (.sub 0 2),
  -- 88: pDenU=prop.denominator(propUP)
  .den .c 1 0 (.sub 0 3)]

/-- `cdouble amp(ds1,ds2,ds3,ds4)` (SM/gAuu.cpp:97-119); variables: i 0 `ds1`, i 1 `ds2`, i 2 `ds3`, i 3 `ds4` -/
def m_amp : Method := ⟨4, 
  -- 98: if(ds1>0&&ds2>0)
  .seq (.ite (.and (.lt (.lit 0) (.var 0)) (.lt (.lit 0) (.var 1))) (
    -- 101: return 2.0*e*Qu*gs*mu*s12s.v()*s12s.v()*a34a.v(ds3,ds4)/pDenT/pDenU
    .ret .c (.div (.div (.mul (.mul (.smul (.mul (.mul (.mul (.mul (.lit 2) (.mem .r 0)) (.mem .r 1)) (.mem .r 2)) (.mem .r 3)) (.v 2 [])) (.v 2 [])) (.v 1 [.var 2, .var 3])) (.mem .c 0)) (.mem .c 1))) (
    -- 103: if(ds1<0&&ds2<0)
    .ite (.and (.lt (.var 0) (.lit 0)) (.lt (.var 1) (.lit 0))) (
      -- 106: return 2.0*e*Qu*gs*mu*a12a.v()*a12a.v()*s34s.v(ds3,ds4)/pDenT/pDenU
      .ret .c (.div (.div (.mul (.mul (.smul (.mul (.mul (.mul (.mul (.lit 2) (.mem .r 0)) (.mem .r 1)) (.mem .r 2)) (.mem .r 3)) (.v 3 [])) (.v 3 [])) (.v 0 [.var 2, .var 3])) (.mem .c 0)) (.mem .c 1))) (
      -- 108: if(ds1>0&&ds2<0)
      .ite (.and (.lt (.lit 0) (.var 0)) (.lt (.var 1) (.lit 0))) (
        -- 111: return -2.0*e*Qu*gs*(s13s.v(ds3)*a24a.v(ds4)+s14s.v(ds4)*a23a.v(ds3))*s132a.v()/pDenT/pDenU
        .ret .c (.div (.div (.mul (.smul (.mul (.mul (.mul (.neg (.lit 2)) (.mem .r 0)) (.mem .r 1)) (.mem .r 2)) (.add (.mul (.v 4 [.var 2]) (.v 7 [.var 3])) (.mul (.v 10 [.var 3]) (.v 9 [.var 2])))) (.v 12 [])) (.mem .c 0)) (.mem .c 1))) (
        -- 113: if(ds1<0&&ds2>0)
        .ite (.and (.lt (.var 0) (.lit 0)) (.lt (.lit 0) (.var 1))) (
          -- 116: return -2.0*e*Qu*gs*(a13a.v(ds3)*s24s.v(ds4)+a14a.v(ds4)*s23s.v(ds3))*s231a.v()/pDenT/pDenU
          .ret .c (.div (.div (.mul (.smul (.mul (.mul (.mul (.neg (.lit 2)) (.mem .r 0)) (.mem .r 1)) (.mem .r 2)) (.add (.mul (.v 5 [.var 2]) (.v 6 [.var 3])) (.mul (.v 11 [.var 3]) (.v 8 [.var 2])))) (.v 13 [])) (.mem .c 0)) (.mem .c 1))) (
          .skip))))) <|
  -- 118: return cdouble(0,0)
  .ret .c (.ofR (.lit 0))⟩

/-- `ldouble amp2()` (SM/gAuu.cpp:123-138); variables: r 0 `amp2`, c 0 `M`, i 0 `j1`, i 1 `j2`, i 2 `j3`, i 3 `j4` -/
def m_amp2 : Method := ⟨0, 
  -- 124: ldouble amp2
  .seq (.set .r 0 (.lit 0)) <|
  -- 125: cdouble M
  .seq (.set .c 0 (.ofR (.lit 0))) <|
  -- 128: for(int j1=-2;j1<=2;j1+=4)
  .seq (.loop 0 (-2) true (.lit 2) 4 (
    -- 129: for(int j2=-2;j2<=2;j2+=4)
    .loop 1 (-2) true (.lit 2) 4 (
      -- 130: for(int j3=-1;j3<=1;j3+=2)
      .loop 2 (-1) true (.lit 1) 2 (
        -- 131: for(int j4=-1;j4<=1;j4+=2)
        .loop 3 (-1) true (.lit 1) 2 (
          -- 132: M=amp(j1,j2,j3,j4)
          .seq (.set .c 0 (.call 0 [.var 0, .var 1, .var 2, .var 3])) <|
          -- 133: amp2+=4.0*std::pow(std::abs(M),2)
          .set .r 0 (.add (.loc .r 0) (.mul (.lit 4) (.pow (.abs (.loc .c 0)) 2)))))))) <|
  -- 137: return amp2/32.0
  .ret .r (.div (.loc .r 0) (.lit 32))⟩

/-- `ldouble amp2_gplus_Aplus()` (SM/gAuu.cpp:141-153); variables: r 0 `amp2`, c 0 `M`, i 0 `j3`, i 1 `j4` -/
def m_amp2_gplus_Aplus : Method := ⟨0, 
  -- 142: ldouble amp2
  .seq (.set .r 0 (.lit 0)) <|
  -- 143: cdouble M
  .seq (.set .c 0 (.ofR (.lit 0))) <|
  -- 146: for(int j3=-1;j3<=1;j3+=2)
  .seq (.loop 0 (-1) true (.lit 1) 2 (
    -- 147: for(int j4=-1;j4<=1;j4+=2)
    .loop 1 (-1) true (.lit 1) 2 (
      -- 148: M=amp(2,2,j3,j4)
      .seq (.set .c 0 (.call 0 [.lit 2, .lit 2, .var 0, .var 1])) <|
      -- 149: amp2+=4.0*std::pow(std::abs(M),2)
      .set .r 0 (.add (.loc .r 0) (.mul (.lit 4) (.pow (.abs (.loc .c 0)) 2)))))) <|
  -- 152: return amp2/8.0
  .ret .r (.div (.loc .r 0) (.lit 8))⟩

/-- `ldouble amp2_gplus_Aminus()` (SM/gAuu.cpp:156-168); variables: r 0 `amp2`, c 0 `M`, i 0 `j3`, i 1 `j4` -/
def m_amp2_gplus_Aminus : Method := ⟨0, 
  -- 157: ldouble amp2
  .seq (.set .r 0 (.lit 0)) <|
  -- 158: cdouble M
  .seq (.set .c 0 (.ofR (.lit 0))) <|
  -- 161: for(int j3=-1;j3<=1;j3+=2)
  .seq (.loop 0 (-1) true (.lit 1) 2 (
    -- 162: for(int j4=-1;j4<=1;j4+=2)
    .loop 1 (-1) true (.lit 1) 2 (
      -- 163: M=amp(2,-2,j3,j4)
      .seq (.set .c 0 (.call 0 [.lit 2, .lit (-2), .var 0, .var 1])) <|
      -- 164: amp2+=4.0*std::pow(std::abs(M),2)
      .set .r 0 (.add (.loc .r 0) (.mul (.lit 4) (.pow (.abs (.loc .c 0)) 2)))))) <|
  -- 167: return amp2/8.0
  .ret .r (.div (.loc .r 0) (.lit 8))⟩

end gAuu

/-- `class gAuu` (SM/gAuu.cpp, SM/include/gAuu.h:25-32).  Members:
* ldouble: 0 `e`, 1 `Qu`, 2 `gs`, 3 `mu`, 4 `sqrt2`
* cdouble: 0 `pDenT`, 1 `pDenU`
* propagator: 0 `prop`
* sproduct: 0 `s34s`, 1 `a34a`, 2 `s12s`, 3 `a12a`, 4 `s13s`, 5 `a13a`, 6 `s24s`, 7 `a24a`, 8 `s23s`, 9 `a23a`, 10 `s14s`, 11 `a14a`, 12 `s132a`, 13 `s231a` -/
def gAuu : Proc where
  name := "gAuu"
  nPar := 3
  ctor := gAuu.ctor
  setMasses := gAuu.setMasses
  massPar := [2]
  setMomenta := gAuu.setMomenta
  methods := [gAuu.m_amp2_gplus_Aminus, gAuu.m_amp2_gplus_Aplus, gAuu.m_amp2, gAuu.m_amp]
  amp2 := 1
  others := [("amp2_gplus_Aplus", 2), ("amp2_gplus_Aminus", 3)]

namespace gWud

/-- constructor (SM/gWud.cpp:32-55); parameters: 0 `echarge`, 1 `gscharge`, 2 `massu`, 3 `massd`, 4 `massW`, 5 `sinW` -/
def ctor : List SInstr := [
  -- 32: e(echarge)
  .set .r 0 (.loc .r 0),
  -- 32: gs(gscharge)
  .set .r 1 (.loc .r 1),
  -- 32: mu(massu)
  .set .r 2 (.loc .r 2),
  -- 32: md(massd)
  .set .r 3 (.loc .r 3),
  -- 32: MW(massW)
  .set .r 4 (.loc .r 4),
  -- 32: SW(sinW)
  .set .r 5 (.loc .r 5),
  -- 35: propu=propagator(mu,0)
  .prop 0 (.mem .r 2) (.lit 0),
  -- 36: propd=propagator(md,0)
  .prop 1 (.mem .r 3) (.lit 0),
  -- 37: p1=particle(0)
  .part 0 (.lit 0),
  -- 38: p2=particle(MW)
  .part 1 (.mem .r 4),
  -- 39: p3=particle(mu)
  .part 2 (.mem .r 2),
  -- 40: p4=particle(md)
  .part 3 (.mem .r 3),
  -- 42: s12s=sproduct(SQUARE,&p1,&p2)
  .sprod 0 ⟨false, 0, true, [], 1, true⟩,
  -- 43: s13s=sproduct(SQUARE,&p1,&p3)
  .sprod 1 ⟨false, 0, true, [], 2, true⟩,
  -- 44: a24a=sproduct(ANGLE,&p2,&p4)
  .sprod 2 ⟨true, 1, true, [], 3, true⟩,
  -- 45: s142a=sproduct(SQUARE,&p1,&p4,&p2)
  .sprod 3 ⟨false, 0, true, [3], 1, true⟩,
  -- 46: s143a=sproduct(SQUARE,&p1,&p4,&p3)
  .sprod 4 ⟨false, 0, true, [3], 2, true⟩,
  -- 48: a12a=sproduct(ANGLE,&p1,&p2)
  .sprod 5 ⟨true, 0, true, [], 1, true⟩,
  -- 49: a14a=sproduct(ANGLE,&p1,&p4)
  .sprod 6 ⟨true, 0, true, [], 3, true⟩,
  -- 50: s23s=sproduct(SQUARE,&p2,&p3)
  .sprod 7 ⟨false, 1, true, [], 2, true⟩,
  -- 51: s231a=sproduct(SQUARE,&p2,&p3,&p1)
  .sprod 8 ⟨false, 1, true, [2], 0, true⟩,
  -- 52: s431a=sproduct(SQUARE,&p4,&p3,&p1)
  .sprod 9 ⟨false, 3, true, [2], 0, true⟩,
  -- 54: pre=std::sqrt(2.0)*e*gs/(MW*SW)
  .set .r 6 (.div (.mul (.mul (.sqrt (.lit 2)) (.mem .r 0)) (.mem .r 1)) (.mul (.mem .r 4) (.mem .r 5)))]

/-- `set_masses` (SM/gWud.cpp:56-67); parameters: 0 `massu`, 1 `massd`, 2 `massW` -/
def setMasses : List SInstr := [
  -- 58: mu=massu
  .set .r 2 (.loc .r 0),
  -- 59: md=massd
  .set .r 3 (.loc .r 1),
  -- 60: MW=massW
  .set .r 4 (.loc .r 2),
  -- 61: p2.set_mass(MW)
  .setMass 1 (.mem .r 4),
  -- 62: p3.set_mass(mu)
  .setMass 2 (.mem .r 2),
  -- 63: p4.set_mass(md)
  .setMass 3 (.mem .r 3),
  -- 64: propu.set_mass(mu)
  .propMass 0 (.mem .r 2),
  -- 65: propd.set_mass(md)
  .propMass 1 (.mem .r 3),
  -- 66: pre=std::sqrt(2.0)*e*gs/(MW*SW)
  .set .r 6 (.div (.mul (.mul (.sqrt (.lit 2)) (.mem .r 0)) (.mem .r 1)) (.mul (.mem .r 4) (.mem .r 5)))]

/-- `set_momenta` (SM/gWud.cpp:68-96); parameters: 0 `mom1`, 1 `mom2`, 2 `mom3`, 3 `mom4` -/
def setMomenta : List SInstr := [
  -- 71: p1.set_momentum(mom1)
  .setMom 0 0,
  -- 72: p2.set_momentum(mom2)
  .setMom 1 1,
  -- 73: p3.set_momentum(mom3)
  .setMom 2 2,
  -- 74: p4.set_momentum(mom4)
  .setMom 3 3,
  -- 76: s12s.update()
  .update 0,
  -- 77: s13s.update()
  .update 1,
  -- 78: a24a.update()
  .update 2,
  -- 79: s142a.update()
  .update 3,
  -- 80: s143a.update()
  .update 4,
  -- 82: a12a.update()
  .update 5,
  -- 83: a14a.update()
  .update 6,
  -- 84: s23s.update()
  .update 7,
  -- 85: s231a.update()
  .update 8,
  -- 86: s431a.update()
  .update 9,
  -- 94: pDenT=propu.denominator(propTP)
  .den .c 1 0 (.sub 0 2),
  -- 95: pDenU=propd.denominator(propUP)
  .den .c 2 1 (.sub 0 3)]

/-- `cdouble amp(ds1,ds2,ds3,ds4)` (SM/gWud.cpp:101-131); variables: i 0 `ds1`, i 1 `ds2`, i 2 `ds3`, i 3 `ds4`, c 0 `amplitude`, i 4 `ds2a`, i 5 `ds2b`, i 6 `nCombs`, r 0 `normFactor`, i 7 `i` -/
def m_amp : Method := ⟨4, 
  -- 103: cdouble amplitude
  .seq (.set .c 0 (.ofR (.lit 0))) <|
  -- 107: int nCombs
  .seq (.seti 6 (.loops [1])) <|
  -- 108: ldouble normFactor
  .seq (.set .r 0 (.norm [1])) <|
  -- 110: for(int i=0;i<nCombs;i++)
  .seq (.loop 7 0 false (.var 6) 1 (
    -- 111: get_spinor_spins(ds2,ds2a,ds2b,i)
    .seq (.spins [(1, 4, 5)] (.var 7)) <|
    -- 113: if(ds1>0)
    .ite (.lt (.lit 0) (.var 0)) (
      -- 118: amplitude+=normFactor*pre*a24a.v(ds2a,ds4)*(MW*s13s.v(ds3)*s142a.v(ds2b)+s12s.v(ds2b)*(md*md*s13s.v(ds3)-mu*s143a.v(ds3)))/pDenT/pDenU
      .set .c 0 (.add (.loc .c 0) (.div (.div (.mul (.smul (.mul (.loc .r 0) (.mem .r 6)) (.v 2 [.var 4, .var 3])) (.add (.mul (.smul (.mem .r 4) (.v 1 [.var 2])) (.v 3 [.var 5])) (.mul (.v 0 [.var 5]) (.sub (.smul (.mul (.mem .r 3) (.mem .r 3)) (.v 1 [.var 2])) (.smul (.mem .r 2) (.v 4 [.var 2])))))) (.mem .c 1)) (.mem .c 2)))) (
      -- 121: if(ds1<0)
      .ite (.lt (.var 0) (.lit 0)) (
        -- 124: amplitude+=normFactor*pre*s23s.v(ds2a,ds3)*(-MW*a14a.v(ds4)*s231a.v(ds2b)+a12a.v(ds2b)*(-mu*mu*a14a.v(ds4)+md*s431a.v(ds4)))/pDenT/pDenU
        .set .c 0 (.add (.loc .c 0) (.div (.div (.mul (.smul (.mul (.loc .r 0) (.mem .r 6)) (.v 7 [.var 4, .var 2])) (.add (.mul (.smul (.neg (.mem .r 4)) (.v 6 [.var 3])) (.v 8 [.var 5])) (.mul (.v 5 [.var 5]) (.add (.smul (.mul (.neg (.mem .r 2)) (.mem .r 2)) (.v 6 [.var 3])) (.smul (.mem .r 3) (.v 9 [.var 3])))))) (.mem .c 1)) (.mem .c 2)))) (
        .skip)))) <|
  -- 130: return amplitude
  .ret .c (.loc .c 0)⟩

/-- `ldouble amp2()` (SM/gWud.cpp:134-151); variables: r 0 `amp2`, c 0 `M`, i 0 `j1`, i 1 `j2`, i 2 `j3`, i 3 `j4` -/
def m_amp2 : Method := ⟨0, 
  -- 136: ldouble amp2
  .seq (.set .r 0 (.lit 0)) <|
  -- 137: cdouble M
  .seq (.set .c 0 (.ofR (.lit 0))) <|
  -- 140: for(int j1=-2;j1<=2;j1+=4)
  .seq (.loop 0 (-2) true (.lit 2) 4 (
    -- 141: for(int j2=-2;j2<=2;j2+=2)
    .loop 1 (-2) true (.lit 2) 2 (
      -- 142: for(int j3=-1;j3<=1;j3+=2)
      .loop 2 (-1) true (.lit 1) 2 (
        -- 143: for(int j4=-1;j4<=1;j4+=2)
        .loop 3 (-1) true (.lit 1) 2 (
          -- 144: M=amp(j1,j2,j3,j4)
          .seq (.set .c 0 (.call 0 [.var 0, .var 1, .var 2, .var 3])) <|
          -- 146: amp2+=four*std::pow(std::abs(M),2)
          .set .r 0 (.add (.loc .r 0) (.mul (.lit 4) (.pow (.abs (.loc .c 0)) 2)))))))) <|
  -- 150: return amp2/48.0
  .ret .r (.div (.loc .r 0) (.lit 48))⟩

/-- `ldouble amp2_gplus()` (SM/gWud.cpp:154-170); variables: r 0 `amp2`, c 0 `M`, i 0 `j2`, i 1 `j3`, i 2 `j4` -/
def m_amp2_gplus : Method := ⟨0, 
  -- 156: ldouble amp2
  .seq (.set .r 0 (.lit 0)) <|
  -- 157: cdouble M
  .seq (.set .c 0 (.ofR (.lit 0))) <|
  -- 160: for(int j2=-2;j2<=2;j2+=2)
  .seq (.loop 0 (-2) true (.lit 2) 2 (
    -- 161: for(int j3=-1;j3<=1;j3+=2)
    .loop 1 (-1) true (.lit 1) 2 (
      -- 162: for(int j4=-1;j4<=1;j4+=2)
      .loop 2 (-1) true (.lit 1) 2 (
        -- 163: M=amp(1,j2,j3,j4)
        .seq (.set .c 0 (.call 0 [.lit 1, .var 0, .var 1, .var 2])) <|
        -- 165: amp2+=four*std::pow(std::abs(M),2)
        .set .r 0 (.add (.loc .r 0) (.mul (.lit 4) (.pow (.abs (.loc .c 0)) 2))))))) <|
  -- 169: return amp2/24.0
  .ret .r (.div (.loc .r 0) (.lit 24))⟩

end gWud

/-- `class gWud` (SM/gWud.cpp, SM/include/gWud.h:25-34).  Members:
* ldouble: 0 `e`, 1 `gs`, 2 `mu`, 3 `md`, 4 `MW`, 5 `SW`, 6 `pre`
* cdouble: 0 `pDenS`, 1 `pDenT`, 2 `pDenU`
* propagator: 0 `propu`, 1 `propd`
* sproduct: 0 `s12s`, 1 `s13s`, 2 `a24a`, 3 `s142a`, 4 `s143a`, 5 `a12a`, 6 `a14a`, 7 `s23s`, 8 `s231a`, 9 `s431a` -/
def gWud : Proc where
  name := "gWud"
  nPar := 6
  ctor := gWud.ctor
  setMasses := gWud.setMasses
  massPar := [2, 3, 4]
  setMomenta := gWud.setMomenta
  methods := [gWud.m_amp2_gplus, gWud.m_amp2, gWud.m_amp]
  amp2 := 1
  others := [("amp2_gplus", 2)]

namespace gZdd

/-- constructor (SM/gZdd.cpp:32-59); parameters: 0 `echarge`, 1 `gscharge`, 2 `massd`, 3 `massW`, 4 `sinW` -/
def ctor : List SInstr := [
  -- 32: e(echarge)
  .set .r 0 (.loc .r 0),
  -- 32: Qd(-1.0/3.0)
  .set .r 1 (.div (.neg (.lit 1)) (.lit 3)),
  -- 32: gs(gscharge)
  .set .r 2 (.loc .r 1),
  -- 32: md(massd)
  .set .r 3 (.loc .r 2),
  -- 32: MW(massW)
  .set .r 4 (.loc .r 3),
  -- 32: SW(sinW)
  .set .r 5 (.loc .r 4),
  -- 32: CW(std::sqrt(1.0-sinW*sinW))
  .set .r 6 (.sqrt (.sub (.lit 1) (.mul (.loc .r 4) (.loc .r 4)))),
  -- 32: MZ(massW/CW)
  .set .r 7 (.div (.loc .r 3) (.mem .r 6)),
  -- 32: propd(massd,0)
  .prop 0 (.loc .r 2) (.lit 0),
  -- 35: sqrt2=std::sqrt(two)
  .set .r 8 (.sqrt (.lit 2)),
  -- 36: MZ=MW/CW
  .set .r 7 (.div (.mem .r 4) (.mem .r 6)),
  -- 37: p1=particle(0)
  .part 0 (.lit 0),
  -- 38: p2=particle(MZ)
  .part 1 (.mem .r 7),
  -- 39: p3=particle(md)
  .part 2 (.mem .r 3),
  -- 40: p4=particle(md)
  .part 3 (.mem .r 3),
  -- 42: s12s=sproduct(SQUARE,&p1,&p2)
  .sprod 0 ⟨false, 0, true, [], 1, true⟩,
  -- 43: a12a=sproduct(ANGLE,&p1,&p2)
  .sprod 1 ⟨true, 0, true, [], 1, true⟩,
  -- 44: s23s=sproduct(SQUARE,&p2,&p3)
  .sprod 2 ⟨false, 1, true, [], 2, true⟩,
  -- 45: a23a=sproduct(ANGLE,&p2,&p3)
  .sprod 3 ⟨true, 1, true, [], 2, true⟩,
  -- 46: s13s=sproduct(SQUARE,&p1,&p3)
  .sprod 4 ⟨false, 0, true, [], 2, true⟩,
  -- 47: a13a=sproduct(ANGLE,&p1,&p3)
  .sprod 5 ⟨true, 0, true, [], 2, true⟩,
  -- 48: s24s=sproduct(SQUARE,&p2,&p4)
  .sprod 6 ⟨false, 1, true, [], 3, true⟩,
  -- 49: a24a=sproduct(ANGLE,&p2,&p4)
  .sprod 7 ⟨true, 1, true, [], 3, true⟩,
  -- 50: s14s=sproduct(SQUARE,&p1,&p4)
  .sprod 8 ⟨false, 0, true, [], 3, true⟩,
  -- 51: a14a=sproduct(ANGLE,&p1,&p4)
  .sprod 9 ⟨true, 0, true, [], 3, true⟩,
  -- 53: s1341s=sproduct(SQUARE,&p1,&p3,&p4,&p1)
  .sprod 10 ⟨false, 0, true, [2, 3], 0, true⟩,
  -- 54: a1341a=sproduct(ANGLE,&p1,&p3,&p4,&p1)
  .sprod 11 ⟨true, 0, true, [2, 3], 0, true⟩,
  -- 56: preTU=2.0*e*gs/(2.0*MW*SW)
  .set .r 9 (.div (.mul (.mul (.lit 2) (.mem .r 0)) (.mem .r 2)) (.mul (.mul (.lit 2) (.mem .r 4)) (.mem .r 5))),
  -- 57: gL=-2.0*Qd*SW*SW-1.0
  .set .r 11 (.sub (.mul (.mul (.mul (.neg (.lit 2)) (.mem .r 1)) (.mem .r 5)) (.mem .r 5)) (.lit 1)),
  -- 58: gR=-2.0*Qd*SW*SW
  .set .r 12 (.mul (.mul (.mul (.neg (.lit 2)) (.mem .r 1)) (.mem .r 5)) (.mem .r 5))]

/-- `set_masses` (SM/gZdd.cpp:60-71); parameters: 0 `massd`, 1 `massW` -/
def setMasses : List SInstr := [
  -- 61: md=massd
  .set .r 3 (.loc .r 0),
  -- 62: MW=massW
  .set .r 4 (.loc .r 1),
  -- 63: MZ=MW/CW
  .set .r 7 (.div (.mem .r 4) (.mem .r 6)),
  -- 64: p1.set_mass(0)
  .setMass 0 (.lit 0),
  -- 65: p2.set_mass(MZ)
  .setMass 1 (.mem .r 7),
  -- 66: p3.set_mass(md)
  .setMass 2 (.mem .r 3),
  -- 67: p4.set_mass(md)
  .setMass 3 (.mem .r 3),
  -- 68: propd.set_mass(md)
  .propMass 0 (.mem .r 3),
  -- 70: preTU=2.0*e*gs/(2.0*MW*SW)
  .set .r 9 (.div (.mul (.mul (.lit 2) (.mem .r 0)) (.mem .r 2)) (.mul (.mul (.lit 2) (.mem .r 4)) (.mem .r 5)))]

/-- `set_momenta` (SM/gZdd.cpp:72-100); parameters: 0 `mom1`, 1 `mom2`, 2 `mom3`, 3 `mom4` -/
def setMomenta : List SInstr := [
  -- 74: p1.set_momentum(mom1)
  .setMom 0 0,
  -- 75: p2.set_momentum(mom2)
  .setMom 1 1,
  -- 76: p3.set_momentum(mom3)
  .setMom 2 2,
  -- 77: p4.set_momentum(mom4)
  .setMom 3 3,
  -- 79: s12s.update()
  .update 0,
  -- 80: a12a.update()
  .update 1,
  -- 81: s23s.update()
  .update 2,
  -- 82: a23a.update()
  .update 3,
  -- 83: s13s.update()
  .update 4,
  -- 84: a13a.update()
  .update 5,
  -- 85: s24s.update()
  .update 6,
  -- 86: a24a.update()
  .update 7,
  -- 87: s14s.update()
  .update 8,
  -- 88: a14a.update()
  .update 9,
  -- 90: s1341s.update()
  .update 10,
  -- 91: a1341a.update()
  .update 11,
  -- 98: pDenT=propd.denominator(propTP)
  .den .c 0 0 (.sub 0 2),
  -- 99: pDenU=propd.denominator(propUP)
  .den .c 1 0 (.sub 0 3)]

/-- `cdouble amp(ds1,ds2,ds3,ds4)` (SM/gZdd.cpp:105-149); variables: i 0 `ds1`, i 1 `ds2`, i 2 `ds3`, i 3 `ds4`, c 0 `amplitude`, i 4 `ds2a`, i 5 `ds2b`, i 6 `nCombs`, r 0 `normFactor`, i 7 `i` -/
def m_amp : Method := ⟨4, 
  -- 106: cdouble amplitude
  .seq (.set .c 0 (.ofR (.lit 0))) <|
  -- 111: int nCombs
  .seq (.seti 6 (.loops [1])) <|
  -- 112: ldouble normFactor
  .seq (.set .r 0 (.norm [1])) <|
  -- 113: for(int i=0;i<nCombs;i++)
  .seq (.loop 7 0 false (.var 6) 1 (
    -- 114: get_spinor_spins(ds2,ds2a,ds2b,i)
    .seq (.spins [(1, 4, 5)] (.var 7)) <|
    -- 116: if(ds1>0)
    .ite (.lt (.lit 0) (.var 0)) (
      -- 125: amplitude+=normFactor*preTU*s1341s.v()*(gR*s24s.v(ds2a,ds4)*a23a.v(ds2b,ds3)+gL*s23s.v(ds2a,ds3)*a24a.v(ds2b,ds4))/pDenT/pDenU
      .seq (.set .c 0 (.add (.loc .c 0) (.div (.div (.mul (.smul (.mul (.loc .r 0) (.mem .r 9)) (.v 10 [])) (.add (.mul (.smul (.mem .r 12) (.v 6 [.var 4, .var 3])) (.v 3 [.var 5, .var 2])) (.mul (.smul (.mem .r 11) (.v 2 [.var 4, .var 2])) (.v 7 [.var 5, .var 3])))) (.mem .c 0)) (.mem .c 1)))) <|
      -- 126: amplitude+=normFactor*preTU*s12s.v(ds2a)*(gR*s14s.v(ds4)*a23a.v(ds2b,ds3)/pDenU-gL*s13s.v(ds3)*a24a.v(ds2b,ds4)/pDenT)
      .set .c 0 (.add (.loc .c 0) (.mul (.smul (.mul (.loc .r 0) (.mem .r 9)) (.v 0 [.var 4])) (.sub (.div (.mul (.smul (.mem .r 12) (.v 8 [.var 3])) (.v 3 [.var 5, .var 2])) (.mem .c 1)) (.div (.mul (.smul (.mem .r 11) (.v 4 [.var 2])) (.v 7 [.var 5, .var 3])) (.mem .c 0)))))) (
      -- 130: if(ds1<0)
      .ite (.lt (.var 0) (.lit 0)) (
        -- 139: amplitude+=normFactor*preTU*a1341a.v()*(gR*s24s.v(ds2a,ds4)*a23a.v(ds2b,ds3)+gL*s23s.v(ds2a,ds3)*a24a.v(ds2b,ds4))/pDenT/pDenU
        .seq (.set .c 0 (.add (.loc .c 0) (.div (.div (.mul (.smul (.mul (.loc .r 0) (.mem .r 9)) (.v 11 [])) (.add (.mul (.smul (.mem .r 12) (.v 6 [.var 4, .var 3])) (.v 3 [.var 5, .var 2])) (.mul (.smul (.mem .r 11) (.v 2 [.var 4, .var 2])) (.v 7 [.var 5, .var 3])))) (.mem .c 0)) (.mem .c 1)))) <|
        -- 140: amplitude+=normFactor*preTU*a12a.v(ds2a)*(gL*a14a.v(ds4)*s23s.v(ds2b,ds3)/pDenU-gR*a13a.v(ds3)*s24s.v(ds2b,ds4)/pDenT)
        .set .c 0 (.add (.loc .c 0) (.mul (.smul (.mul (.loc .r 0) (.mem .r 9)) (.v 1 [.var 4])) (.sub (.div (.mul (.smul (.mem .r 11) (.v 9 [.var 3])) (.v 2 [.var 5, .var 2])) (.mem .c 1)) (.div (.mul (.smul (.mem .r 12) (.v 5 [.var 2])) (.v 6 [.var 5, .var 3])) (.mem .c 0)))))) (
        .skip)))) <|
  -- 148: return amplitude
  .ret .c (.loc .c 0)⟩

/-- `ldouble amp2()` (SM/gZdd.cpp:152-167); variables: r 0 `amp2`, c 0 `M`, i 0 `j1`, i 1 `j2`, i 2 `j3`, i 3 `j4` -/
def m_amp2 : Method := ⟨0, 
  -- 153: ldouble amp2
  .seq (.set .r 0 (.lit 0)) <|
  -- 154: cdouble M
  .seq (.set .c 0 (.ofR (.lit 0))) <|
  -- 157: for(int j1=-2;j1<=2;j1+=4)
  .seq (.loop 0 (-2) true (.lit 2) 4 (
    -- 158: for(int j2=-2;j2<=2;j2+=2)
    .loop 1 (-2) true (.lit 2) 2 (
      -- 159: for(int j3=-1;j3<=1;j3+=2)
      .loop 2 (-1) true (.lit 1) 2 (
        -- 160: for(int j4=-1;j4<=1;j4+=2)
        .loop 3 (-1) true (.lit 1) 2 (
          -- 161: M=amp(j1,j2,j3,j4)
          .seq (.set .c 0 (.call 0 [.var 0, .var 1, .var 2, .var 3])) <|
          -- 162: amp2+=4.0*std::pow(std::abs(M),2)
          .set .r 0 (.add (.loc .r 0) (.mul (.lit 4) (.pow (.abs (.loc .c 0)) 2)))))))) <|
  -- 166: return amp2/48.0
  .ret .r (.div (.loc .r 0) (.lit 48))⟩

/-- `ldouble amp2_gplus()` (SM/gZdd.cpp:169-183); variables: r 0 `amp2`, c 0 `M`, i 0 `j2`, i 1 `j3`, i 2 `j4` -/
def m_amp2_gplus : Method := ⟨0, 
  -- 170: ldouble amp2
  .seq (.set .r 0 (.lit 0)) <|
  -- 171: cdouble M
  .seq (.set .c 0 (.ofR (.lit 0))) <|
  -- 174: for(int j2=-2;j2<=2;j2+=2)
  .seq (.loop 0 (-2) true (.lit 2) 2 (
    -- 175: for(int j3=-1;j3<=1;j3+=2)
    .loop 1 (-1) true (.lit 1) 2 (
      -- 176: for(int j4=-1;j4<=1;j4+=2)
      .loop 2 (-1) true (.lit 1) 2 (
        -- 177: M=amp(2,j2,j3,j4)
        .seq (.set .c 0 (.call 0 [.lit 2, .var 0, .var 1, .var 2])) <|
        -- 178: amp2+=4.0*std::pow(std::abs(M),2)
        .set .r 0 (.add (.loc .r 0) (.mul (.lit 4) (.pow (.abs (.loc .c 0)) 2))))))) <|
  -- 182: return amp2/24.0
  .ret .r (.div (.loc .r 0) (.lit 24))⟩

/-- `ldouble amp2_gminus()` (SM/gZdd.cpp:185-199); variables: r 0 `amp2`, c 0 `M`, i 0 `j2`, i 1 `j3`, i 2 `j4` -/
def m_amp2_gminus : Method := ⟨0, 
  -- 186: ldouble amp2
  .seq (.set .r 0 (.lit 0)) <|
  -- 187: cdouble M
  .seq (.set .c 0 (.ofR (.lit 0))) <|
  -- 190: for(int j2=-2;j2<=2;j2+=2)
  .seq (.loop 0 (-2) true (.lit 2) 2 (
    -- 191: for(int j3=-1;j3<=1;j3+=2)
    .loop 1 (-1) true (.lit 1) 2 (
      -- 192: for(int j4=-1;j4<=1;j4+=2)
      .loop 2 (-1) true (.lit 1) 2 (
        -- 193: M=amp(-2,j2,j3,j4)
        .seq (.set .c 0 (.call 0 [.lit (-2), .var 0, .var 1, .var 2])) <|
        -- 194: amp2+=4.0*std::pow(std::abs(M),2)
        .set .r 0 (.add (.loc .r 0) (.mul (.lit 4) (.pow (.abs (.loc .c 0)) 2))))))) <|
  -- 198: return amp2/24.0
  .ret .r (.div (.loc .r 0) (.lit 24))⟩

end gZdd

/-- `class gZdd` (SM/gZdd.cpp, SM/include/gZdd.h:25-36).  Members:
* ldouble: 0 `e`, 1 `Qd`, 2 `gs`, 3 `md`, 4 `MW`, 5 `SW`, 6 `CW`, 7 `MZ`, 8 `sqrt2`, 9 `preTU`, 10 `preh`, 11 `gL`, 12 `gR`
* cdouble: 0 `pDenT`, 1 `pDenU`
* propagator: 0 `propd`
* sproduct: 0 `s12s`, 1 `a12a`, 2 `s23s`, 3 `a23a`, 4 `s13s`, 5 `a13a`, 6 `s24s`, 7 `a24a`, 8 `s14s`, 9 `a14a`, 10 `s1341s`, 11 `a1341a` -/
def gZdd : Proc where
  name := "gZdd"
  nPar := 5
  ctor := gZdd.ctor
  setMasses := gZdd.setMasses
  massPar := [2, 3]
  setMomenta := gZdd.setMomenta
  methods := [gZdd.m_amp2_gminus, gZdd.m_amp2_gplus, gZdd.m_amp2, gZdd.m_amp]
  amp2 := 1
  others := [("amp2_gplus", 2), ("amp2_gminus", 3)]

namespace gZuu

/-- constructor (SM/gZuu.cpp:32-59); parameters: 0 `echarge`, 1 `gscharge`, 2 `massu`, 3 `massW`, 4 `sinW` -/
def ctor : List SInstr := [
  -- 32: e(echarge)
  .set .r 0 (.loc .r 0),
  -- 32: Qu(2.0/3.0)
  .set .r 1 (.div (.lit 2) (.lit 3)),
  -- 32: gs(gscharge)
  .set .r 2 (.loc .r 1),
  -- 32: mu(massu)
  .set .r 3 (.loc .r 2),
  -- 32: MW(massW)
  .set .r 4 (.loc .r 3),
  -- 32: SW(sinW)
  .set .r 5 (.loc .r 4),
  -- 32: CW(std::sqrt(1.0-sinW*sinW))
  .set .r 6 (.sqrt (.sub (.lit 1) (.mul (.loc .r 4) (.loc .r 4)))),
  -- 32: MZ(massW/CW)
  .set .r 7 (.div (.loc .r 3) (.mem .r 6)),
  -- 32: prope(massu,0)
  .prop 0 (.loc .r 2) (.lit 0),
  -- 35: sqrt2=std::sqrt(two)
  .set .r 8 (.sqrt (.lit 2)),
  -- 36: MZ=MW/CW
  .set .r 7 (.div (.mem .r 4) (.mem .r 6)),
  -- 37: p1=particle(0)
  .part 0 (.lit 0),
  -- 38: p2=particle(MZ)
  .part 1 (.mem .r 7),
  -- 39: p3=particle(mu)
  .part 2 (.mem .r 3),
  -- 40: p4=particle(mu)
  .part 3 (.mem .r 3),
  -- 42: s12s=sproduct(SQUARE,&p1,&p2)
  .sprod 0 ⟨false, 0, true, [], 1, true⟩,
  -- 43: a12a=sproduct(ANGLE,&p1,&p2)
  .sprod 1 ⟨true, 0, true, [], 1, true⟩,
  -- 44: s23s=sproduct(SQUARE,&p2,&p3)
  .sprod 2 ⟨false, 1, true, [], 2, true⟩,
  -- 45: a23a=sproduct(ANGLE,&p2,&p3)
  .sprod 3 ⟨true, 1, true, [], 2, true⟩,
  -- 46: s13s=sproduct(SQUARE,&p1,&p3)
  .sprod 4 ⟨false, 0, true, [], 2, true⟩,
  -- 47: a13a=sproduct(ANGLE,&p1,&p3)
  .sprod 5 ⟨true, 0, true, [], 2, true⟩,
  -- 48: s24s=sproduct(SQUARE,&p2,&p4)
  .sprod 6 ⟨false, 1, true, [], 3, true⟩,
  -- 49: a24a=sproduct(ANGLE,&p2,&p4)
  .sprod 7 ⟨true, 1, true, [], 3, true⟩,
  -- 50: s14s=sproduct(SQUARE,&p1,&p4)
  .sprod 8 ⟨false, 0, true, [], 3, true⟩,
  -- 51: a14a=sproduct(ANGLE,&p1,&p4)
  .sprod 9 ⟨true, 0, true, [], 3, true⟩,
  -- 53: s1341s=sproduct(SQUARE,&p1,&p3,&p4,&p1)
  .sprod 10 ⟨false, 0, true, [2, 3], 0, true⟩,
  -- 54: a1341a=sproduct(ANGLE,&p1,&p3,&p4,&p1)
  .sprod 11 ⟨true, 0, true, [2, 3], 0, true⟩,
  -- 56: preTU=2.0*e*gs/(2.0*MW*SW)
  .set .r 9 (.div (.mul (.mul (.lit 2) (.mem .r 0)) (.mem .r 2)) (.mul (.mul (.lit 2) (.mem .r 4)) (.mem .r 5))),
  -- 57: gL=-2.0*Qu*SW*SW+1.0
  .set .r 11 (.add (.mul (.mul (.mul (.neg (.lit 2)) (.mem .r 1)) (.mem .r 5)) (.mem .r 5)) (.lit 1)),
  -- 58: gR=-2.0*Qu*SW*SW
  .set .r 12 (.mul (.mul (.mul (.neg (.lit 2)) (.mem .r 1)) (.mem .r 5)) (.mem .r 5))]

/-- `set_masses` (SM/gZuu.cpp:60-71); parameters: 0 `massu`, 1 `massW` -/
def setMasses : List SInstr := [
  -- 61: mu=massu
  .set .r 3 (.loc .r 0),
  -- 62: MW=massW
  .set .r 4 (.loc .r 1),
  -- 63: MZ=MW/CW
  .set .r 7 (.div (.mem .r 4) (.mem .r 6)),
  -- 64: p1.set_mass(0)
  .setMass 0 (.lit 0),
  -- 65: p2.set_mass(MZ)
  .setMass 1 (.mem .r 7),
  -- 66: p3.set_mass(mu)
  .setMass 2 (.mem .r 3),
  -- 67: p4.set_mass(mu)
  .setMass 3 (.mem .r 3),
  -- 68: prope.set_mass(mu)
  .propMass 0 (.mem .r 3),
  -- 70: preTU=2.0*e*gs/(2.0*MW*SW)
  .set .r 9 (.div (.mul (.mul (.lit 2) (.mem .r 0)) (.mem .r 2)) (.mul (.mul (.lit 2) (.mem .r 4)) (.mem .r 5)))]

/-- `set_momenta` (SM/gZuu.cpp:72-100); parameters: 0 `mom1`, 1 `mom2`, 2 `mom3`, 3 `mom4` -/
def setMomenta : List SInstr := [
  -- 74: p1.set_momentum(mom1)
  .setMom 0 0,
  -- 75: p2.set_momentum(mom2)
  .setMom 1 1,
  -- 76: p3.set_momentum(mom3)
  .setMom 2 2,
  -- 77: p4.set_momentum(mom4)
  .setMom 3 3,
  -- 79: s12s.update()
  .update 0,
  -- 80: a12a.update()
  .update 1,
  -- 81: s23s.update()
  .update 2,
  -- 82: a23a.update()
  .update 3,
  -- 83: s13s.update()
  .update 4,
  -- 84: a13a.update()
  .update 5,
  -- 85: s24s.update()
  .update 6,
  -- 86: a24a.update()
  .update 7,
  -- 87: s14s.update()
  .update 8,
  -- 88: a14a.update()
  .update 9,
  -- 90: s1341s.update()
  .update 10,
  -- 91: a1341a.update()
  .update 11,
  -- 98: pDenT=prope.denominator(propTP)
  .den .c 0 0 (.sub 0 2),
  -- 99: pDenU=prope.denominator(propUP)
  .den .c 1 0 (.sub 0 3)]

/-- `cdouble amp(ds1,ds2,ds3,ds4)` (SM/gZuu.cpp:105-149); variables: i 0 `ds1`, i 1 `ds2`, i 2 `ds3`, i 3 `ds4`, c 0 `amplitude`, i 4 `ds2a`, i 5 `ds2b`, i 6 `nCombs`, r 0 `normFactor`, i 7 `i` -/
def m_amp : Method := ⟨4, 
  -- 106: cdouble amplitude
  .seq (.set .c 0 (.ofR (.lit 0))) <|
  -- 111: int nCombs
  .seq (.seti 6 (.loops [1])) <|
  -- 112: ldouble normFactor
  .seq (.set .r 0 (.norm [1])) <|
  -- 113: for(int i=0;i<nCombs;i++)
  .seq (.loop 7 0 false (.var 6) 1 (
    -- 114: get_spinor_spins(ds2,ds2a,ds2b,i)
    .seq (.spins [(1, 4, 5)] (.var 7)) <|
    -- 116: if(ds1>0)
    .ite (.lt (.lit 0) (.var 0)) (
      -- 125: amplitude+=normFactor*preTU*s1341s.v()*(gR*s24s.v(ds2a,ds4)*a23a.v(ds2b,ds3)+gL*s23s.v(ds2a,ds3)*a24a.v(ds2b,ds4))/pDenT/pDenU
      .seq (.set .c 0 (.add (.loc .c 0) (.div (.div (.mul (.smul (.mul (.loc .r 0) (.mem .r 9)) (.v 10 [])) (.add (.mul (.smul (.mem .r 12) (.v 6 [.var 4, .var 3])) (.v 3 [.var 5, .var 2])) (.mul (.smul (.mem .r 11) (.v 2 [.var 4, .var 2])) (.v 7 [.var 5, .var 3])))) (.mem .c 0)) (.mem .c 1)))) <|
      -- 126: amplitude+=normFactor*preTU*s12s.v(ds2a)*(gR*s14s.v(ds4)*a23a.v(ds2b,ds3)/pDenU-gL*s13s.v(ds3)*a24a.v(ds2b,ds4)/pDenT)
      .set .c 0 (.add (.loc .c 0) (.mul (.smul (.mul (.loc .r 0) (.mem .r 9)) (.v 0 [.var 4])) (.sub (.div (.mul (.smul (.mem .r 12) (.v 8 [.var 3])) (.v 3 [.var 5, .var 2])) (.mem .c 1)) (.div (.mul (.smul (.mem .r 11) (.v 4 [.var 2])) (.v 7 [.var 5, .var 3])) (.mem .c 0)))))) (
      -- 130: if(ds1<0)
      .ite (.lt (.var 0) (.lit 0)) (
        -- 139: amplitude+=normFactor*preTU*a1341a.v()*(gR*s24s.v(ds2a,ds4)*a23a.v(ds2b,ds3)+gL*s23s.v(ds2a,ds3)*a24a.v(ds2b,ds4))/pDenT/pDenU
        .seq (.set .c 0 (.add (.loc .c 0) (.div (.div (.mul (.smul (.mul (.loc .r 0) (.mem .r 9)) (.v 11 [])) (.add (.mul (.smul (.mem .r 12) (.v 6 [.var 4, .var 3])) (.v 3 [.var 5, .var 2])) (.mul (.smul (.mem .r 11) (.v 2 [.var 4, .var 2])) (.v 7 [.var 5, .var 3])))) (.mem .c 0)) (.mem .c 1)))) <|
        -- 140: amplitude+=normFactor*preTU*a12a.v(ds2a)*(gL*a14a.v(ds4)*s23s.v(ds2b,ds3)/pDenU-gR*a13a.v(ds3)*s24s.v(ds2b,ds4)/pDenT)
        .set .c 0 (.add (.loc .c 0) (.mul (.smul (.mul (.loc .r 0) (.mem .r 9)) (.v 1 [.var 4])) (.sub (.div (.mul (.smul (.mem .r 11) (.v 9 [.var 3])) (.v 2 [.var 5, .var 2])) (.mem .c 1)) (.div (.mul (.smul (.mem .r 12) (.v 5 [.var 2])) (.v 6 [.var 5, .var 3])) (.mem .c 0)))))) (
        .skip)))) <|
  -- 148: return amplitude
  .ret .c (.loc .c 0)⟩

/-- `ldouble amp2()` (SM/gZuu.cpp:152-167); variables: r 0 `amp2`, c 0 `M`, i 0 `j1`, i 1 `j2`, i 2 `j3`, i 3 `j4` -/
def m_amp2 : Method := ⟨0, 
  -- 153: ldouble amp2
  .seq (.set .r 0 (.lit 0)) <|
  -- 154: cdouble M
  .seq (.set .c 0 (.ofR (.lit 0))) <|
  -- 157: for(int j1=-2;j1<=2;j1+=4)
  .seq (.loop 0 (-2) true (.lit 2) 4 (
    -- 158: for(int j2=-2;j2<=2;j2+=2)
    .loop 1 (-2) true (.lit 2) 2 (
      -- 159: for(int j3=-1;j3<=1;j3+=2)
      .loop 2 (-1) true (.lit 1) 2 (
        -- 160: for(int j4=-1;j4<=1;j4+=2)
        .loop 3 (-1) true (.lit 1) 2 (
          -- 161: M=amp(j1,j2,j3,j4)
          .seq (.set .c 0 (.call 0 [.var 0, .var 1, .var 2, .var 3])) <|
          -- 162: amp2+=4.0*std::pow(std::abs(M),2)
          .set .r 0 (.add (.loc .r 0) (.mul (.lit 4) (.pow (.abs (.loc .c 0)) 2)))))))) <|
  -- 166: return amp2/48.0
  .ret .r (.div (.loc .r 0) (.lit 48))⟩

/-- `ldouble amp2_gplus()` (SM/gZuu.cpp:169-183); variables: r 0 `amp2`, c 0 `M`, i 0 `j2`, i 1 `j3`, i 2 `j4` -/
def m_amp2_gplus : Method := ⟨0, 
  -- 170: ldouble amp2
  .seq (.set .r 0 (.lit 0)) <|
  -- 171: cdouble M
  .seq (.set .c 0 (.ofR (.lit 0))) <|
  -- 174: for(int j2=-2;j2<=2;j2+=2)
  .seq (.loop 0 (-2) true (.lit 2) 2 (
    -- 175: for(int j3=-1;j3<=1;j3+=2)
    .loop 1 (-1) true (.lit 1) 2 (
      -- 176: for(int j4=-1;j4<=1;j4+=2)
      .loop 2 (-1) true (.lit 1) 2 (
        -- 177: M=amp(2,j2,j3,j4)
        .seq (.set .c 0 (.call 0 [.lit 2, .var 0, .var 1, .var 2])) <|
        -- 178: amp2+=4.0*std::pow(std::abs(M),2)
        .set .r 0 (.add (.loc .r 0) (.mul (.lit 4) (.pow (.abs (.loc .c 0)) 2))))))) <|
  -- 182: return amp2/24.0
  .ret .r (.div (.loc .r 0) (.lit 24))⟩

/-- `ldouble amp2_gminus()` (SM/gZuu.cpp:185-199); variables: r 0 `amp2`, c 0 `M`, i 0 `j2`, i 1 `j3`, i 2 `j4` -/
def m_amp2_gminus : Method := ⟨0, 
  -- 186: ldouble amp2
  .seq (.set .r 0 (.lit 0)) <|
  -- 187: cdouble M
  .seq (.set .c 0 (.ofR (.lit 0))) <|
  -- 190: for(int j2=-2;j2<=2;j2+=2)
  .seq (.loop 0 (-2) true (.lit 2) 2 (
    -- 191: for(int j3=-1;j3<=1;j3+=2)
    .loop 1 (-1) true (.lit 1) 2 (
      -- 192: for(int j4=-1;j4<=1;j4+=2)
      .loop 2 (-1) true (.lit 1) 2 (
        -- 193: M=amp(-2,j2,j3,j4)
        .seq (.set .c 0 (.call 0 [.lit (-2), .var 0, .var 1, .var 2])) <|
        -- 194: amp2+=4.0*std::pow(std::abs(M),2)
        .set .r 0 (.add (.loc .r 0) (.mul (.lit 4) (.pow (.abs (.loc .c 0)) 2))))))) <|
  -- 198: return amp2/24.0
  .ret .r (.div (.loc .r 0) (.lit 24))⟩

end gZuu

/-- `class gZuu` (SM/gZuu.cpp, SM/include/gZuu.h:25-36).  Members:
* ldouble: 0 `e`, 1 `Qu`, 2 `gs`, 3 `mu`, 4 `MW`, 5 `SW`, 6 `CW`, 7 `MZ`, 8 `sqrt2`, 9 `preTU`, 10 `preh`, 11 `gL`, 12 `gR`
* cdouble: 0 `pDenT`, 1 `pDenU`
* propagator: 0 `prope`
* sproduct: 0 `s12s`, 1 `a12a`, 2 `s23s`, 3 `a23a`, 4 `s13s`, 5 `a13a`, 6 `s24s`, 7 `a24a`, 8 `s14s`, 9 `a14a`, 10 `s1341s`, 11 `a1341a` -/
def gZuu : Proc where
  name := "gZuu"
  nPar := 5
  ctor := gZuu.ctor
  setMasses := gZuu.setMasses
  massPar := [2, 3]
  setMomenta := gZuu.setMomenta
  methods := [gZuu.m_amp2_gminus, gZuu.m_amp2_gplus, gZuu.m_amp2, gZuu.m_amp]
  amp2 := 1
  others := [("amp2_gplus", 2), ("amp2_gminus", 3)]

namespace gdZd

/-- constructor (SM/gdZd.cpp:32-65); parameters: 0 `echarge`, 1 `gscharge`, 2 `massd`, 3 `massW`, 4 `sinW` -/
def ctor : List SInstr := [
  -- 32: e(echarge)
  .set .r 0 (.loc .r 0),
  -- 32: Qd(-1.0/3.0)
  .set .r 1 (.div (.neg (.lit 1)) (.lit 3)),
  -- 32: gs(gscharge)
  .set .r 2 (.loc .r 1),
  -- 32: md(massd)
  .set .r 3 (.loc .r 2),
  -- 32: MW(massW)
  .set .r 4 (.loc .r 3),
  -- 32: SW(sinW)
  .set .r 5 (.loc .r 4),
  -- 32: CW(std::sqrt(1.0-sinW*sinW))
  .set .r 6 (.sqrt (.sub (.lit 1) (.mul (.loc .r 4) (.loc .r 4)))),
  -- 32: MZ(massW/CW)
  .set .r 7 (.div (.loc .r 3) (.mem .r 6)),
  -- 32: propd(massd,0)
  .prop 0 (.loc .r 2) (.lit 0),
  -- 35: sqrt2=std::sqrt(two)
  .set .r 8 (.sqrt (.lit 2)),
  -- 36: MZ=MW/CW
  .set .r 7 (.div (.mem .r 4) (.mem .r 6)),
  -- 37: p1=particle(0)
  .part 0 (.lit 0),
  -- 38: p2=particle(md)
  .part 1 (.mem .r 3),
  -- 39: p3=particle(MZ)
  .part 2 (.mem .r 7),
  -- 40: p4=particle(md)
  .part 3 (.mem .r 3),
  -- 42: s12s=sproduct(SQUARE,&p1,&p2)
  .sprod 0 ⟨false, 0, true, [], 1, true⟩,
  -- 43: s13s=sproduct(SQUARE,&p1,&p3)
  .sprod 1 ⟨false, 0, true, [], 2, true⟩,
  -- 44: s14s=sproduct(SQUARE,&p1,&p4)
  .sprod 2 ⟨false, 0, true, [], 3, true⟩,
  -- 45: a23a=sproduct(ANGLE,&p2,&p3)
  .sprod 3 ⟨true, 1, true, [], 2, true⟩,
  -- 46: a34a=sproduct(ANGLE,&p3,&p4)
  .sprod 4 ⟨true, 2, true, [], 3, true⟩,
  -- 47: s123a=sproduct(SQUARE,&p1,&p2,&p3)
  .sprod 5 ⟨false, 0, true, [1], 2, true⟩,
  -- 48: s132a=sproduct(SQUARE,&p1,&p3,&p2)
  .sprod 6 ⟨false, 0, true, [2], 1, true⟩,
  -- 49: s134a=sproduct(SQUARE,&p1,&p3,&p4)
  .sprod 7 ⟨false, 0, true, [2], 3, true⟩,
  -- 50: s143a=sproduct(SQUARE,&p1,&p4,&p3)
  .sprod 8 ⟨false, 0, true, [3], 2, true⟩,
  -- 52: a12a=sproduct(ANGLE,&p1,&p2)
  .sprod 9 ⟨true, 0, true, [], 1, true⟩,
  -- 53: a13a=sproduct(ANGLE,&p1,&p3)
  .sprod 10 ⟨true, 0, true, [], 2, true⟩,
  -- 54: a14a=sproduct(ANGLE,&p1,&p4)
  .sprod 11 ⟨true, 0, true, [], 3, true⟩,
  -- 55: s23s=sproduct(SQUARE,&p2,&p3)
  .sprod 12 ⟨false, 1, true, [], 2, true⟩,
  -- 56: s34s=sproduct(SQUARE,&p3,&p4)
  .sprod 13 ⟨false, 2, true, [], 3, true⟩,
  -- 57: a123s=sproduct(ANGLE,&p1,&p2,&p3)
  .sprod 14 ⟨true, 0, true, [1], 2, true⟩,
  -- 58: a132s=sproduct(ANGLE,&p1,&p3,&p2)
  .sprod 15 ⟨true, 0, true, [2], 1, true⟩,
  -- 59: a134s=sproduct(ANGLE,&p1,&p3,&p4)
  .sprod 16 ⟨true, 0, true, [2], 3, true⟩,
  -- 60: a143s=sproduct(ANGLE,&p1,&p4,&p3)
  .sprod 17 ⟨true, 0, true, [3], 2, true⟩,
  -- 62: preTU=2.0*e*gs/(2.0*MW*SW)
  .set .r 9 (.div (.mul (.mul (.lit 2) (.mem .r 0)) (.mem .r 2)) (.mul (.mul (.lit 2) (.mem .r 4)) (.mem .r 5))),
  -- 63: gL=-2.0*Qd*SW*SW-1.0
  .set .r 11 (.sub (.mul (.mul (.mul (.neg (.lit 2)) (.mem .r 1)) (.mem .r 5)) (.mem .r 5)) (.lit 1)),
  -- 64: gR=-2.0*Qd*SW*SW
  .set .r 12 (.mul (.mul (.mul (.neg (.lit 2)) (.mem .r 1)) (.mem .r 5)) (.mem .r 5))]

/-- `set_masses` (SM/gdZd.cpp:66-76); parameters: 0 `massd`, 1 `massW` -/
def setMasses : List SInstr := [
  -- 67: md=massd
  .set .r 3 (.loc .r 0),
  -- 68: MW=massW
  .set .r 4 (.loc .r 1),
  -- 69: MZ=MW/CW
  .set .r 7 (.div (.mem .r 4) (.mem .r 6)),
  -- 70: p2.set_mass(md)
  .setMass 1 (.mem .r 3),
  -- 71: p3.set_mass(MZ)
  .setMass 2 (.mem .r 7),
  -- 72: p4.set_mass(md)
  .setMass 3 (.mem .r 3),
  -- 73: propd.set_mass(md)
  .propMass 0 (.mem .r 3),
  -- 75: preTU=2.0*e*gs/(2.0*MW*SW)
  .set .r 9 (.div (.mul (.mul (.lit 2) (.mem .r 0)) (.mem .r 2)) (.mul (.mul (.lit 2) (.mem .r 4)) (.mem .r 5)))]

/-- `set_momenta` (SM/gdZd.cpp:77-111); parameters: 0 `mom1`, 1 `mom2`, 2 `mom3`, 3 `mom4` -/
def setMomenta : List SInstr := [
  -- 79: p1.set_momentum(mom1)
  .setMom 0 0,
  -- 80: p2.set_momentum(mom2)
  .setMom 1 1,
  -- 81: p3.set_momentum(mom3)
  .setMom 2 2,
  -- 82: p4.set_momentum(mom4)
  .setMom 3 3,
  -- 84: s12s.update()
  .update 0,
  -- 85: s13s.update()
  .update 1,
  -- 86: s14s.update()
  .update 2,
  -- 87: a23a.update()
  .update 3,
  -- 88: a34a.update()
  .update 4,
  -- 89: s123a.update()
  .update 5,
  -- 90: s132a.update()
  .update 6,
  -- 91: s134a.update()
  .update 7,
  -- 92: s143a.update()
  .update 8,
  -- 94: a12a.update()
  .update 9,
  -- 95: a13a.update()
  .update 10,
  -- 96: a14a.update()
  .update 11,
  -- 97: s23s.update()
  .update 12,
  -- 98: s34s.update()
  .update 13,
  -- 99: a123s.update()
  .update 14,
  -- 100: a132s.update()
  .update 15,
  -- 101: a134s.update()
  .update 16,
  -- 102: a143s.update()
  .update 17,
  -- 109: pDenS=propd.denominator(propSP)
  .den .c 0 0 (.add 0 1),
  -- 110: pDenU=propd.denominator(propUP)
  .den .c 1 0 (.sub 0 3)]

/-- `cdouble amp(ds1,ds2,ds3,ds4)` (SM/gdZd.cpp:116-150); variables: i 0 `ds1`, i 1 `ds2`, i 2 `ds3`, i 3 `ds4`, c 0 `amplitude`, i 4 `ds3a`, i 5 `ds3b`, i 6 `nCombs`, r 0 `normFactor`, i 7 `i` -/
def m_amp : Method := ⟨4, 
  -- 117: cdouble amplitude
  .seq (.set .c 0 (.ofR (.lit 0))) <|
  -- 122: int nCombs
  .seq (.seti 6 (.loops [2])) <|
  -- 123: ldouble normFactor
  .seq (.set .r 0 (.norm [2])) <|
  -- 124: for(int i=0;i<nCombs;i++)
  .seq (.loop 7 0 false (.var 6) 1 (
    -- 125: get_spinor_spins(ds3,ds3a,ds3b,i)
    .seq (.spins [(2, 4, 5)] (.var 7)) <|
    -- 129: if(ds1>0)
    .ite (.lt (.lit 0) (.var 0)) (
      -- 131: amplitude+=normFactor*preTU*(+gL*a23a.v(ds2,ds3a)*(MZ*s14s.v(ds4)*s123a.v(ds3b)+md*s13s.v(ds3b)*s134a.v(ds4))+gR*a34a.v(ds3a,ds4)*(md*s13s.v(ds3b)*s132a.v(ds2)+MZ*s12s.v(ds2)*s143a.v(ds3b)))/pDenU/pDenS
      .set .c 0 (.add (.loc .c 0) (.div (.div (.smul (.mul (.loc .r 0) (.mem .r 9)) (.add (.mul (.smul (.mem .r 11) (.v 3 [.var 1, .var 4])) (.add (.mul (.smul (.mem .r 7) (.v 2 [.var 3])) (.v 5 [.var 5])) (.mul (.smul (.mem .r 3) (.v 1 [.var 5])) (.v 7 [.var 3])))) (.mul (.smul (.mem .r 12) (.v 4 [.var 4, .var 3])) (.add (.mul (.smul (.mem .r 3) (.v 1 [.var 5])) (.v 6 [.var 1])) (.mul (.smul (.mem .r 7) (.v 0 [.var 1])) (.v 8 [.var 5])))))) (.mem .c 1)) (.mem .c 0)))) (
      -- 137: if(ds1<0)
      .ite (.lt (.var 0) (.lit 0)) (
        -- 138: amplitude+=normFactor*preTU*(+gR*s23s.v(ds2,ds3a)*(MZ*a14a.v(ds4)*a123s.v(ds3b)+md*a13a.v(ds3b)*a134s.v(ds4))+gL*s34s.v(ds3a,ds4)*(md*a13a.v(ds3b)*a132s.v(ds2)+MZ*a12a.v(ds2)*a143s.v(ds3b)))/pDenU/pDenS
        .set .c 0 (.add (.loc .c 0) (.div (.div (.smul (.mul (.loc .r 0) (.mem .r 9)) (.add (.mul (.smul (.mem .r 12) (.v 12 [.var 1, .var 4])) (.add (.mul (.smul (.mem .r 7) (.v 11 [.var 3])) (.v 14 [.var 5])) (.mul (.smul (.mem .r 3) (.v 10 [.var 5])) (.v 16 [.var 3])))) (.mul (.smul (.mem .r 11) (.v 13 [.var 4, .var 3])) (.add (.mul (.smul (.mem .r 3) (.v 10 [.var 5])) (.v 15 [.var 1])) (.mul (.smul (.mem .r 7) (.v 9 [.var 1])) (.v 17 [.var 5])))))) (.mem .c 1)) (.mem .c 0)))) (
        .skip)))) <|
  -- 149: return amplitude
  .ret .c (.loc .c 0)⟩

/-- `ldouble amp2()` (SM/gdZd.cpp:153-168); variables: r 0 `amp2`, c 0 `M`, i 0 `j1`, i 1 `j2`, i 2 `j3`, i 3 `j4` -/
def m_amp2 : Method := ⟨0, 
  -- 154: ldouble amp2
  .seq (.set .r 0 (.lit 0)) <|
  -- 155: cdouble M
  .seq (.set .c 0 (.ofR (.lit 0))) <|
  -- 158: for(int j1=-2;j1<=2;j1+=4)
  .seq (.loop 0 (-2) true (.lit 2) 4 (
    -- 159: for(int j2=-1;j2<=1;j2+=2)
    .loop 1 (-1) true (.lit 1) 2 (
      -- 160: for(int j3=-2;j3<=2;j3+=2)
      .loop 2 (-2) true (.lit 2) 2 (
        -- 161: for(int j4=-1;j4<=1;j4+=2)
        .loop 3 (-1) true (.lit 1) 2 (
          -- 162: M=amp(j1,j2,j3,j4)
          .seq (.set .c 0 (.call 0 [.var 0, .var 1, .var 2, .var 3])) <|
          -- 163: amp2+=4.0*std::pow(std::abs(M),2)
          .set .r 0 (.add (.loc .r 0) (.mul (.lit 4) (.pow (.abs (.loc .c 0)) 2)))))))) <|
  -- 167: return amp2/96.0
  .ret .r (.div (.loc .r 0) (.lit 96))⟩

/-- `ldouble amp2_gplus()` (SM/gdZd.cpp:170-184); variables: r 0 `amp2`, c 0 `M`, i 0 `j2`, i 1 `j3`, i 2 `j4` -/
def m_amp2_gplus : Method := ⟨0, 
  -- 171: ldouble amp2
  .seq (.set .r 0 (.lit 0)) <|
  -- 172: cdouble M
  .seq (.set .c 0 (.ofR (.lit 0))) <|
  -- 175: for(int j2=-1;j2<=1;j2+=2)
  .seq (.loop 0 (-1) true (.lit 1) 2 (
    -- 176: for(int j3=-2;j3<=2;j3+=2)
    .loop 1 (-2) true (.lit 2) 2 (
      -- 177: for(int j4=-1;j4<=1;j4+=2)
      .loop 2 (-1) true (.lit 1) 2 (
        -- 178: M=amp(2,j2,j3,j4)
        .seq (.set .c 0 (.call 0 [.lit 2, .var 0, .var 1, .var 2])) <|
        -- 179: amp2+=4.0*std::pow(std::abs(M),2)
        .set .r 0 (.add (.loc .r 0) (.mul (.lit 4) (.pow (.abs (.loc .c 0)) 2))))))) <|
  -- 183: return amp2/48.0
  .ret .r (.div (.loc .r 0) (.lit 48))⟩

/-- `ldouble amp2_gminus()` (SM/gdZd.cpp:186-200); variables: r 0 `amp2`, c 0 `M`, i 0 `j2`, i 1 `j3`, i 2 `j4` -/
def m_amp2_gminus : Method := ⟨0, 
  -- 187: ldouble amp2
  .seq (.set .r 0 (.lit 0)) <|
  -- 188: cdouble M
  .seq (.set .c 0 (.ofR (.lit 0))) <|
  -- 191: for(int j2=-1;j2<=1;j2+=2)
  .seq (.loop 0 (-1) true (.lit 1) 2 (
    -- 192: for(int j3=-2;j3<=2;j3+=2)
    .loop 1 (-2) true (.lit 2) 2 (
      -- 193: for(int j4=-1;j4<=1;j4+=2)
      .loop 2 (-1) true (.lit 1) 2 (
        -- 194: M=amp(-2,j2,j3,j4)
        .seq (.set .c 0 (.call 0 [.lit (-2), .var 0, .var 1, .var 2])) <|
        -- 195: amp2+=4.0*std::pow(std::abs(M),2)
        .set .r 0 (.add (.loc .r 0) (.mul (.lit 4) (.pow (.abs (.loc .c 0)) 2))))))) <|
  -- 199: return amp2/48.0
  .ret .r (.div (.loc .r 0) (.lit 48))⟩

end gdZd

/-- `class gdZd` (SM/gdZd.cpp, SM/include/gdZd.h:25-35).  Members:
* ldouble: 0 `e`, 1 `Qd`, 2 `gs`, 3 `md`, 4 `MW`, 5 `SW`, 6 `CW`, 7 `MZ`, 8 `sqrt2`, 9 `preTU`, 10 `preh`, 11 `gL`, 12 `gR`
* cdouble: 0 `pDenS`, 1 `pDenU`
* propagator: 0 `propd`
* sproduct: 0 `s12s`, 1 `s13s`, 2 `s14s`, 3 `a23a`, 4 `a34a`, 5 `s123a`, 6 `s132a`, 7 `s134a`, 8 `s143a`, 9 `a12a`, 10 `a13a`, 11 `a14a`, 12 `s23s`, 13 `s34s`, 14 `a123s`, 15 `a132s`, 16 `a134s`, 17 `a143s` -/
def gdZd : Proc where
  name := "gdZd"
  nPar := 5
  ctor := gdZd.ctor
  setMasses := gdZd.setMasses
  massPar := [2, 3]
  setMomenta := gdZd.setMomenta
  methods := [gdZd.m_amp2_gminus, gdZd.m_amp2_gplus, gdZd.m_amp2, gdZd.m_amp]
  amp2 := 1
  others := [("amp2_gplus", 2), ("amp2_gminus", 3)]

namespace ggdd

/-- constructor (SM/ggdd.cpp:32-54); parameters: 0 `gcharge`, 1 `massd` -/
def ctor : List SInstr := [
  -- 32: gs(gcharge)
  .set .r 0 (.loc .r 0),
  -- 32: md(massd)
  .set .r 1 (.loc .r 1),
  -- 32: propd(massd,0)
  .prop 0 (.loc .r 1) (.lit 0),
  -- 32: propg(0,0)
  .prop 1 (.lit 0) (.lit 0),
  -- 35: sqrt2=std::sqrt(two)
  .set .r 5 (.sqrt (.lit 2)),
  -- 36: p1=particle(0)
  .part 0 (.lit 0),
  -- 37: p2=particle(0)
  .part 1 (.lit 0),
  -- 38: p3=particle(md)
  .part 2 (.mem .r 1),
  -- 39: p4=particle(md)
  .part 3 (.mem .r 1),
  -- 40: s34s=sproduct(SQUARE,&p3,&p4)
  .sprod 0 ⟨false, 2, true, [], 3, true⟩,
  -- 41: a34a=sproduct(ANGLE,&p3,&p4)
  .sprod 1 ⟨true, 2, true, [], 3, true⟩,
  -- 42: s12s=sproduct(SQUARE,&p1,&p2)
  .sprod 2 ⟨false, 0, true, [], 1, true⟩,
  -- 43: a12a=sproduct(ANGLE,&p1,&p2)
  .sprod 3 ⟨true, 0, true, [], 1, true⟩,
  -- 44: s13s=sproduct(SQUARE,&p1,&p3)
  .sprod 4 ⟨false, 0, true, [], 2, true⟩,
  -- 45: a13a=sproduct(ANGLE,&p1,&p3)
  .sprod 5 ⟨true, 0, true, [], 2, true⟩,
  -- 46: s24s=sproduct(SQUARE,&p2,&p4)
  .sprod 6 ⟨false, 1, true, [], 3, true⟩,
  -- 47: a24a=sproduct(ANGLE,&p2,&p4)
  .sprod 7 ⟨true, 1, true, [], 3, true⟩,
  -- 48: s23s=sproduct(SQUARE,&p2,&p3)
  .sprod 8 ⟨false, 1, true, [], 2, true⟩,
  -- 49: a23a=sproduct(ANGLE,&p2,&p3)
  .sprod 9 ⟨true, 1, true, [], 2, true⟩,
  -- 50: s14s=sproduct(SQUARE,&p1,&p4)
  .sprod 10 ⟨false, 0, true, [], 3, true⟩,
  -- 51: a14a=sproduct(ANGLE,&p1,&p4)
  .sprod 11 ⟨true, 0, true, [], 3, true⟩,
  -- 52: s132a=sproduct(SQUARE,&p1,&p3,&p2)
  .sprod 12 ⟨false, 0, true, [2], 1, true⟩,
  -- 53: s231a=sproduct(SQUARE,&p2,&p3,&p1)
  .sprod 13 ⟨false, 1, true, [2], 0, true⟩]

/-- `set_masses` (SM/ggdd.cpp:55-60); parameters: 0 `massd` -/
def setMasses : List SInstr := [
  -- 56: md=massd
  .set .r 1 (.loc .r 0),
  -- 57: p3.set_mass(md)
  .setMass 2 (.mem .r 1),
  -- 58: p4.set_mass(md)
  .setMass 3 (.mem .r 1),
  -- 59: propd.set_mass(md)
  .propMass 0 (.mem .r 1)]

/-- `set_momenta` (SM/ggdd.cpp:61-91); parameters: 0 `mom1`, 1 `mom2`, 2 `mom3`, 3 `mom4` -/
def setMomenta : List SInstr := [
  -- 63: p1.set_momentum(mom1)
  .setMom 0 0,
  -- 64: p2.set_momentum(mom2)
  .setMom 1 1,
  -- 65: p3.set_momentum(mom3)
  .setMom 2 2,
  -- 66: p4.set_momentum(mom4)
  .setMom 3 3,
  -- 67: s34s.update()
  .update 0,
  -- 68: a34a.update()
  .update 1,
  -- 69: s12s.update()
  .update 2,
  -- 70: a12a.update()
  .update 3,
  -- 71: s13s.update()
  .update 4,
  -- 72: a13a.update()
  .update 5,
  -- 73: s24s.update()
  .update 6,
  -- 74: a24a.update()
  .update 7,
  -- 75: s23s.update()
  .update 8,
  -- 76: a23a.update()
  .update 9,
  -- 77: s14s.update()
  .update 10,
  -- 78: a14a.update()
  .update 11,
  -- 79: s132a.update()
  .update 12,
  -- 80: s231a.update()
  .update 13,
  -- 88: pDenS=std::real(propg.denominator(propSP))
  .den .r 2 1 (.add 0 1),
  -- 89: pDenT=std::real(propd.denominator(propTP))
  .den .r 3 0 (.sub 0 2),
  -- 90: pDenU=std::real(propd.denominator(propUP))
  .den .r 4 0 (.sub 0 3)]

/-- `cdouble amp_Num(ds1,ds2,ds3,ds4)` (SM/ggdd.cpp:98-128); variables: i 0 `ds1`, i 1 `ds2`, i 2 `ds3`, i 3 `ds4` -/
def m_amp_Num : Method := ⟨4, 
  -- 103: if(ds1>0&&ds2>0)
  .seq (.ite (.and (.lt (.lit 0) (.var 0)) (.lt (.lit 0) (.var 1))) (
    -- 107: return 2.0*gs*gs*md*s12s.v()*s12s.v()*a34a.v(ds3,ds4)
    .ret .c (.mul (.mul (.smul (.mul (.mul (.mul (.lit 2) (.mem .r 0)) (.mem .r 0)) (.mem .r 1)) (.v 2 [])) (.v 2 [])) (.v 1 [.var 2, .var 3]))) (
    -- 109: if(ds1<0&&ds2<0)
    .ite (.and (.lt (.var 0) (.lit 0)) (.lt (.var 1) (.lit 0))) (
      -- 113: return 2.0*gs*gs*md*a12a.v()*a12a.v()*s34s.v(ds3,ds4)
      .ret .c (.mul (.mul (.smul (.mul (.mul (.mul (.lit 2) (.mem .r 0)) (.mem .r 0)) (.mem .r 1)) (.v 3 [])) (.v 3 [])) (.v 0 [.var 2, .var 3]))) (
      -- 115: if(ds1>0&&ds2<0)
      .ite (.and (.lt (.lit 0) (.var 0)) (.lt (.var 1) (.lit 0))) (
        -- 119: return -2.0*gs*gs*(s13s.v(ds3)*a24a.v(ds4)+s14s.v(ds4)*a23a.v(ds3))*s132a.v()
        .ret .c (.mul (.smul (.mul (.mul (.neg (.lit 2)) (.mem .r 0)) (.mem .r 0)) (.add (.mul (.v 4 [.var 2]) (.v 7 [.var 3])) (.mul (.v 10 [.var 3]) (.v 9 [.var 2])))) (.v 12 []))) (
        -- 121: if(ds1<0&&ds2>0)
        .ite (.and (.lt (.var 0) (.lit 0)) (.lt (.lit 0) (.var 1))) (
          -- 125: return -2.0*gs*gs*(a13a.v(ds3)*s24s.v(ds4)+a14a.v(ds4)*s23s.v(ds3))*s231a.v()
          .ret .c (.mul (.smul (.mul (.mul (.neg (.lit 2)) (.mem .r 0)) (.mem .r 0)) (.add (.mul (.v 5 [.var 2]) (.v 6 [.var 3])) (.mul (.v 11 [.var 3]) (.v 8 [.var 2])))) (.v 13 []))) (
          .skip))))) <|
  -- 127: return cdouble(0,0)
  .ret .c (.ofR (.lit 0))⟩

/-- `ldouble amp2_Feynman()` (SM/ggdd.cpp:134-139); variables: r 0 `pre`, c 0 `M2` -/
def m_amp2_Feynman : Method := ⟨0, 
  -- 135: ldouble pre
  .seq (.set .r 0 (.mul (.mul (.mul (.mem .r 0) (.mem .r 0)) (.mem .r 0)) (.mem .r 0))) <|
  -- 137: cdouble M2
  .seq (.set .c 0 (.ofR (.mul (.mul (.loc .r 0) (.add (.mul (.mem .r 3) (.mem .r 3)) (.mul (.mem .r 4) (.mem .r 4)))) (.sub (.div (.div (.div (.lit 1) (.lit 6)) (.mem .r 3)) (.mem .r 4)) (.div (.div (.div (.lit 3) (.lit 8)) (.mem .r 2)) (.mem .r 2)))))) <|
  -- 138: return std::abs(M2)
  .ret .r (.abs (.loc .c 0))⟩

/-- `ldouble amp2()` (SM/ggdd.cpp:143-158); variables: r 0 `amp2`, c 0 `M_Num`, i 0 `j1`, i 1 `j2`, i 2 `j3`, i 3 `j4` -/
def m_amp2 : Method := ⟨0, 
  -- 144: ldouble amp2
  .seq (.set .r 0 (.lit 0)) <|
  -- 145: cdouble M_Num
  .seq (.set .c 0 (.ofR (.lit 0))) <|
  -- 148: for(int j1=-2;j1<=2;j1+=4)
  .seq (.loop 0 (-2) true (.lit 2) 4 (
    -- 149: for(int j2=-2;j2<=2;j2+=4)
    .loop 1 (-2) true (.lit 2) 4 (
      -- 150: for(int j3=-1;j3<=1;j3+=2)
      .loop 2 (-1) true (.lit 1) 2 (
        -- 151: for(int j4=-1;j4<=1;j4+=2)
        .loop 3 (-1) true (.lit 1) 2 (
          -- 152: M_Num=amp_Num(j1,j2,j3,j4)
          .seq (.set .c 0 (.call 0 [.var 0, .var 1, .var 2, .var 3])) <|
          -- 153: amp2+=std::pow(std::abs(M_Num),2)*(6.0/std::pow(pDenS*pDenT,2)+6.0/std::pow(pDenS*pDenU,2)-2.0/3.0/std::pow(pDenT*pDenU,2))
          .set .r 0 (.add (.loc .r 0) (.mul (.pow (.abs (.loc .c 0)) 2) (.sub (.add (.div (.lit 6) (.pow (.mul (.mem .r 2) (.mem .r 3)) 2)) (.div (.lit 6) (.pow (.mul (.mem .r 2) (.mem .r 4)) 2))) (.div (.div (.lit 2) (.lit 3)) (.pow (.mul (.mem .r 3) (.mem .r 4)) 2)))))))))) <|
  -- 157: return amp2/256.0
  .ret .r (.div (.loc .r 0) (.lit 256))⟩

/-- `ldouble amp2_gplus_gplus()` (SM/ggdd.cpp:161-173); variables: r 0 `amp2`, c 0 `M_Num`, i 0 `j3`, i 1 `j4` -/
def m_amp2_gplus_gplus : Method := ⟨0, 
  -- 162: ldouble amp2
  .seq (.set .r 0 (.lit 0)) <|
  -- 163: cdouble M_Num
  .seq (.set .c 0 (.ofR (.lit 0))) <|
  -- 166: for(int j3=-1;j3<=1;j3+=2)
  .seq (.loop 0 (-1) true (.lit 1) 2 (
    -- 167: for(int j4=-1;j4<=1;j4+=2)
    .loop 1 (-1) true (.lit 1) 2 (
      -- 168: M_Num=amp_Num(2,2,j3,j4)
      .seq (.set .c 0 (.call 0 [.lit 2, .lit 2, .var 0, .var 1])) <|
      -- 169: amp2+=std::pow(std::abs(M_Num),2)*(6.0/std::pow(pDenS*pDenT,2)+6.0/std::pow(pDenS*pDenU,2)-2.0/3.0/std::pow(pDenT*pDenU,2))
      .set .r 0 (.add (.loc .r 0) (.mul (.pow (.abs (.loc .c 0)) 2) (.sub (.add (.div (.lit 6) (.pow (.mul (.mem .r 2) (.mem .r 3)) 2)) (.div (.lit 6) (.pow (.mul (.mem .r 2) (.mem .r 4)) 2))) (.div (.div (.lit 2) (.lit 3)) (.pow (.mul (.mem .r 3) (.mem .r 4)) 2)))))))) <|
  -- 172: return amp2/64.0
  .ret .r (.div (.loc .r 0) (.lit 64))⟩

/-- `ldouble amp2_gplus_gminus()` (SM/ggdd.cpp:176-188); variables: r 0 `amp2`, c 0 `M_Num`, i 0 `j3`, i 1 `j4` -/
def m_amp2_gplus_gminus : Method := ⟨0, 
  -- 177: ldouble amp2
  .seq (.set .r 0 (.lit 0)) <|
  -- 178: cdouble M_Num
  .seq (.set .c 0 (.ofR (.lit 0))) <|
  -- 181: for(int j3=-1;j3<=1;j3+=2)
  .seq (.loop 0 (-1) true (.lit 1) 2 (
    -- 182: for(int j4=-1;j4<=1;j4+=2)
    .loop 1 (-1) true (.lit 1) 2 (
      -- 183: M_Num=amp_Num(2,-2,j3,j4)
      .seq (.set .c 0 (.call 0 [.lit 2, .lit (-2), .var 0, .var 1])) <|
      -- 184: amp2+=std::pow(std::abs(M_Num),2)*(6.0/std::pow(pDenS*pDenT,2)+6.0/std::pow(pDenS*pDenU,2)-2.0/3.0/std::pow(pDenT*pDenU,2))
      .set .r 0 (.add (.loc .r 0) (.mul (.pow (.abs (.loc .c 0)) 2) (.sub (.add (.div (.lit 6) (.pow (.mul (.mem .r 2) (.mem .r 3)) 2)) (.div (.lit 6) (.pow (.mul (.mem .r 2) (.mem .r 4)) 2))) (.div (.div (.lit 2) (.lit 3)) (.pow (.mul (.mem .r 3) (.mem .r 4)) 2)))))))) <|
  -- 187: return amp2/64.0
  .ret .r (.div (.loc .r 0) (.lit 64))⟩

end ggdd

/-- `class ggdd` (SM/ggdd.cpp, SM/include/ggdd.h:25-32).  Members:
* ldouble: 0 `gs`, 1 `md`, 2 `pDenS`, 3 `pDenT`, 4 `pDenU`, 5 `sqrt2`
* propagator: 0 `propd`, 1 `propg`
* sproduct: 0 `s34s`, 1 `a34a`, 2 `s12s`, 3 `a12a`, 4 `s13s`, 5 `a13a`, 6 `s24s`, 7 `a24a`, 8 `s23s`, 9 `a23a`, 10 `s14s`, 11 `a14a`, 12 `s132a`, 13 `s231a` -/
def ggdd : Proc where
  name := "ggdd"
  nPar := 2
  ctor := ggdd.ctor
  setMasses := ggdd.setMasses
  massPar := [1]
  setMomenta := ggdd.setMomenta
  methods := [ggdd.m_amp2_gplus_gminus, ggdd.m_amp2_gplus_gplus, ggdd.m_amp2, ggdd.m_amp2_Feynman, ggdd.m_amp_Num]
  amp2 := 2
  others := [("amp2_Feynman", 1), ("amp2_gplus_gplus", 3), ("amp2_gplus_gminus", 4)]

namespace gggg

/-- constructor (SM/gggg.cpp:32-55); parameters: 0 `gcharge` -/
def ctor : List SInstr := [
  -- 32: gs(gcharge)
  .set .r 0 (.loc .r 0),
  -- 34: p1=particle(0)
  .part 0 (.lit 0),
  -- 35: p2=particle(0)
  .part 1 (.lit 0),
  -- 36: p3=particle(0)
  .part 2 (.lit 0),
  -- 37: p4=particle(0)
  .part 3 (.lit 0),
  -- 38: s12s=sproduct(SQUARE,&p1,&p2)
  .sprod 0 ⟨false, 0, true, [], 1, true⟩,
  -- 39: a12a=sproduct(ANGLE,&p1,&p2)
  .sprod 1 ⟨true, 0, true, [], 1, true⟩,
  -- 40: s13s=sproduct(SQUARE,&p1,&p3)
  .sprod 2 ⟨false, 0, true, [], 2, true⟩,
  -- 41: a13a=sproduct(ANGLE,&p1,&p3)
  .sprod 3 ⟨true, 0, true, [], 2, true⟩,
  -- 42: s41s=sproduct(SQUARE,&p4,&p1)
  .sprod 4 ⟨false, 3, true, [], 0, true⟩,
  -- 43: a41a=sproduct(ANGLE,&p4,&p1)
  .sprod 5 ⟨true, 3, true, [], 0, true⟩,
  -- 44: s23s=sproduct(SQUARE,&p2,&p3)
  .sprod 8 ⟨false, 1, true, [], 2, true⟩,
  -- 45: a23a=sproduct(ANGLE,&p2,&p3)
  .sprod 9 ⟨true, 1, true, [], 2, true⟩,
  -- 46: s24s=sproduct(SQUARE,&p2,&p4)
  .sprod 6 ⟨false, 1, true, [], 3, true⟩,
  -- 47: a24a=sproduct(ANGLE,&p2,&p4)
  .sprod 7 ⟨true, 1, true, [], 3, true⟩,
  -- 48: s34s=sproduct(SQUARE,&p3,&p4)
  .sprod 10 ⟨false, 2, true, [], 3, true⟩,
  -- 49: a34a=sproduct(ANGLE,&p3,&p4)
  .sprod 11 ⟨true, 2, true, [], 3, true⟩,
  -- 50: s1432s=sproduct(SQUARE,&p1,&p4,&p3,&p2)
  .sprod 12 ⟨false, 0, true, [3, 2], 1, true⟩,
  -- 51: a1432a=sproduct(ANGLE,&p1,&p4,&p3,&p2)
  .sprod 13 ⟨true, 0, true, [3, 2], 1, true⟩,
  -- 52: s3214s=sproduct(SQUARE,&p3,&p2,&p1,&p4)
  .sprod 14 ⟨false, 2, true, [1, 0], 3, true⟩,
  -- 53: a3214a=sproduct(ANGLE,&p3,&p2,&p1,&p4)
  .sprod 15 ⟨true, 2, true, [1, 0], 3, true⟩,
  -- 54: a3124a=sproduct(ANGLE,&p3,&p1,&p2,&p4)
  .sprod 16 ⟨true, 2, true, [0, 1], 3, true⟩]

/-- `set_momenta` (SM/gggg.cpp:56-89); parameters: 0 `mom1`, 1 `mom2`, 2 `mom3`, 3 `mom4` -/
def setMomenta : List SInstr := [
  -- 58: p1.set_momentum(mom1)
  .setMom 0 0,
  -- 59: p2.set_momentum(mom2)
  .setMom 1 1,
  -- 60: p3.set_momentum(mom3)
  .setMom 2 2,
  -- 61: p4.set_momentum(mom4)
  .setMom 3 3,
  -- 62: s34s.update()
  .update 10,
  -- 63: a34a.update()
  .update 11,
  -- 64: s12s.update()
  .update 0,
  -- 65: a12a.update()
  .update 1,
  -- 66: s13s.update()
  .update 2,
  -- 67: a13a.update()
  .update 3,
  -- 68: s24s.update()
  .update 6,
  -- 69: a24a.update()
  .update 7,
  -- 70: s23s.update()
  .update 8,
  -- 71: a23a.update()
  .update 9,
  -- 72: s41s.update()
  .update 4,
  -- 73: a41a.update()
  .update 5,
  -- 74: s1432s.update()
  .update 12,
  -- 75: a1432a.update()
  .update 13,
  -- 76: s3214s.update()
  .update 14,
  -- 77: a3214a.update()
  .update 15,
  -- 78: a3124a.update()
  .update 16,
  -- 86: pDenS=std::real(prop.denominator(propSP))
  .den .r 1 0 (.add 0 1),
  -- 87: pDenT=std::real(prop.denominator(propTP))
  .den .r 2 0 (.sub 0 2),
  -- 88: pDenU=std::real(prop.denominator(propUP))
  .den .r 3 0 (.sub 0 3)]

/-- `cdouble amp(ds1,ds2,ds3,ds4)` (SM/gggg.cpp:103-171); variables: i 0 `ds1`, i 1 `ds2`, i 2 `ds3`, i 3 `ds4` -/
def m_amp : Method := ⟨4, 
  -- 109: if(ds1>0&&ds2>0&&ds3>0&&ds4>0)
  .seq (.ite (.and (.and (.and (.lt (.lit 0) (.var 0)) (.lt (.lit 0) (.var 1))) (.lt (.lit 0) (.var 2))) (.lt (.lit 0) (.var 3))) (
    -- 110: return zero
    .ret .c (.ofR (.lit 0))) (
    -- 112: if((ds1>0&&ds2>0&&ds3>0&&ds4<0)||(ds1>0&&ds2>0&&ds3<0&&ds4>0)||(ds1>0&&ds2<0&&ds3>0&&ds4>0)||(ds1<0&&ds2>0&&ds3>0&&ds4>0))
    .ite (.or (.or (.or (.and (.and (.and (.lt (.lit 0) (.var 0)) (.lt (.lit 0) (.var 1))) (.lt (.lit 0) (.var 2))) (.lt (.var 3) (.lit 0))) (.and (.and (.and (.lt (.lit 0) (.var 0)) (.lt (.lit 0) (.var 1))) (.lt (.var 2) (.lit 0))) (.lt (.lit 0) (.var 3)))) (.and (.and (.and (.lt (.lit 0) (.var 0)) (.lt (.var 1) (.lit 0))) (.lt (.lit 0) (.var 2))) (.lt (.lit 0) (.var 3)))) (.and (.and (.and (.lt (.var 0) (.lit 0)) (.lt (.lit 0) (.var 1))) (.lt (.lit 0) (.var 2))) (.lt (.lit 0) (.var 3)))) (
      -- 116: return zero
      .ret .c (.ofR (.lit 0))) (
      -- 118: if(ds1>0&&ds2>0&&ds3<0&&ds4<0)
      .ite (.and (.and (.and (.lt (.lit 0) (.var 0)) (.lt (.lit 0) (.var 1))) (.lt (.var 2) (.lit 0))) (.lt (.var 3) (.lit 0))) (
        -- 124: return two*gs*gs*s12s.v()*s12s.v()*a34a.v()*a34a.v()
        .ret .c (.mul (.mul (.mul (.smul (.mul (.mul (.lit 2) (.mem .r 0)) (.mem .r 0)) (.v 0 [])) (.v 0 [])) (.v 11 [])) (.v 11 []))) (
        -- 127: if(ds1>0&&ds2<0&&ds3>0&&ds4<0)
        .ite (.and (.and (.and (.lt (.lit 0) (.var 0)) (.lt (.var 1) (.lit 0))) (.lt (.lit 0) (.var 2))) (.lt (.var 3) (.lit 0))) (
          -- 131: return two*gs*gs*s13s.v()*s13s.v()*a24a.v()*a24a.v()
          .ret .c (.mul (.mul (.mul (.smul (.mul (.mul (.lit 2) (.mem .r 0)) (.mem .r 0)) (.v 2 [])) (.v 2 [])) (.v 7 [])) (.v 7 []))) (
          -- 134: if(ds1>0&&ds2<0&&ds3<0&&ds4>0)
          .ite (.and (.and (.and (.lt (.lit 0) (.var 0)) (.lt (.var 1) (.lit 0))) (.lt (.var 2) (.lit 0))) (.lt (.lit 0) (.var 3))) (
            -- 138: return two*gs*gs*s41s.v()*s41s.v()*a23a.v()*a23a.v()
            .ret .c (.mul (.mul (.mul (.smul (.mul (.mul (.lit 2) (.mem .r 0)) (.mem .r 0)) (.v 4 [])) (.v 4 [])) (.v 9 [])) (.v 9 []))) (
            -- 141: if(ds1<0&&ds2>0&&ds3>0&&ds4<0)
            .ite (.and (.and (.and (.lt (.var 0) (.lit 0)) (.lt (.lit 0) (.var 1))) (.lt (.lit 0) (.var 2))) (.lt (.var 3) (.lit 0))) (
              -- 145: return two*gs*gs*s23s.v()*s23s.v()*a41a.v()*a41a.v()
              .ret .c (.mul (.mul (.mul (.smul (.mul (.mul (.lit 2) (.mem .r 0)) (.mem .r 0)) (.v 8 [])) (.v 8 [])) (.v 5 [])) (.v 5 []))) (
              -- 148: if(ds1<0&&ds2>0&&ds3<0&&ds4>0)
              .ite (.and (.and (.and (.lt (.var 0) (.lit 0)) (.lt (.lit 0) (.var 1))) (.lt (.var 2) (.lit 0))) (.lt (.lit 0) (.var 3))) (
                -- 152: return two*gs*gs*s24s.v()*s24s.v()*a13a.v()*a13a.v()
                .ret .c (.mul (.mul (.mul (.smul (.mul (.mul (.lit 2) (.mem .r 0)) (.mem .r 0)) (.v 6 [])) (.v 6 [])) (.v 3 [])) (.v 3 []))) (
                -- 155: if(ds1<0&&ds2<0&&ds3>0&&ds4>0)
                .ite (.and (.and (.and (.lt (.var 0) (.lit 0)) (.lt (.var 1) (.lit 0))) (.lt (.lit 0) (.var 2))) (.lt (.lit 0) (.var 3))) (
                  -- 159: return two*gs*gs*s34s.v()*s34s.v()*a12a.v()*a12a.v()
                  .ret .c (.mul (.mul (.mul (.smul (.mul (.mul (.lit 2) (.mem .r 0)) (.mem .r 0)) (.v 10 [])) (.v 10 [])) (.v 1 [])) (.v 1 []))) (
                  -- 162: if((ds1>0&&ds2<0&&ds3<0&&ds4<0)||(ds1<0&&ds2>0&&ds3<0&&ds4<0)||(ds1<0&&ds2<0&&ds3>0&&ds4<0)||(ds1<0&&ds2<0&&ds3<0&&ds4>0))
                  .ite (.or (.or (.or (.and (.and (.and (.lt (.lit 0) (.var 0)) (.lt (.var 1) (.lit 0))) (.lt (.var 2) (.lit 0))) (.lt (.var 3) (.lit 0))) (.and (.and (.and (.lt (.var 0) (.lit 0)) (.lt (.lit 0) (.var 1))) (.lt (.var 2) (.lit 0))) (.lt (.var 3) (.lit 0)))) (.and (.and (.and (.lt (.var 0) (.lit 0)) (.lt (.var 1) (.lit 0))) (.lt (.lit 0) (.var 2))) (.lt (.var 3) (.lit 0)))) (.and (.and (.and (.lt (.var 0) (.lit 0)) (.lt (.var 1) (.lit 0))) (.lt (.var 2) (.lit 0))) (.lt (.lit 0) (.var 3)))) (
                    -- 166: return zero
                    .ret .c (.ofR (.lit 0))) (
                    -- 168: if(ds1<0&&ds2<0&&ds3<0&&ds4<0)
                    .ite (.and (.and (.and (.lt (.var 0) (.lit 0)) (.lt (.var 1) (.lit 0))) (.lt (.var 2) (.lit 0))) (.lt (.var 3) (.lit 0))) (
                      -- 169: return zero
                      .ret .c (.ofR (.lit 0))) (
                      .skip))))))))))) <|
  -- 170: throw
  .throw .gluonHelicity⟩

/-- `ldouble amp2_Feynman()` (SM/gggg.cpp:177-182); variables: r 0 `pre`, c 0 `M2` -/
def m_amp2_Feynman : Method := ⟨0, 
  -- 178: ldouble pre
  .seq (.set .r 0 (.mul (.mul (.mul (.mul (.div (.lit 9) (.lit 4)) (.mem .r 0)) (.mem .r 0)) (.mem .r 0)) (.mem .r 0))) <|
  -- 180: cdouble M2
  .seq (.set .c 0 (.ofR (.mul (.loc .r 0) (.sub (.sub (.sub (.lit 3) (.div (.div (.mul (.mem .r 2) (.mem .r 3)) (.mem .r 1)) (.mem .r 1))) (.div (.div (.mul (.mem .r 1) (.mem .r 3)) (.mem .r 2)) (.mem .r 2))) (.div (.div (.mul (.mem .r 1) (.mem .r 2)) (.mem .r 3)) (.mem .r 3)))))) <|
  -- 181: return std::abs(M2)
  .ret .r (.abs (.loc .c 0))⟩

/-- `ldouble amp2()` (SM/gggg.cpp:189-206); variables: r 0 `amp2`, c 0 `M`, i 0 `j1`, i 1 `j2`, i 2 `j3`, i 3 `j4` -/
def m_amp2 : Method := ⟨0, 
  -- 190: ldouble amp2
  .seq (.set .r 0 (.lit 0)) <|
  -- 191: cdouble M
  .seq (.set .c 0 (.ofR (.lit 0))) <|
  -- 194: for(int j1=-2;j1<=2;j1+=4)
  .seq (.loop 0 (-2) true (.lit 2) 4 (
    -- 195: for(int j2=-2;j2<=2;j2+=4)
    .loop 1 (-2) true (.lit 2) 4 (
      -- 196: for(int j3=-2;j3<=2;j3+=4)
      .loop 2 (-2) true (.lit 2) 4 (
        -- 197: for(int j4=-2;j4<=2;j4+=4)
        .loop 3 (-2) true (.lit 2) 4 (
          -- 198: M=amp(j1,j2,j3,j4)
          .seq (.set .c 0 (.call 0 [.var 0, .var 1, .var 2, .var 3])) <|
          -- 199: amp2+=std::pow(std::abs(M),2)*(36.0/std::pow(pDenS*pDenT,2)+36.0/std::pow(pDenS*pDenU,2)+36.0/std::pow(pDenT*pDenU,2))
          .set .r 0 (.add (.loc .r 0) (.mul (.pow (.abs (.loc .c 0)) 2) (.add (.add (.div (.lit 36) (.pow (.mul (.mem .r 1) (.mem .r 2)) 2)) (.div (.lit 36) (.pow (.mul (.mem .r 1) (.mem .r 3)) 2))) (.div (.lit 36) (.pow (.mul (.mem .r 2) (.mem .r 3)) 2)))))))))) <|
  -- 205: return amp2/512.0
  .ret .r (.div (.loc .r 0) (.lit 512))⟩

/-- `ldouble amp2_gplus_gplus()` (SM/gggg.cpp:208-222); variables: r 0 `amp2`, c 0 `M`, i 0 `j3`, i 1 `j4` -/
def m_amp2_gplus_gplus : Method := ⟨0, 
  -- 209: ldouble amp2
  .seq (.set .r 0 (.lit 0)) <|
  -- 210: cdouble M
  .seq (.set .c 0 (.ofR (.lit 0))) <|
  -- 213: for(int j3=-2;j3<=2;j3+=4)
  .seq (.loop 0 (-2) true (.lit 2) 4 (
    -- 214: for(int j4=-2;j4<=2;j4+=4)
    .loop 1 (-2) true (.lit 2) 4 (
      -- 215: M=amp(2,2,j3,j4)
      .seq (.set .c 0 (.call 0 [.lit 2, .lit 2, .var 0, .var 1])) <|
      -- 216: amp2+=std::pow(std::abs(M),2)*(36.0/std::pow(pDenS*pDenT,2)+36.0/std::pow(pDenS*pDenU,2)+36.0/std::pow(pDenT*pDenU,2))
      .set .r 0 (.add (.loc .r 0) (.mul (.pow (.abs (.loc .c 0)) 2) (.add (.add (.div (.lit 36) (.pow (.mul (.mem .r 1) (.mem .r 2)) 2)) (.div (.lit 36) (.pow (.mul (.mem .r 1) (.mem .r 3)) 2))) (.div (.lit 36) (.pow (.mul (.mem .r 2) (.mem .r 3)) 2)))))))) <|
  -- 221: return amp2/128.0
  .ret .r (.div (.loc .r 0) (.lit 128))⟩

/-- `ldouble amp2_gplus_gminus()` (SM/gggg.cpp:224-238); variables: r 0 `amp2`, c 0 `M`, i 0 `j3`, i 1 `j4` -/
def m_amp2_gplus_gminus : Method := ⟨0, 
  -- 225: ldouble amp2
  .seq (.set .r 0 (.lit 0)) <|
  -- 226: cdouble M
  .seq (.set .c 0 (.ofR (.lit 0))) <|
  -- 229: for(int j3=-2;j3<=2;j3+=4)
  .seq (.loop 0 (-2) true (.lit 2) 4 (
    -- 230: for(int j4=-2;j4<=2;j4+=4)
    .loop 1 (-2) true (.lit 2) 4 (
      -- 231: M=amp(2,-2,j3,j4)
      .seq (.set .c 0 (.call 0 [.lit 2, .lit (-2), .var 0, .var 1])) <|
      -- 232: amp2+=std::pow(std::abs(M),2)*(36.0/std::pow(pDenS*pDenT,2)+36.0/std::pow(pDenS*pDenU,2)+36.0/std::pow(pDenT*pDenU,2))
      .set .r 0 (.add (.loc .r 0) (.mul (.pow (.abs (.loc .c 0)) 2) (.add (.add (.div (.lit 36) (.pow (.mul (.mem .r 1) (.mem .r 2)) 2)) (.div (.lit 36) (.pow (.mul (.mem .r 1) (.mem .r 3)) 2))) (.div (.lit 36) (.pow (.mul (.mem .r 2) (.mem .r 3)) 2)))))))) <|
  -- 237: return amp2/128.0
  .ret .r (.div (.loc .r 0) (.lit 128))⟩

/-- `ldouble amp2_gminus_gplus()` (SM/gggg.cpp:240-254); variables: r 0 `amp2`, c 0 `M`, i 0 `j3`, i 1 `j4` -/
def m_amp2_gminus_gplus : Method := ⟨0, 
  -- 241: ldouble amp2
  .seq (.set .r 0 (.lit 0)) <|
  -- 242: cdouble M
  .seq (.set .c 0 (.ofR (.lit 0))) <|
  -- 245: for(int j3=-2;j3<=2;j3+=4)
  .seq (.loop 0 (-2) true (.lit 2) 4 (
    -- 246: for(int j4=-2;j4<=2;j4+=4)
    .loop 1 (-2) true (.lit 2) 4 (
      -- 247: M=amp(-2,2,j3,j4)
      .seq (.set .c 0 (.call 0 [.lit (-2), .lit 2, .var 0, .var 1])) <|
      -- 248: amp2+=std::pow(std::abs(M),2)*(36.0/std::pow(pDenS*pDenT,2)+36.0/std::pow(pDenS*pDenU,2)+36.0/std::pow(pDenT*pDenU,2))
      .set .r 0 (.add (.loc .r 0) (.mul (.pow (.abs (.loc .c 0)) 2) (.add (.add (.div (.lit 36) (.pow (.mul (.mem .r 1) (.mem .r 2)) 2)) (.div (.lit 36) (.pow (.mul (.mem .r 1) (.mem .r 3)) 2))) (.div (.lit 36) (.pow (.mul (.mem .r 2) (.mem .r 3)) 2)))))))) <|
  -- 253: return amp2/128.0
  .ret .r (.div (.loc .r 0) (.lit 128))⟩

/-- `ldouble amp2_gminus_gminus()` (SM/gggg.cpp:256-270); variables: r 0 `amp2`, c 0 `M`, i 0 `j3`, i 1 `j4` -/
def m_amp2_gminus_gminus : Method := ⟨0, 
  -- 257: ldouble amp2
  .seq (.set .r 0 (.lit 0)) <|
  -- 258: cdouble M
  .seq (.set .c 0 (.ofR (.lit 0))) <|
  -- 261: for(int j3=-2;j3<=2;j3+=4)
  .seq (.loop 0 (-2) true (.lit 2) 4 (
    -- 262: for(int j4=-2;j4<=2;j4+=4)
    .loop 1 (-2) true (.lit 2) 4 (
      -- 263: M=amp(-2,-2,j3,j4)
      .seq (.set .c 0 (.call 0 [.lit (-2), .lit (-2), .var 0, .var 1])) <|
      -- 264: amp2+=std::pow(std::abs(M),2)*(36.0/std::pow(pDenS*pDenT,2)+36.0/std::pow(pDenS*pDenU,2)+36.0/std::pow(pDenT*pDenU,2))
      .set .r 0 (.add (.loc .r 0) (.mul (.pow (.abs (.loc .c 0)) 2) (.add (.add (.div (.lit 36) (.pow (.mul (.mem .r 1) (.mem .r 2)) 2)) (.div (.lit 36) (.pow (.mul (.mem .r 1) (.mem .r 3)) 2))) (.div (.lit 36) (.pow (.mul (.mem .r 2) (.mem .r 3)) 2)))))))) <|
  -- 269: return amp2/128.0
  .ret .r (.div (.loc .r 0) (.lit 128))⟩

end gggg

/-- `class gggg` (SM/gggg.cpp, SM/include/gggg.h:25-32).  Members:
* ldouble: 0 `gs`, 1 `pDenS`, 2 `pDenT`, 3 `pDenU`
* propagator: 0 `prop`
* sproduct: 0 `s12s`, 1 `a12a`, 2 `s13s`, 3 `a13a`, 4 `s41s`, 5 `a41a`, 6 `s24s`, 7 `a24a`, 8 `s23s`, 9 `a23a`, 10 `s34s`, 11 `a34a`, 12 `s1432s`, 13 `a1432a`, 14 `s3214s`, 15 `a3214a`, 16 `a3124a` -/
def gggg : Proc where
  name := "gggg"
  nPar := 1
  ctor := gggg.ctor
  setMasses := []
  massPar := []
  setMomenta := gggg.setMomenta
  methods := [gggg.m_amp2_gminus_gminus, gggg.m_amp2_gminus_gplus, gggg.m_amp2_gplus_gminus, gggg.m_amp2_gplus_gplus, gggg.m_amp2, gggg.m_amp2_Feynman, gggg.m_amp]
  amp2 := 2
  others := [("amp2_Feynman", 1), ("amp2_gplus_gplus", 3), ("amp2_gplus_gminus", 4), ("amp2_gminus_gplus", 5), ("amp2_gminus_gminus", 6)]

end Spinas.SM.Cls
