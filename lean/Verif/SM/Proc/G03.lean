import Verif.SM.Lang

/-! Generated by tools/sm/translate.py from SM/*.cpp: ZZZZ, ZhWW, ZnWe, dAAd, dAdh, dAgd, dWgu, dZZd, dZdh, ddAA, ddAh, ddWW. -/

namespace Spinas.SM.Cls

namespace ZZZZ

/-- constructor (SM/ZZZZ.cpp:32-58); parameters: 0 `echarge`, 1 `massh`, 2 `widthh`, 3 `massW`, 4 `sinW` -/
def ctor : List SInstr := [
  -- 32: e(echarge)
  .set .r 0 (.loc .r 0),
  -- 32: mh(massh)
  .set .r 1 (.loc .r 1),
  -- 32: wh(widthh)
  .set .r 2 (.loc .r 2),
  -- 32: MW(massW)
  .set .r 3 (.loc .r 3),
  -- 32: SW(sinW)
  .set .r 4 (.loc .r 4),
  -- 32: CW(std::sqrt(1.0-sinW*sinW))
  .set .r 5 (.sqrt (.sub (.lit 1) (.mul (.loc .r 4) (.loc .r 4)))),
  -- 32: MZ(massW/CW)
  .set .r 6 (.div (.loc .r 3) (.mem .r 5)),
  -- 35: sqrt2=std::sqrt(two)
  .set .r 7 (.sqrt (.lit 2)),
  -- 36: CW=std::sqrt(1.0-sinW*sinW)
  .set .r 5 (.sqrt (.sub (.lit 1) (.mul (.loc .r 4) (.loc .r 4)))),
  -- 37: MZ=MW/CW
  .set .r 6 (.div (.mem .r 3) (.mem .r 5)),
  -- 38: proph=propagator(mh,wh)
  .prop 0 (.mem .r 1) (.mem .r 2),
  -- 39: p1=particle(MZ)
  .part 0 (.mem .r 6),
  -- 40: p2=particle(MZ)
  .part 1 (.mem .r 6),
  -- 41: p3=particle(MZ)
  .part 2 (.mem .r 6),
  -- 42: p4=particle(MZ)
  .part 3 (.mem .r 6),
  -- 44: s12s=sproduct(SQUARE,&p1,&p2)
  .sprod 0 ⟨false, 0, true, [], 1, true⟩,
  -- 45: a12a=sproduct(ANGLE,&p1,&p2)
  .sprod 1 ⟨true, 0, true, [], 1, true⟩,
  -- 46: s23s=sproduct(SQUARE,&p2,&p3)
  .sprod 4 ⟨false, 1, true, [], 2, true⟩,
  -- 47: a23a=sproduct(ANGLE,&p2,&p3)
  .sprod 5 ⟨true, 1, true, [], 2, true⟩,
  -- 48: s24s=sproduct(SQUARE,&p2,&p4)
  .sprod 2 ⟨false, 1, true, [], 3, true⟩,
  -- 49: a24a=sproduct(ANGLE,&p2,&p4)
  .sprod 3 ⟨true, 1, true, [], 3, true⟩,
  -- 50: s34s=sproduct(SQUARE,&p3,&p4)
  .sprod 7 ⟨false, 2, true, [], 3, true⟩,
  -- 51: a34a=sproduct(ANGLE,&p3,&p4)
  .sprod 6 ⟨true, 2, true, [], 3, true⟩,
  -- 52: s14s=sproduct(SQUARE,&p1,&p4)
  .sprod 9 ⟨false, 0, true, [], 3, true⟩,
  -- 53: a14a=sproduct(ANGLE,&p1,&p4)
  .sprod 8 ⟨true, 0, true, [], 3, true⟩,
  -- 54: s13s=sproduct(SQUARE,&p1,&p3)
  .sprod 11 ⟨false, 0, true, [], 2, true⟩,
  -- 55: a13a=sproduct(ANGLE,&p1,&p3)
  .sprod 10 ⟨true, 0, true, [], 2, true⟩,
  -- 57: pre=e*e/(MW*MW*SW*SW)
  .set .r 8 (.div (.mul (.mem .r 0) (.mem .r 0)) (.mul (.mul (.mul (.mem .r 3) (.mem .r 3)) (.mem .r 4)) (.mem .r 4)))]

/-- `set_masses` (SM/ZZZZ.cpp:59-70); parameters: 0 `massh`, 1 `massW` -/
def setMasses : List SInstr := [
  -- 60: mh=massh
  .set .r 1 (.loc .r 0),
  -- 61: MW=massW
  .set .r 3 (.loc .r 1),
  -- 62: MZ=MW/CW
  .set .r 6 (.div (.mem .r 3) (.mem .r 5)),
  -- 63: p1.set_mass(MZ)
  .setMass 0 (.mem .r 6),
  -- 64: p2.set_mass(MZ)
  .setMass 1 (.mem .r 6),
  -- 65: p3.set_mass(MZ)
  .setMass 2 (.mem .r 6),
  -- 66: p4.set_mass(MZ)
  .setMass 3 (.mem .r 6),
  -- 67: proph.set_mass(mh)
  .propMass 0 (.mem .r 1),
  -- 69: pre=e*e/(MW*MW*SW*SW)
  .set .r 8 (.div (.mul (.mem .r 0) (.mem .r 0)) (.mul (.mul (.mul (.mem .r 3) (.mem .r 3)) (.mem .r 4)) (.mem .r 4)))]

/-- `set_momenta` (SM/ZZZZ.cpp:71-100); parameters: 0 `mom1`, 1 `mom2`, 2 `mom3`, 3 `mom4` -/
def setMomenta : List SInstr := [
  -- 73: p1.set_momentum(mom1)
  .setMom 0 0,
  -- 74: p2.set_momentum(mom2)
  .setMom 1 1,
  -- 75: p3.set_momentum(mom3)
  .setMom 2 2,
  -- 76: p4.set_momentum(mom4)
  .setMom 3 3,
  -- 78: s12s.update()
  .update 0,
  -- 79: a12a.update()
  .update 1,
  -- 80: s23s.update()
  .update 4,
  -- 81: a23a.update()
  .update 5,
  -- 82: s24s.update()
  .update 2,
  -- 83: a24a.update()
  .update 3,
  -- 84: s34s.update()
  .update 7,
  -- 85: a34a.update()
  .update 6,
  -- 86: s14s.update()
  .update 9,
  -- 87: a14a.update()
  .update 8,
  -- 88: s13s.update()
  .update 11,
  -- 89: a13a.update()
  .update 10,
  -- 97: pDenS=proph.denominator(propSP)
  .den .c 0 0 (.add 0 1),
  -- 98: pDenT=proph.denominator(propTP)
  .den .c 1 0 (.sub 0 2),
  -- 99: pDenU=proph.denominator(propUP)
  .den .c 2 0 (.sub 0 3)]

/-- `cdouble amp(ds1,ds2,ds3,ds4)` (SM/ZZZZ.cpp:105-133); variables: i 0 `ds1`, i 1 `ds2`, i 2 `ds3`, i 3 `ds4`, c 0 `amplitude`, i 4 `ds1a`, i 5 `ds1b`, i 6 `ds2a`, i 7 `ds2b`, i 8 `ds3a`, i 9 `ds3b`, i 10 `ds4a`, i 11 `ds4b`, i 12 `nCombs`, r 0 `normFactor`, i 13 `i` -/
def m_amp : Method := ⟨4, 
  -- 106: cdouble amplitude
  .seq (.set .c 0 (.ofR (.lit 0))) <|
  -- 111: int nCombs
  .seq (.seti 12 (.loops [0, 1, 2, 3])) <|
  -- 112: ldouble normFactor
  .seq (.set .r 0 (.norm [0, 1, 2, 3])) <|
  -- 114: for(int i=0;i<nCombs;i++)
  .seq (.loop 13 0 false (.var 12) 1 (
    -- 115: get_spinor_spins(ds1,ds1a,ds1b,ds2,ds2a,ds2b,ds3,ds3a,ds3b,ds4,ds4a,ds4b,i)
    .seq (.spins [(0, 4, 5), (1, 6, 7), (2, 8, 9), (3, 10, 11)] (.var 13)) <|
    -- 126: amplitude+=normFactor*pre*s12s.v(ds1a,ds2a)*a12a.v(ds1b,ds2b)*s34s.v(ds3a,ds4a)*a34a.v(ds3b,ds4b)/pDenS
    .seq (.set .c 0 (.add (.loc .c 0) (.div (.mul (.mul (.mul (.smul (.mul (.loc .r 0) (.mem .r 8)) (.v 0 [.var 4, .var 6])) (.v 1 [.var 5, .var 7])) (.v 7 [.var 8, .var 10])) (.v 6 [.var 9, .var 11])) (.mem .c 0)))) <|
    -- 127: amplitude+=normFactor*pre*s13s.v(ds1a,ds3a)*a13a.v(ds1b,ds3b)*s24s.v(ds2a,ds4a)*a24a.v(ds2b,ds4b)/pDenT
    .seq (.set .c 0 (.add (.loc .c 0) (.div (.mul (.mul (.mul (.smul (.mul (.loc .r 0) (.mem .r 8)) (.v 11 [.var 4, .var 8])) (.v 10 [.var 5, .var 9])) (.v 2 [.var 6, .var 10])) (.v 3 [.var 7, .var 11])) (.mem .c 1)))) <|
    -- 128: amplitude+=normFactor*pre*s14s.v(ds1a,ds4a)*a14a.v(ds1b,ds4b)*s23s.v(ds2a,ds3a)*a23a.v(ds2b,ds3b)/pDenU
    .set .c 0 (.add (.loc .c 0) (.div (.mul (.mul (.mul (.smul (.mul (.loc .r 0) (.mem .r 8)) (.v 9 [.var 4, .var 10])) (.v 8 [.var 5, .var 11])) (.v 4 [.var 6, .var 8])) (.v 5 [.var 7, .var 9])) (.mem .c 2))))) <|
  -- 132: return amplitude
  .ret .c (.loc .c 0)⟩

/-- `ldouble amp2()` (SM/ZZZZ.cpp:136-151); variables: r 0 `amp2`, c 0 `M`, i 0 `j1`, i 1 `j2`, i 2 `j3`, i 3 `j4` -/
def m_amp2 : Method := ⟨0, 
  -- 137: ldouble amp2
  .seq (.set .r 0 (.lit 0)) <|
  -- 138: cdouble M
  .seq (.set .c 0 (.ofR (.lit 0))) <|
  -- 141: for(int j1=-2;j1<=2;j1+=2)
  .seq (.loop 0 (-2) true (.lit 2) 2 (
    -- 142: for(int j2=-2;j2<=2;j2+=2)
    .loop 1 (-2) true (.lit 2) 2 (
      -- 143: for(int j3=-2;j3<=2;j3+=2)
      .loop 2 (-2) true (.lit 2) 2 (
        -- 144: for(int j4=-2;j4<=2;j4+=2)
        .loop 3 (-2) true (.lit 2) 2 (
          -- 145: M=amp(j1,j2,j3,j4)
          .seq (.set .c 0 (.call 0 [.var 0, .var 1, .var 2, .var 3])) <|
          -- 146: amp2+=std::pow(std::abs(M),2)
          .set .r 0 (.add (.loc .r 0) (.pow (.abs (.loc .c 0)) 2))))))) <|
  -- 150: return amp2/18.0
  .ret .r (.div (.loc .r 0) (.lit 18))⟩

end ZZZZ

/-- `class ZZZZ` (SM/ZZZZ.cpp, SM/include/ZZZZ.h:25-34).  Members:
* ldouble: 0 `e`, 1 `mh`, 2 `wh`, 3 `MW`, 4 `SW`, 5 `CW`, 6 `MZ`, 7 `sqrt2`, 8 `pre`
* cdouble: 0 `pDenS`, 1 `pDenT`, 2 `pDenU`
* propagator: 0 `proph`
* sproduct: 0 `s12s`, 1 `a12a`, 2 `s24s`, 3 `a24a`, 4 `s23s`, 5 `a23a`, 6 `a34a`, 7 `s34s`, 8 `a14a`, 9 `s14s`, 10 `a13a`, 11 `s13s` -/
def ZZZZ : Proc where
  name := "ZZZZ"
  nPar := 5
  ctor := ZZZZ.ctor
  setMasses := ZZZZ.setMasses
  massPar := [1, 3]
  setMomenta := ZZZZ.setMomenta
  methods := [ZZZZ.m_amp2, ZZZZ.m_amp]
  amp2 := 1
  others := []

namespace ZhWW

/-- constructor (SM/ZhWW.cpp:32-66); parameters: 0 `echarge`, 1 `massh`, 2 `massW`, 3 `sinW`, 4 `widthW`, 5 `widthZ` -/
def ctor : List SInstr := [
  -- 32: e(echarge)
  .set .r 0 (.loc .r 0),
  -- 32: mh(massh)
  .set .r 1 (.loc .r 1),
  -- 32: MW(massW)
  .set .r 2 (.loc .r 2),
  -- 32: SW(sinW)
  .set .r 4 (.loc .r 3),
  -- 32: CW(std::sqrt(1.0-sinW*sinW))
  .set .r 5 (.sqrt (.sub (.lit 1) (.mul (.loc .r 3) (.loc .r 3)))),
  -- 32: WW(widthW)
  .set .r 6 (.loc .r 4),
  -- 32: WZ(widthZ)
  .set .r 7 (.loc .r 5),
  -- 35: sqrt2=std::sqrt(two)
  .set .r 8 (.sqrt (.lit 2)),
  -- 36: CW=std::sqrt(1.0-sinW*sinW)
  .set .r 5 (.sqrt (.sub (.lit 1) (.mul (.loc .r 3) (.loc .r 3)))),
  -- 37: MZ=MW/CW
  .set .r 3 (.div (.mem .r 2) (.mem .r 5)),
  -- 38: propW=propagator(MW,WW)
  .prop 0 (.mem .r 2) (.mem .r 6),
  -- 39: propZ=propagator(MZ,WZ)
  .prop 1 (.mem .r 3) (.mem .r 7),
  -- 40: p1=particle(MZ)
  .part 0 (.mem .r 3),
  -- 41: p2=particle(mh)
  .part 1 (.mem .r 1),
  -- 42: p3=particle(MW)
  .part 2 (.mem .r 2),
  -- 43: p4=particle(MW)
  .part 3 (.mem .r 2),
  -- 45: s34s=sproduct(SQUARE,&p3,&p4)
  .sprod 1 ⟨false, 2, true, [], 3, true⟩,
  -- 46: a34a=sproduct(ANGLE,&p3,&p4)
  .sprod 0 ⟨true, 2, true, [], 3, true⟩,
  -- 47: s14s=sproduct(SQUARE,&p1,&p4)
  .sprod 3 ⟨false, 0, true, [], 3, true⟩,
  -- 48: a14a=sproduct(ANGLE,&p1,&p4)
  .sprod 2 ⟨true, 0, true, [], 3, true⟩,
  -- 49: s13s=sproduct(SQUARE,&p1,&p3)
  .sprod 5 ⟨false, 0, true, [], 2, true⟩,
  -- 50: a13a=sproduct(ANGLE,&p1,&p3)
  .sprod 4 ⟨true, 0, true, [], 2, true⟩,
  -- 52: s131a=sproduct(SQUARE,&p1,&p3,&p1)
  .sprod 6 ⟨false, 0, true, [2], 0, true⟩,
  -- 53: s141a=sproduct(SQUARE,&p1,&p4,&p1)
  .sprod 7 ⟨false, 0, true, [3], 0, true⟩,
  -- 54: s431a=sproduct(SQUARE,&p4,&p3,&p1)
  .sprod 8 ⟨false, 3, true, [2], 0, true⟩,
  -- 55: s424a=sproduct(SQUARE,&p4,&p2,&p4)
  .sprod 9 ⟨false, 3, true, [1], 3, true⟩,
  -- 56: s341a=sproduct(SQUARE,&p3,&p4,&p1)
  .sprod 10 ⟨false, 2, true, [3], 0, true⟩,
  -- 57: s323a=sproduct(SQUARE,&p3,&p2,&p3)
  .sprod 11 ⟨false, 2, true, [1], 2, true⟩,
  -- 58: s123a=sproduct(SQUARE,&p1,&p2,&p3)
  .sprod 12 ⟨false, 0, true, [1], 2, true⟩,
  -- 59: s124a=sproduct(SQUARE,&p1,&p2,&p4)
  .sprod 13 ⟨false, 0, true, [1], 3, true⟩,
  -- 60: s321a=sproduct(SQUARE,&p3,&p2,&p1)
  .sprod 14 ⟨false, 2, true, [1], 0, true⟩,
  -- 61: s421a=sproduct(SQUARE,&p4,&p2,&p1)
  .sprod 15 ⟨false, 3, true, [1], 0, true⟩,
  -- 63: pre=e*e/(sqrt2*MW*MW*SW*SW)
  .set .r 9 (.div (.mul (.mem .r 0) (.mem .r 0)) (.mul (.mul (.mul (.mul (.mem .r 8) (.mem .r 2)) (.mem .r 2)) (.mem .r 4)) (.mem .r 4))),
  -- 64: preS=pre
  .set .r 10 (.mem .r 9),
  -- 65: preTU=pre/(MZ*MZ)
  .set .r 11 (.div (.mem .r 9) (.mul (.mem .r 3) (.mem .r 3)))]

/-- `set_masses` (SM/ZhWW.cpp:67-80); parameters: 0 `massh`, 1 `massW` -/
def setMasses : List SInstr := [
  -- 68: mh=massh
  .set .r 1 (.loc .r 0),
  -- 69: MW=massW
  .set .r 2 (.loc .r 1),
  -- 70: MZ=MW/CW
  .set .r 3 (.div (.mem .r 2) (.mem .r 5)),
  -- 71: p1.set_mass(MZ)
  .setMass 0 (.mem .r 3),
  -- 72: p2.set_mass(mh)
  .setMass 1 (.mem .r 1),
  -- 73: p3.set_mass(MW)
  .setMass 2 (.mem .r 2),
  -- 74: p4.set_mass(MW)
  .setMass 3 (.mem .r 2),
  -- 75: propW.set_mass(MW)
  .propMass 0 (.mem .r 2),
  -- 77: pre=e*e/(sqrt2*MW*MW*SW*SW)
  .set .r 9 (.div (.mul (.mem .r 0) (.mem .r 0)) (.mul (.mul (.mul (.mul (.mem .r 8) (.mem .r 2)) (.mem .r 2)) (.mem .r 4)) (.mem .r 4))),
  -- 78: preS=pre
  .set .r 10 (.mem .r 9),
  -- 79: preTU=pre/(MZ*MZ)
  .set .r 11 (.div (.mem .r 9) (.mul (.mem .r 3) (.mem .r 3)))]

/-- `set_momenta` (SM/ZhWW.cpp:81-115); parameters: 0 `mom1`, 1 `mom2`, 2 `mom3`, 3 `mom4` -/
def setMomenta : List SInstr := [
  -- 83: p1.set_momentum(mom1)
  .setMom 0 0,
  -- 84: p2.set_momentum(mom2)
  .setMom 1 1,
  -- 85: p3.set_momentum(mom3)
  .setMom 2 2,
  -- 86: p4.set_momentum(mom4)
  .setMom 3 3,
  -- 88: s34s.update()
  .update 1,
  -- 89: a34a.update()
  .update 0,
  -- 90: s14s.update()
  .update 3,
  -- 91: a14a.update()
  .update 2,
  -- 92: s13s.update()
  .update 5,
  -- 93: a13a.update()
  .update 4,
  -- 95: s131a.update()
  .update 6,
  -- 96: s141a.update()
  .update 7,
  -- 97: s431a.update()
  .update 8,
  -- 98: s424a.update()
  .update 9,
  -- 99: s341a.update()
  .update 10,
  -- 100: s323a.update()
  .update 11,
  -- 101: s123a.update()
  .update 12,
  -- 102: s124a.update()
  .update 13,
  -- 103: s321a.update()
  .update 14,
  -- 104: s421a.update()
  .update 15,
  -- 112: pDenS=propZ.denominator(propSP)
  .den .c 0 1 (.add 0 1),
  -- 113: pDenT=propW.denominator(propTP)
  .den .c 1 0 (.sub 0 2),
  -- 114: pDenU=propW.denominator(propUP)
  .den .c 2 0 (.sub 0 3)]

/-- `cdouble amp(ds1,ds3,ds4)` (SM/ZhWW.cpp:120-174); variables: i 0 `ds1`, i 1 `ds3`, i 2 `ds4`, c 0 `amplitude`, i 3 `ds1a`, i 4 `ds1b`, i 5 `ds3a`, i 6 `ds3b`, i 7 `ds4a`, i 8 `ds4b`, i 9 `nCombs`, r 0 `normFactor`, i 10 `i` -/
def m_amp : Method := ⟨3, 
  -- 121: cdouble amplitude
  .seq (.set .c 0 (.ofR (.lit 0))) <|
  -- 126: int nCombs
  .seq (.seti 9 (.loops [0, 1, 2])) <|
  -- 127: ldouble normFactor
  .seq (.set .r 0 (.norm [0, 1, 2])) <|
  -- 129: for(int i=0;i<nCombs;i++)
  .seq (.loop 10 0 false (.var 9) 1 (
    -- 130: get_spinor_spins(ds1,ds1a,ds1b,ds3,ds3a,ds3b,ds4,ds4a,ds4b,i)
    .seq (.spins [(0, 3, 4), (1, 5, 6), (2, 7, 8)] (.var 10)) <|
    -- 140: amplitude+=normFactor*preS*(s34s.v(ds3a,ds4a)*a34a.v(ds3b,ds4b)*(s131a.v(ds1a,ds1b)-s141a.v(ds1a,ds1b))+2*MW*(s13s.v(ds1a,ds3a)*a14a.v(ds1b,ds4a)+s14s.v(ds1a,ds4a)*a13a.v(ds1b,ds3a))*(s34s.v(ds3b,ds4b)+a34a.v(ds3b,ds4b)))/pDenS
    .seq (.set .c 0 (.add (.loc .c 0) (.div (.smul (.mul (.loc .r 0) (.mem .r 10)) (.add (.mul (.mul (.v 1 [.var 5, .var 7]) (.v 0 [.var 6, .var 8])) (.sub (.v 6 [.var 3, .var 4]) (.v 7 [.var 3, .var 4]))) (.mul (.smul (.mul (.lit 2) (.mem .r 2)) (.add (.mul (.v 5 [.var 3, .var 5]) (.v 2 [.var 4, .var 7])) (.mul (.v 3 [.var 3, .var 7]) (.v 4 [.var 4, .var 5])))) (.add (.v 1 [.var 6, .var 8]) (.v 0 [.var 6, .var 8]))))) (.mem .c 0)))) <|
    -- 150: amplitude+=normFactor*preTU*(2.0*MW*MW*s13s.v(ds1a,ds3a)*a34a.v(ds3b,ds4a)*s431a.v(ds4b,ds1b)+MZ*MZ*s13s.v(ds1a,ds3a)*a13a.v(ds1b,ds3b)*s424a.v(ds4a,ds4b)+2.0*MW*MW*MW*s14s.v(ds1a,ds4a)*a13a.v(ds1b,ds3a)*a34a.v(ds3b,ds4b)-2.0*MW*MW*MZ*s13s.v(ds1a,ds3a)*s14s.v(ds1b,ds4a)*a34a.v(ds3b,ds4b)-2.0*MW*MW*MZ*a13a.v(ds1a,ds3a)*a14a.v(ds1b,ds4a)*s34s.v(ds3b,ds4b))/pDenT
    .seq (.set .c 0 (.add (.loc .c 0) (.div (.smul (.mul (.loc .r 0) (.mem .r 11)) (.sub (.sub (.add (.add (.mul (.mul (.smul (.mul (.mul (.lit 2) (.mem .r 2)) (.mem .r 2)) (.v 5 [.var 3, .var 5])) (.v 0 [.var 6, .var 7])) (.v 8 [.var 8, .var 4])) (.mul (.mul (.smul (.mul (.mem .r 3) (.mem .r 3)) (.v 5 [.var 3, .var 5])) (.v 4 [.var 4, .var 6])) (.v 9 [.var 7, .var 8]))) (.mul (.mul (.smul (.mul (.mul (.mul (.lit 2) (.mem .r 2)) (.mem .r 2)) (.mem .r 2)) (.v 3 [.var 3, .var 7])) (.v 4 [.var 4, .var 5])) (.v 0 [.var 6, .var 8]))) (.mul (.mul (.smul (.mul (.mul (.mul (.lit 2) (.mem .r 2)) (.mem .r 2)) (.mem .r 3)) (.v 5 [.var 3, .var 5])) (.v 3 [.var 4, .var 7])) (.v 0 [.var 6, .var 8]))) (.mul (.mul (.smul (.mul (.mul (.mul (.lit 2) (.mem .r 2)) (.mem .r 2)) (.mem .r 3)) (.v 4 [.var 3, .var 5])) (.v 2 [.var 4, .var 7])) (.v 1 [.var 6, .var 8])))) (.mem .c 1)))) <|
    -- 163: amplitude+=normFactor*preTU*(2.0*MW*MW*s14s.v(ds1a,ds4a)*a34a.v(ds3a,ds4b)*s341a.v(ds3b,ds1b)-MZ*MZ*s14s.v(ds1a,ds4a)*a14a.v(ds1b,ds4b)*s323a.v(ds3a,ds3b)+2.0*MW*MW*MW*s13s.v(ds1a,ds3a)*a14a.v(ds1b,ds4a)*a34a.v(ds3b,ds4b)-2.0*MW*MW*MZ*s14s.v(ds1a,ds4a)*s13s.v(ds1b,ds3a)*a34a.v(ds3b,ds4b)-2.0*MW*MW*MZ*a14a.v(ds1a,ds4a)*a13a.v(ds1b,ds3a)*s34s.v(ds3b,ds4b))/pDenU
    .set .c 0 (.add (.loc .c 0) (.div (.smul (.mul (.loc .r 0) (.mem .r 11)) (.sub (.sub (.add (.sub (.mul (.mul (.smul (.mul (.mul (.lit 2) (.mem .r 2)) (.mem .r 2)) (.v 3 [.var 3, .var 7])) (.v 0 [.var 5, .var 8])) (.v 10 [.var 6, .var 4])) (.mul (.mul (.smul (.mul (.mem .r 3) (.mem .r 3)) (.v 3 [.var 3, .var 7])) (.v 2 [.var 4, .var 8])) (.v 11 [.var 5, .var 6]))) (.mul (.mul (.smul (.mul (.mul (.mul (.lit 2) (.mem .r 2)) (.mem .r 2)) (.mem .r 2)) (.v 5 [.var 3, .var 5])) (.v 2 [.var 4, .var 7])) (.v 0 [.var 6, .var 8]))) (.mul (.mul (.smul (.mul (.mul (.mul (.lit 2) (.mem .r 2)) (.mem .r 2)) (.mem .r 3)) (.v 3 [.var 3, .var 7])) (.v 5 [.var 4, .var 5])) (.v 0 [.var 6, .var 8]))) (.mul (.mul (.smul (.mul (.mul (.mul (.lit 2) (.mem .r 2)) (.mem .r 2)) (.mem .r 3)) (.v 2 [.var 3, .var 7])) (.v 4 [.var 4, .var 5])) (.v 1 [.var 6, .var 8])))) (.mem .c 2))))) <|
  -- 173: return amplitude
  .ret .c (.loc .c 0)⟩

/-- `ldouble amp2()` (SM/ZhWW.cpp:177-190); variables: r 0 `amp2`, c 0 `M`, i 0 `j1`, i 1 `j3`, i 2 `j4` -/
def m_amp2 : Method := ⟨0, 
  -- 178: ldouble amp2
  .seq (.set .r 0 (.lit 0)) <|
  -- 179: cdouble M
  .seq (.set .c 0 (.ofR (.lit 0))) <|
  -- 182: for(int j1=-2;j1<=2;j1+=2)
  .seq (.loop 0 (-2) true (.lit 2) 2 (
    -- 183: for(int j3=-2;j3<=2;j3+=2)
    .loop 1 (-2) true (.lit 2) 2 (
      -- 184: for(int j4=-2;j4<=2;j4+=2)
      .loop 2 (-2) true (.lit 2) 2 (
        -- 185: M=amp(j1,j3,j4)
        .seq (.set .c 0 (.call 0 [.var 0, .var 1, .var 2])) <|
        -- 186: amp2+=std::pow(std::abs(M),2)
        .set .r 0 (.add (.loc .r 0) (.pow (.abs (.loc .c 0)) 2)))))) <|
  -- 189: return amp2/3.0
  .ret .r (.div (.loc .r 0) (.lit 3))⟩

end ZhWW

/-- `class ZhWW` (SM/ZhWW.cpp, SM/include/ZhWW.h:25-36).  Members:
* ldouble: 0 `e`, 1 `mh`, 2 `MW`, 3 `MZ`, 4 `SW`, 5 `CW`, 6 `WW`, 7 `WZ`, 8 `sqrt2`, 9 `pre`, 10 `preS`, 11 `preTU`
* cdouble: 0 `pDenS`, 1 `pDenT`, 2 `pDenU`
* propagator: 0 `propW`, 1 `propZ`
* sproduct: 0 `a34a`, 1 `s34s`, 2 `a14a`, 3 `s14s`, 4 `a13a`, 5 `s13s`, 6 `s131a`, 7 `s141a`, 8 `s431a`, 9 `s424a`, 10 `s341a`, 11 `s323a`, 12 `s123a`, 13 `s124a`, 14 `s321a`, 15 `s421a` -/
def ZhWW : Proc where
  name := "ZhWW"
  nPar := 6
  ctor := ZhWW.ctor
  setMasses := ZhWW.setMasses
  massPar := [1, 2]
  setMomenta := ZhWW.setMomenta
  methods := [ZhWW.m_amp2, ZhWW.m_amp]
  amp2 := 1
  others := []

namespace ZnWe

/-- constructor (SM/ZnWe.cpp:32-65); parameters: 0 `echarge`, 1 `masse`, 2 `massW`, 3 `sinW`, 4 `widthW` -/
def ctor : List SInstr := [
  -- 32: e(echarge)
  .set .r 0 (.loc .r 0),
  -- 32: me(masse)
  .set .r 1 (.loc .r 1),
  -- 32: MW(massW)
  .set .r 2 (.loc .r 2),
  -- 32: SW(sinW)
  .set .r 4 (.loc .r 3),
  -- 32: WW(widthW)
  .set .r 6 (.loc .r 4),
  -- 35: CW=std::sqrt(1-SW*SW)
  .set .r 5 (.sqrt (.sub (.lit 1) (.mul (.mem .r 4) (.mem .r 4)))),
  -- 36: MZ=MW/CW
  .set .r 3 (.div (.mem .r 2) (.mem .r 5)),
  -- 37: propW=propagator(MW,WW)
  .prop 0 (.mem .r 2) (.mem .r 6),
  -- 38: prope=propagator(me,0)
  .prop 1 (.mem .r 1) (.lit 0),
  -- 39: propne=propagator(0,0)
  .prop 2 (.lit 0) (.lit 0),
  -- 40: p1=particle(MZ)
  .part 0 (.mem .r 3),
  -- 41: p2=particle(0)
  .part 1 (.lit 0),
  -- 42: p3=particle(MW)
  .part 2 (.mem .r 2),
  -- 43: p4=particle(me)
  .part 3 (.mem .r 1),
  -- 45: a13a=sproduct(ANGLE,&p1,&p3)
  .sprod 0 ⟨true, 0, true, [], 2, true⟩,
  -- 46: s13s=sproduct(SQUARE,&p1,&p3)
  .sprod 1 ⟨false, 0, true, [], 2, true⟩,
  -- 47: a21a=sproduct(ANGLE,&p2,&p1)
  .sprod 2 ⟨true, 1, true, [], 0, true⟩,
  -- 48: s43s=sproduct(SQUARE,&p4,&p3)
  .sprod 3 ⟨false, 3, true, [], 2, true⟩,
  -- 49: a23a=sproduct(ANGLE,&p2,&p3)
  .sprod 4 ⟨true, 1, true, [], 2, true⟩,
  -- 50: s41s=sproduct(SQUARE,&p4,&p1)
  .sprod 5 ⟨false, 3, true, [], 0, true⟩,
  -- 51: a42a=sproduct(ANGLE,&p4,&p2)
  .sprod 6 ⟨true, 3, true, [], 1, true⟩,
  -- 52: s412a=sproduct(SQUARE,&p4,&p1,&p2)
  .sprod 7 ⟨false, 3, true, [0], 1, true⟩,
  -- 54: a41a=sproduct(ANGLE,&p4,&p1)
  .sprod 8 ⟨true, 3, true, [], 0, true⟩,
  -- 55: s341a=sproduct(SQUARE,&p3,&p4,&p1)
  .sprod 9 ⟨false, 2, true, [3], 0, true⟩,
  -- 57: s143a=sproduct(SQUARE,&p1,&p4,&p3)
  .sprod 10 ⟨false, 0, true, [3], 2, true⟩,
  -- 59: preW=e*e/(std::sqrt(2.0)*MW*MW*MZ*MZ*SW*SW)
  .set .r 7 (.div (.mul (.mem .r 0) (.mem .r 0)) (.mul (.mul (.mul (.mul (.mul (.mul (.sqrt (.lit 2)) (.mem .r 2)) (.mem .r 2)) (.mem .r 3)) (.mem .r 3)) (.mem .r 4)) (.mem .r 4))),
  -- 60: pree=e*e/(std::sqrt(2.0)*MW*MW*SW*SW)
  .set .r 8 (.div (.mul (.mem .r 0) (.mem .r 0)) (.mul (.mul (.mul (.mul (.sqrt (.lit 2)) (.mem .r 2)) (.mem .r 2)) (.mem .r 4)) (.mem .r 4))),
  -- 61: pren=e*e/(std::sqrt(2.0)*MW*MW*SW*SW)
  .set .r 9 (.div (.mul (.mem .r 0) (.mem .r 0)) (.mul (.mul (.mul (.mul (.sqrt (.lit 2)) (.mem .r 2)) (.mem .r 2)) (.mem .r 4)) (.mem .r 4))),
  -- 63: gL=two*SW*SW-one
  .set .r 10 (.sub (.mul (.mul (.lit 2) (.mem .r 4)) (.mem .r 4)) (.lit 1)),
  -- 64: gR=two*SW*SW
  .set .r 11 (.mul (.mul (.lit 2) (.mem .r 4)) (.mem .r 4))]

/-- `set_masses` (SM/ZnWe.cpp:66-80); parameters: 0 `masse`, 1 `massW` -/
def setMasses : List SInstr := [
  -- 68: me=masse
  .set .r 1 (.loc .r 0),
  -- 69: MW=massW
  .set .r 2 (.loc .r 1),
  -- 70: MZ=MW/CW
  .set .r 3 (.div (.mem .r 2) (.mem .r 5)),
  -- 71: p1.set_mass(MZ)
  .setMass 0 (.mem .r 3),
  -- 72: p3.set_mass(MW)
  .setMass 2 (.mem .r 2),
  -- 73: p4.set_mass(me)
  .setMass 3 (.mem .r 1),
  -- 74: propW.set_mass(MW)
  .propMass 0 (.mem .r 2),
  -- 75: prope.set_mass(me)
  .propMass 1 (.mem .r 1),
  -- 77: preW=e*e/(std::sqrt(2.0)*MW*MW*MZ*MZ*SW*SW)
  .set .r 7 (.div (.mul (.mem .r 0) (.mem .r 0)) (.mul (.mul (.mul (.mul (.mul (.mul (.sqrt (.lit 2)) (.mem .r 2)) (.mem .r 2)) (.mem .r 3)) (.mem .r 3)) (.mem .r 4)) (.mem .r 4))),
  -- 78: pree=e*e/(std::sqrt(2.0)*MW*MW*SW*SW)
  .set .r 8 (.div (.mul (.mem .r 0) (.mem .r 0)) (.mul (.mul (.mul (.mul (.sqrt (.lit 2)) (.mem .r 2)) (.mem .r 2)) (.mem .r 4)) (.mem .r 4))),
  -- 79: pren=e*e/(std::sqrt(2.0)*MW*MW*SW*SW)
  .set .r 9 (.div (.mul (.mem .r 0) (.mem .r 0)) (.mul (.mul (.mul (.mul (.sqrt (.lit 2)) (.mem .r 2)) (.mem .r 2)) (.mem .r 4)) (.mem .r 4)))]

/-- `set_momenta` (SM/ZnWe.cpp:81-111); parameters: 0 `mom1`, 1 `mom2`, 2 `mom3`, 3 `mom4` -/
def setMomenta : List SInstr := [
  -- 83: p1.set_momentum(mom1)
  .setMom 0 0,
  -- 84: p2.set_momentum(mom2)
  .setMom 1 1,
  -- 85: p3.set_momentum(mom3)
  .setMom 2 2,
  -- 86: p4.set_momentum(mom4)
  .setMom 3 3,
  -- 88: a13a.update()
  .update 0,
  -- 89: s13s.update()
  .update 1,
  -- 90: a21a.update()
  .update 2,
  -- 91: s43s.update()
  .update 3,
  -- 92: a23a.update()
  .update 4,
  -- 93: s41s.update()
  .update 5,
  -- 94: a42a.update()
  .update 6,
  -- 95: s412a.update()
  .update 7,
  -- 97: a41a.update()
  .update 8,
  -- 98: s341a.update()
  .update 9,
  -- 100: s143a.update()
  .update 10,
  -- 108: pDenT=propW.denominator(propTP)
  .den .c 1 0 (.sub 0 2),
  -- 109: pDenU=prope.denominator(propUP)
  .den .c 2 1 (.sub 0 3),
  -- 110: pDenS=propne.denominator(propSP)
  .den .c 0 2 (.add 0 1)]

/-- `cdouble amp(ds1,ds3,ds4)` (SM/ZnWe.cpp:116-173); variables: i 0 `ds1`, i 1 `ds3`, i 2 `ds4`, c 0 `amplitude`, i 3 `ds1a`, i 4 `ds1b`, i 5 `ds3a`, i 6 `ds3b`, i 7 `nCombs`, r 0 `normFactor`, i 8 `i` -/
def m_amp : Method := ⟨3, 
  -- 117: cdouble amplitude
  .seq (.set .c 0 (.ofR (.lit 0))) <|
  -- 122: int nCombs
  .seq (.seti 7 (.loops [0, 1])) <|
  -- 123: ldouble normFactor
  .seq (.set .r 0 (.norm [0, 1])) <|
  -- 125: for(int i=0;i<nCombs;i++)
  .seq (.loop 8 0 false (.var 7) 1 (
    -- 126: get_spinor_spins(ds1,ds1a,ds1b,ds3,ds3a,ds3b,i)
    .seq (.spins [(0, 3, 4), (1, 5, 6)] (.var 8)) <|
    -- 137: amplitude+=-normFactor*preW*(+two*(-MZ*a13a.v(ds1b,ds3a)+MW*s13s.v(ds1b,ds3a))*MW*MW*a21a.v(ds1a)*s43s.v(ds4,ds3b)+two*(MW*a13a.v(ds1a,ds3b)-MZ*s13s.v(ds1a,ds3b))*MW*MW*a23a.v(ds3a)*s41s.v(ds4,ds1b)+((-MZ*MZ+two*MW*MW)*me*a42a.v(ds4)-two*MW*MW*s412a.v(ds4))*a13a.v(ds1a,ds3a)*s13s.v(ds1b,ds3b))/pDenT
    .seq (.set .c 0 (.add (.loc .c 0) (.div (.smul (.mul (.neg (.loc .r 0)) (.mem .r 7)) (.add (.add (.mul (.mul (.smul (.mem .r 2) (.smul (.mem .r 2) (.smul (.lit 2) (.add (.smul (.neg (.mem .r 3)) (.v 0 [.var 4, .var 5])) (.smul (.mem .r 2) (.v 1 [.var 4, .var 5])))))) (.v 2 [.var 3])) (.v 3 [.var 2, .var 6])) (.mul (.mul (.smul (.mem .r 2) (.smul (.mem .r 2) (.smul (.lit 2) (.sub (.smul (.mem .r 2) (.v 0 [.var 3, .var 6])) (.smul (.mem .r 3) (.v 1 [.var 3, .var 6])))))) (.v 4 [.var 5])) (.v 5 [.var 2, .var 4]))) (.mul (.mul (.sub (.smul (.mul (.add (.mul (.neg (.mem .r 3)) (.mem .r 3)) (.mul (.mul (.lit 2) (.mem .r 2)) (.mem .r 2))) (.mem .r 1)) (.v 6 [.var 2])) (.smul (.mul (.mul (.lit 2) (.mem .r 2)) (.mem .r 2)) (.v 7 [.var 2]))) (.v 0 [.var 3, .var 5])) (.v 1 [.var 4, .var 6])))) (.mem .c 1)))) <|
    -- 152: amplitude+=-normFactor*pree*a23a.v(ds3a)*(-gR*me*a41a.v(ds4,ds1b)*s13s.v(ds1a,ds3b)+gL*(MZ*s13s.v(ds1b,ds3b)-s341a.v(ds3b,ds1b))*s41s.v(ds4,ds1a))/pDenU
    .seq (.set .c 0 (.add (.loc .c 0) (.div (.mul (.smul (.mul (.neg (.loc .r 0)) (.mem .r 8)) (.v 4 [.var 5])) (.add (.mul (.smul (.mul (.neg (.mem .r 11)) (.mem .r 1)) (.v 8 [.var 2, .var 4])) (.v 1 [.var 3, .var 6])) (.mul (.smul (.mem .r 10) (.sub (.smul (.mem .r 3) (.v 1 [.var 4, .var 6])) (.v 9 [.var 6, .var 4]))) (.v 5 [.var 2, .var 3])))) (.mem .c 2)))) <|
    -- 167: amplitude+=-normFactor*pren*a21a.v(ds1a)*s43s.v(ds4,ds3a)*(MW*s13s.v(ds1b,ds3b)-s143a.v(ds1b,ds3b))/pDenS
    .set .c 0 (.add (.loc .c 0) (.div (.mul (.mul (.smul (.mul (.neg (.loc .r 0)) (.mem .r 9)) (.v 2 [.var 3])) (.v 3 [.var 2, .var 5])) (.sub (.smul (.mem .r 2) (.v 1 [.var 4, .var 6])) (.v 10 [.var 4, .var 6]))) (.mem .c 0))))) <|
  -- 172: return amplitude
  .ret .c (.loc .c 0)⟩

/-- `ldouble amp2()` (SM/ZnWe.cpp:176-189); variables: r 0 `amp2`, c 0 `M`, i 0 `j1`, i 1 `j3`, i 2 `j4` -/
def m_amp2 : Method := ⟨0, 
  -- 177: ldouble amp2
  .seq (.set .r 0 (.lit 0)) <|
  -- 178: cdouble M
  .seq (.set .c 0 (.ofR (.lit 0))) <|
  -- 181: for(int j1=-2;j1<=2;j1+=2)
  .seq (.loop 0 (-2) true (.lit 2) 2 (
    -- 182: for(int j3=-2;j3<=2;j3+=2)
    .loop 1 (-2) true (.lit 2) 2 (
      -- 183: for(int j4=-1;j4<=1;j4+=2)
      .loop 2 (-1) true (.lit 1) 2 (
        -- 184: M=amp(j1,j3,j4)
        .seq (.set .c 0 (.call 0 [.var 0, .var 1, .var 2])) <|
        -- 185: amp2+=std::pow(std::abs(M),2)
        .set .r 0 (.add (.loc .r 0) (.pow (.abs (.loc .c 0)) 2)))))) <|
  -- 188: return amp2/3.0
  .ret .r (.div (.loc .r 0) (.lit 3))⟩

end ZnWe

/-- `class ZnWe` (SM/ZnWe.cpp, SM/include/ZnWe.h:25-37).  Members:
* ldouble: 0 `e`, 1 `me`, 2 `MW`, 3 `MZ`, 4 `SW`, 5 `CW`, 6 `WW`, 7 `preW`, 8 `pree`, 9 `pren`, 10 `gL`, 11 `gR`
* cdouble: 0 `pDenS`, 1 `pDenT`, 2 `pDenU`
* propagator: 0 `propW`, 1 `prope`, 2 `propne`
* sproduct: 0 `a13a`, 1 `s13s`, 2 `a21a`, 3 `s43s`, 4 `a23a`, 5 `s41s`, 6 `a42a`, 7 `s412a`, 8 `a41a`, 9 `s341a`, 10 `s143a` -/
def ZnWe : Proc where
  name := "ZnWe"
  nPar := 5
  ctor := ZnWe.ctor
  setMasses := ZnWe.setMasses
  massPar := [1, 2]
  setMomenta := ZnWe.setMomenta
  methods := [ZnWe.m_amp2, ZnWe.m_amp]
  amp2 := 1
  others := []

namespace dAAd

/-- constructor (SM/dAAd.cpp:32-54); parameters: 0 `echarge`, 1 `massd` -/
def ctor : List SInstr := [
  -- 32: e(echarge)
  .set .r 0 (.loc .r 0),
  -- 32: Qd(-1.0/3.0)
  .set .r 1 (.div (.neg (.lit 1)) (.lit 3)),
  -- 32: md(massd)
  .set .r 2 (.loc .r 1),
  -- 32: prop(massd,0)
  .prop 0 (.loc .r 1) (.lit 0),
  -- 35: sqrt2=std::sqrt(two)
  .set .r 3 (.sqrt (.lit 2)),
  -- 36: p1=particle(md)
  .part 0 (.mem .r 2),
  -- 37: p2=particle(0)
  .part 1 (.lit 0),
  -- 38: p3=particle(0)
  .part 2 (.lit 0),
  -- 39: p4=particle(md)
  .part 3 (.mem .r 2),
  -- 40: s34s=sproduct(SQUARE,&p3,&p4)
  .sprod 0 ⟨false, 2, true, [], 3, true⟩,
  -- 41: a34a=sproduct(ANGLE,&p3,&p4)
  .sprod 1 ⟨true, 2, true, [], 3, true⟩,
  -- 42: s12s=sproduct(SQUARE,&p1,&p2)
  .sprod 2 ⟨false, 0, true, [], 1, true⟩,
  -- 43: a12a=sproduct(ANGLE,&p1,&p2)
  .sprod 3 ⟨true, 0, true, [], 1, true⟩,
  -- 44: s13s=sproduct(SQUARE,&p1,&p3)
  .sprod 4 ⟨false, 0, true, [], 2, true⟩,
  -- 45: a13a=sproduct(ANGLE,&p1,&p3)
  .sprod 5 ⟨true, 0, true, [], 2, true⟩,
  -- 46: s24s=sproduct(SQUARE,&p2,&p4)
  .sprod 6 ⟨false, 1, true, [], 3, true⟩,
  -- 47: a24a=sproduct(ANGLE,&p2,&p4)
  .sprod 7 ⟨true, 1, true, [], 3, true⟩,
  -- 48: s23s=sproduct(SQUARE,&p2,&p3)
  .sprod 8 ⟨false, 1, true, [], 2, true⟩,
  -- 49: a23a=sproduct(ANGLE,&p2,&p3)
  .sprod 9 ⟨true, 1, true, [], 2, true⟩,
  -- 50: s14s=sproduct(SQUARE,&p1,&p4)
  .sprod 10 ⟨false, 0, true, [], 3, true⟩,
  -- 51: a14a=sproduct(ANGLE,&p1,&p4)
  .sprod 11 ⟨true, 0, true, [], 3, true⟩,
  -- 52: s342a=sproduct(SQUARE,&p3,&p4,&p2)
  .sprod 12 ⟨false, 2, true, [3], 1, true⟩,
  -- 53: s243a=sproduct(SQUARE,&p2,&p4,&p3)
  .sprod 13 ⟨false, 1, true, [3], 2, true⟩]

/-- `set_masses` (SM/dAAd.cpp:55-60); parameters: 0 `massd` -/
def setMasses : List SInstr := [
  -- 56: md=massd
  .set .r 2 (.loc .r 0),
  -- 57: p1.set_mass(md)
  .setMass 0 (.mem .r 2),
  -- 58: p4.set_mass(md)
  .setMass 3 (.mem .r 2),
  -- 59: prop.set_mass(md)
  .propMass 0 (.mem .r 2)]

/-- `set_momenta` (SM/dAAd.cpp:61-90); parameters: 0 `mom1`, 1 `mom2`, 2 `mom3`, 3 `mom4` -/
def setMomenta : List SInstr := [
  -- 63: p1.set_momentum(mom1)
  .setMom 0 0,
  -- 64: p2.set_momentum(mom2)
  .setMom 1 1,
  -- 65: p3.set_momentum(mom3)
  .setMom 2 2,
  -- 66: p4.set_momentum(mom4)
  .setMom 3 3,
  -- 67: s34s.update()
  .update 0,
  -- 68: a34a.update()
  .update 1,
  -- 69: s12s.update()
  .update 2,
  -- 70: a12a.update()
  .update 3,
  -- 71: s13s.update()
  .update 4,
  -- 72: a13a.update()
  .update 5,
  -- 73: s24s.update()
  .update 6,
  -- 74: a24a.update()
  .update 7,
  -- 75: s23s.update()
  .update 8,
  -- 76: a23a.update()
  .update 9,
  -- 77: s14s.update()
  .update 10,
  -- 78: a14a.update()
  .update 11,
  -- 79: s342a.update()
  .update 12,
  -- 80: s243a.update()
  .update 13,
  -- 87: pDenT=prop.denominator(propTP)
  .den .c 0 0 (.sub 0 2),
  -- 88: pDenS=prop.denominator(propSP)
  .den .c 1 0 (.add 0 1)]

/-- `cdouble amp(ds1,ds2,ds3,ds4)` (SM/dAAd.cpp:97-123); variables: i 0 `ds1`, i 1 `ds2`, i 2 `ds3`, i 3 `ds4` -/
def m_amp : Method := ⟨4, 
  -- 98: if(ds3>0&&ds2>0)
  .seq (.ite (.and (.lt (.lit 0) (.var 2)) (.lt (.lit 0) (.var 1))) (
    -- 102: return +2.0*e*e*Qd*Qd*md*s23s.v()*s23s.v()*a14a.v(ds1,ds4)/pDenS/pDenT
    .ret .c (.div (.div (.mul (.mul (.smul (.mul (.mul (.mul (.mul (.mul (.lit 2) (.mem .r 0)) (.mem .r 0)) (.mem .r 1)) (.mem .r 1)) (.mem .r 2)) (.v 8 [])) (.v 8 [])) (.v 11 [.var 0, .var 3])) (.mem .c 1)) (.mem .c 0))) (
    -- 104: if(ds3<0&&ds2<0)
    .ite (.and (.lt (.var 2) (.lit 0)) (.lt (.var 1) (.lit 0))) (
      -- 108: return -2.0*e*e*Qd*Qd*md*a23a.v()*a23a.v()*s14s.v(ds1,ds4)/pDenS/pDenT
      .ret .c (.div (.div (.mul (.mul (.smul (.mul (.mul (.mul (.mul (.mul (.neg (.lit 2)) (.mem .r 0)) (.mem .r 0)) (.mem .r 1)) (.mem .r 1)) (.mem .r 2)) (.v 9 [])) (.v 9 [])) (.v 10 [.var 0, .var 3])) (.mem .c 1)) (.mem .c 0))) (
      -- 110: if(ds3>0&&ds2<0)
      .ite (.and (.lt (.lit 0) (.var 2)) (.lt (.var 1) (.lit 0))) (
        -- 114: return -2.0*e*e*Qd*Qd*(s34s.v(ds4)*a12a.v(ds1)-s13s.v(ds1)*a24a.v(ds4))*s342a.v()/pDenS/pDenT
        .ret .c (.div (.div (.mul (.smul (.mul (.mul (.mul (.mul (.neg (.lit 2)) (.mem .r 0)) (.mem .r 0)) (.mem .r 1)) (.mem .r 1)) (.sub (.mul (.v 0 [.var 3]) (.v 3 [.var 0])) (.mul (.v 4 [.var 0]) (.v 7 [.var 3])))) (.v 12 [])) (.mem .c 1)) (.mem .c 0))) (
        -- 116: if(ds3<0&&ds2>0)
        .ite (.and (.lt (.var 2) (.lit 0)) (.lt (.lit 0) (.var 1))) (
          -- 120: return -2.0*e*e*Qd*Qd*(a34a.v(ds4)*s12s.v(ds1)-a13a.v(ds1)*s24s.v(ds4))*s243a.v()/pDenS/pDenT
          .ret .c (.div (.div (.mul (.smul (.mul (.mul (.mul (.mul (.neg (.lit 2)) (.mem .r 0)) (.mem .r 0)) (.mem .r 1)) (.mem .r 1)) (.sub (.mul (.v 1 [.var 3]) (.v 2 [.var 0])) (.mul (.v 5 [.var 0]) (.v 6 [.var 3])))) (.v 13 [])) (.mem .c 1)) (.mem .c 0))) (
          .skip))))) <|
  -- 122: return cdouble(0,0)
  .ret .c (.ofR (.lit 0))⟩

/-- `ldouble amp2()` (SM/dAAd.cpp:127-142); variables: r 0 `amp2`, c 0 `M`, i 0 `j1`, i 1 `j2`, i 2 `j3`, i 3 `j4` -/
def m_amp2 : Method := ⟨0, 
  -- 128: ldouble amp2
  .seq (.set .r 0 (.lit 0)) <|
  -- 129: cdouble M
  .seq (.set .c 0 (.ofR (.lit 0))) <|
  -- 132: for(int j1=-1;j1<=1;j1+=2)
  .seq (.loop 0 (-1) true (.lit 1) 2 (
    -- 133: for(int j2=-2;j2<=2;j2+=4)
    .loop 1 (-2) true (.lit 2) 4 (
      -- 134: for(int j3=-2;j3<=2;j3+=4)
      .loop 2 (-2) true (.lit 2) 4 (
        -- 135: for(int j4=-1;j4<=1;j4+=2)
        .loop 3 (-1) true (.lit 1) 2 (
          -- 136: M=amp(j1,j2,j3,j4)
          .seq (.set .c 0 (.call 0 [.var 0, .var 1, .var 2, .var 3])) <|
          -- 137: amp2+=3.0*std::pow(std::abs(M),2)
          .set .r 0 (.add (.loc .r 0) (.mul (.lit 3) (.pow (.abs (.loc .c 0)) 2)))))))) <|
  -- 141: return amp2/12.0
  .ret .r (.div (.loc .r 0) (.lit 12))⟩

/-- `ldouble amp2_Aplus()` (SM/dAAd.cpp:145-159); variables: r 0 `amp2`, c 0 `M`, i 0 `j1`, i 1 `j3`, i 2 `j4` -/
def m_amp2_Aplus : Method := ⟨0, 
  -- 146: ldouble amp2
  .seq (.set .r 0 (.lit 0)) <|
  -- 147: cdouble M
  .seq (.set .c 0 (.ofR (.lit 0))) <|
  -- 150: for(int j1=-1;j1<=1;j1+=2)
  .seq (.loop 0 (-1) true (.lit 1) 2 (
    -- 151: for(int j3=-2;j3<=2;j3+=4)
    .loop 1 (-2) true (.lit 2) 4 (
      -- 152: for(int j4=-1;j4<=1;j4+=2)
      .loop 2 (-1) true (.lit 1) 2 (
        -- 153: M=amp(j1,2,j3,j4)
        .seq (.set .c 0 (.call 0 [.var 0, .lit 2, .var 1, .var 2])) <|
        -- 154: amp2+=3.0*std::pow(std::abs(M),2)
        .set .r 0 (.add (.loc .r 0) (.mul (.lit 3) (.pow (.abs (.loc .c 0)) 2))))))) <|
  -- 158: return amp2/6.0
  .ret .r (.div (.loc .r 0) (.lit 6))⟩

/-- `ldouble amp2_Aminus()` (SM/dAAd.cpp:162-176); variables: r 0 `amp2`, c 0 `M`, i 0 `j1`, i 1 `j3`, i 2 `j4` -/
def m_amp2_Aminus : Method := ⟨0, 
  -- 163: ldouble amp2
  .seq (.set .r 0 (.lit 0)) <|
  -- 164: cdouble M
  .seq (.set .c 0 (.ofR (.lit 0))) <|
  -- 167: for(int j1=-1;j1<=1;j1+=2)
  .seq (.loop 0 (-1) true (.lit 1) 2 (
    -- 168: for(int j3=-2;j3<=2;j3+=4)
    .loop 1 (-2) true (.lit 2) 4 (
      -- 169: for(int j4=-1;j4<=1;j4+=2)
      .loop 2 (-1) true (.lit 1) 2 (
        -- 170: M=amp(j1,-2,j3,j4)
        .seq (.set .c 0 (.call 0 [.var 0, .lit (-2), .var 1, .var 2])) <|
        -- 171: amp2+=3.0*std::pow(std::abs(M),2)
        .set .r 0 (.add (.loc .r 0) (.mul (.lit 3) (.pow (.abs (.loc .c 0)) 2))))))) <|
  -- 175: return amp2/6.0
  .ret .r (.div (.loc .r 0) (.lit 6))⟩

end dAAd

/-- `class dAAd` (SM/dAAd.cpp, SM/include/dAAd.h:25-32).  Members:
* ldouble: 0 `e`, 1 `Qd`, 2 `md`, 3 `sqrt2`
* cdouble: 0 `pDenT`, 1 `pDenS`
* propagator: 0 `prop`
* sproduct: 0 `s34s`, 1 `a34a`, 2 `s12s`, 3 `a12a`, 4 `s13s`, 5 `a13a`, 6 `s24s`, 7 `a24a`, 8 `s23s`, 9 `a23a`, 10 `s14s`, 11 `a14a`, 12 `s342a`, 13 `s243a` -/
def dAAd : Proc where
  name := "dAAd"
  nPar := 2
  ctor := dAAd.ctor
  setMasses := dAAd.setMasses
  massPar := [1]
  setMomenta := dAAd.setMomenta
  methods := [dAAd.m_amp2_Aminus, dAAd.m_amp2_Aplus, dAAd.m_amp2, dAAd.m_amp]
  amp2 := 1
  others := [("amp2_Aplus", 2), ("amp2_Aminus", 3)]

namespace dAdh

/-- constructor (SM/dAdh.cpp:32-53); parameters: 0 `echarge`, 1 `massd`, 2 `massh`, 3 `massW`, 4 `sinW` -/
def ctor : List SInstr := [
  -- 32: e(echarge)
  .set .r 0 (.loc .r 0),
  -- 32: Qd(-1.0/3.0)
  .set .r 1 (.div (.neg (.lit 1)) (.lit 3)),
  -- 32: md(massd)
  .set .r 2 (.loc .r 1),
  -- 32: mh(massh)
  .set .r 3 (.loc .r 2),
  -- 32: MW(massW)
  .set .r 4 (.loc .r 3),
  -- 32: SW(sinW)
  .set .r 5 (.loc .r 4),
  -- 32: prop(massd,0)
  .prop 0 (.loc .r 1) (.lit 0),
  -- 35: sqrt2=std::sqrt(two)
  .set .r 7 (.sqrt (.lit 2)),
  -- 36: p1=particle(md)
  .part 0 (.mem .r 2),
  -- 37: p2=particle(0)
  .part 1 (.lit 0),
  -- 38: p3=particle(md)
  .part 2 (.mem .r 2),
  -- 39: p4=particle(mh)
  .part 3 (.mem .r 3),
  -- 40: s12s=sproduct(SQUARE,&p1,&p2)
  .sprod 0 ⟨false, 0, true, [], 1, true⟩,
  -- 41: a12a=sproduct(ANGLE,&p1,&p2)
  .sprod 1 ⟨true, 0, true, [], 1, true⟩,
  -- 42: s23s=sproduct(SQUARE,&p2,&p3)
  .sprod 2 ⟨false, 1, true, [], 2, true⟩,
  -- 43: a23a=sproduct(ANGLE,&p2,&p3)
  .sprod 3 ⟨true, 1, true, [], 2, true⟩,
  -- 44: s13s=sproduct(SQUARE,&p1,&p3)
  .sprod 4 ⟨false, 0, true, [], 2, true⟩,
  -- 45: a13a=sproduct(ANGLE,&p1,&p3)
  .sprod 5 ⟨true, 0, true, [], 2, true⟩,
  -- 46: s243a=sproduct(SQUARE,&p2,&p4,&p3)
  .sprod 6 ⟨false, 1, true, [3], 2, true⟩,
  -- 47: a243s=sproduct(ANGLE,&p2,&p4,&p3)
  .sprod 7 ⟨true, 1, true, [3], 2, true⟩,
  -- 48: s241a=sproduct(SQUARE,&p2,&p4,&p1)
  .sprod 8 ⟨false, 1, true, [3], 0, true⟩,
  -- 49: a241s=sproduct(ANGLE,&p2,&p4,&p1)
  .sprod 9 ⟨true, 1, true, [3], 0, true⟩,
  -- 50: s2342s=sproduct(SQUARE,&p2,&p3,&p4,&p2)
  .sprod 10 ⟨false, 1, true, [2, 3], 1, true⟩,
  -- 51: a2342a=sproduct(ANGLE,&p2,&p3,&p4,&p2)
  .sprod 11 ⟨true, 1, true, [2, 3], 1, true⟩,
  -- 52: pre=sqrt2*e*e*Qd*md/(2.0*MW*SW)
  .set .r 6 (.div (.mul (.mul (.mul (.mul (.mem .r 7) (.mem .r 0)) (.mem .r 0)) (.mem .r 1)) (.mem .r 2)) (.mul (.mul (.lit 2) (.mem .r 4)) (.mem .r 5)))]

/-- `set_masses` (SM/dAdh.cpp:54-62); parameters: 0 `massd`, 1 `massh`, 2 `massW` -/
def setMasses : List SInstr := [
  -- 55: md=massd
  .set .r 2 (.loc .r 0),
  -- 56: mh=massh
  .set .r 3 (.loc .r 1),
  -- 57: p1.set_mass(md)
  .setMass 0 (.mem .r 2),
  -- 58: p3.set_mass(md)
  .setMass 2 (.mem .r 2),
  -- 59: p4.set_mass(mh)
  .setMass 3 (.mem .r 3),
  -- 60: prop.set_mass(md)
  .propMass 0 (.mem .r 2),
  -- 61: pre=sqrt2*e*e*Qd*md/(2.0*MW*SW)
  .set .r 6 (.div (.mul (.mul (.mul (.mul (.mem .r 7) (.mem .r 0)) (.mem .r 0)) (.mem .r 1)) (.mem .r 2)) (.mul (.mul (.lit 2) (.mem .r 4)) (.mem .r 5)))]

/-- `set_momenta` (SM/dAdh.cpp:63-89); parameters: 0 `mom1`, 1 `mom2`, 2 `mom3`, 3 `mom4` -/
def setMomenta : List SInstr := [
  -- 65: p1.set_momentum(mom1)
  .setMom 0 0,
  -- 66: p2.set_momentum(mom2)
  .setMom 1 1,
  -- 67: p3.set_momentum(mom3)
  .setMom 2 2,
  -- 68: p4.set_momentum(mom4)
  .setMom 3 3,
  -- 69: s12s.update()
  .update 0,
  -- 70: a12a.update()
  .update 1,
  -- 71: s23s.update()
  .update 2,
  -- 72: a23a.update()
  .update 3,
  -- 73: s13s.update()
  .update 4,
  -- 74: a13a.update()
  .update 5,
  -- 75: s243a.update()
  .update 6,
  -- 76: a243s.update()
  .update 7,
  -- 77: s241a.update()
  .update 8,
  -- 78: a241s.update()
  .update 9,
  -- 79: s2342s.update()
  .update 10,
  -- 80: a2342a.update()
  .update 11,
  -- 87: pDenS=prop.denominator(propSP)
  .den .c 0 0 (.add 0 1),
  -- 88: pDenU=prop.denominator(propUP)
  .den .c 1 0 (.sub 0 3)]

/-- `cdouble amp(ds1,ds2,ds3)` (SM/dAdh.cpp:94-108); variables: i 0 `ds1`, i 1 `ds2`, i 2 `ds3` -/
def m_amp : Method := ⟨3, 
  -- 99: if(ds2>0)
  .seq (.ite (.lt (.lit 0) (.var 1)) (
    -- 101: return pre*(mh*mh*s12s.v(ds1)*s23s.v(ds3)-md*s12s.v(ds1)*s243a.v(ds3)-md*s23s.v(ds3)*s241a.v(ds1)+a13a.v(ds1,ds3)*s2342s.v())/pDenS/pDenU
    .ret .c (.div (.div (.smul (.mem .r 6) (.add (.sub (.sub (.mul (.smul (.mul (.mem .r 3) (.mem .r 3)) (.v 0 [.var 0])) (.v 2 [.var 2])) (.mul (.smul (.mem .r 2) (.v 0 [.var 0])) (.v 6 [.var 2]))) (.mul (.smul (.mem .r 2) (.v 2 [.var 2])) (.v 8 [.var 0]))) (.mul (.v 5 [.var 0, .var 2]) (.v 10 [])))) (.mem .c 0)) (.mem .c 1))) (
    -- 103: if(ds2<0)
    .ite (.lt (.var 1) (.lit 0)) (
      -- 105: return pre*(-mh*mh*a12a.v(ds1)*a23a.v(ds3)+md*a12a.v(ds1)*a243s.v(ds3)+md*a23a.v(ds3)*a241s.v(ds1)-s13s.v(ds1,ds3)*a2342a.v())/pDenS/pDenU
      .ret .c (.div (.div (.smul (.mem .r 6) (.sub (.add (.add (.mul (.smul (.mul (.neg (.mem .r 3)) (.mem .r 3)) (.v 1 [.var 0])) (.v 3 [.var 2])) (.mul (.smul (.mem .r 2) (.v 1 [.var 0])) (.v 7 [.var 2]))) (.mul (.smul (.mem .r 2) (.v 3 [.var 2])) (.v 9 [.var 0]))) (.mul (.v 4 [.var 0, .var 2]) (.v 11 [])))) (.mem .c 0)) (.mem .c 1))) (
      .skip))) <|
  -- 107: return cdouble(0,0)
  .ret .c (.ofR (.lit 0))⟩

/-- `ldouble amp2()` (SM/dAdh.cpp:111-125); variables: r 0 `amp2`, c 0 `M`, i 0 `j1`, i 1 `j2`, i 2 `j3` -/
def m_amp2 : Method := ⟨0, 
  -- 112: ldouble amp2
  .seq (.set .r 0 (.lit 0)) <|
  -- 113: cdouble M
  .seq (.set .c 0 (.ofR (.lit 0))) <|
  -- 116: for(int j1=-1;j1<=1;j1+=2)
  .seq (.loop 0 (-1) true (.lit 1) 2 (
    -- 117: for(int j2=-2;j2<=2;j2+=4)
    .loop 1 (-2) true (.lit 2) 4 (
      -- 118: for(int j3=-1;j3<=1;j3+=2)
      .loop 2 (-1) true (.lit 1) 2 (
        -- 119: M=amp(j1,j2,j3)
        .seq (.set .c 0 (.call 0 [.var 0, .var 1, .var 2])) <|
        -- 120: amp2+=3.0*std::pow(std::abs(M),2)
        .set .r 0 (.add (.loc .r 0) (.mul (.lit 3) (.pow (.abs (.loc .c 0)) 2))))))) <|
  -- 124: return amp2/12.0
  .ret .r (.div (.loc .r 0) (.lit 12))⟩

/-- `ldouble amp2_Aplus()` (SM/dAdh.cpp:129-142); variables: r 0 `amp2`, c 0 `M`, i 0 `j1`, i 1 `j3` -/
def m_amp2_Aplus : Method := ⟨0, 
  -- 130: ldouble amp2
  .seq (.set .r 0 (.lit 0)) <|
  -- 131: cdouble M
  .seq (.set .c 0 (.ofR (.lit 0))) <|
  -- 134: for(int j1=-1;j1<=1;j1+=2)
  .seq (.loop 0 (-1) true (.lit 1) 2 (
    -- 135: for(int j3=-1;j3<=1;j3+=2)
    .loop 1 (-1) true (.lit 1) 2 (
      -- 136: M=amp(j1,2,j3)
      .seq (.set .c 0 (.call 0 [.var 0, .lit 2, .var 1])) <|
      -- 137: amp2+=3.0*std::pow(std::abs(M),2)
      .set .r 0 (.add (.loc .r 0) (.mul (.lit 3) (.pow (.abs (.loc .c 0)) 2)))))) <|
  -- 141: return amp2/6.0
  .ret .r (.div (.loc .r 0) (.lit 6))⟩

end dAdh

/-- `class dAdh` (SM/dAdh.cpp, SM/include/dAdh.h:25-33).  Members:
* ldouble: 0 `e`, 1 `Qd`, 2 `md`, 3 `mh`, 4 `MW`, 5 `SW`, 6 `pre`, 7 `sqrt2`
* cdouble: 0 `pDenS`, 1 `pDenU`
* propagator: 0 `prop`
* sproduct: 0 `s12s`, 1 `a12a`, 2 `s23s`, 3 `a23a`, 4 `s13s`, 5 `a13a`, 6 `s243a`, 7 `a243s`, 8 `s241a`, 9 `a241s`, 10 `s2342s`, 11 `a2342a` -/
def dAdh : Proc where
  name := "dAdh"
  nPar := 5
  ctor := dAdh.ctor
  setMasses := dAdh.setMasses
  massPar := [1, 2, 3]
  setMomenta := dAdh.setMomenta
  methods := [dAdh.m_amp2_Aplus, dAdh.m_amp2, dAdh.m_amp]
  amp2 := 1
  others := [("amp2_Aplus", 2)]

namespace dAgd

/-- constructor (SM/dAgd.cpp:32-54); parameters: 0 `echarge`, 1 `gscharge`, 2 `massd` -/
def ctor : List SInstr := [
  -- 32: e(echarge)
  .set .r 0 (.loc .r 0),
  -- 32: Qd(-1.0/3.0)
  .set .r 1 (.div (.neg (.lit 1)) (.lit 3)),
  -- 32: gs(gscharge)
  .set .r 2 (.loc .r 1),
  -- 32: md(massd)
  .set .r 3 (.loc .r 2),
  -- 32: prop(massd,0)
  .prop 0 (.loc .r 2) (.lit 0),
  -- 35: sqrt2=std::sqrt(two)
  .set .r 4 (.sqrt (.lit 2)),
  -- 36: p1=particle(md)
  .part 0 (.mem .r 3),
  -- 37: p2=particle(0)
  .part 1 (.lit 0),
  -- 38: p3=particle(0)
  .part 2 (.lit 0),
  -- 39: p4=particle(md)
  .part 3 (.mem .r 3),
  -- 40: s34s=sproduct(SQUARE,&p3,&p4)
  .sprod 0 ⟨false, 2, true, [], 3, true⟩,
  -- 41: a34a=sproduct(ANGLE,&p3,&p4)
  .sprod 1 ⟨true, 2, true, [], 3, true⟩,
  -- 42: s12s=sproduct(SQUARE,&p1,&p2)
  .sprod 2 ⟨false, 0, true, [], 1, true⟩,
  -- 43: a12a=sproduct(ANGLE,&p1,&p2)
  .sprod 3 ⟨true, 0, true, [], 1, true⟩,
  -- 44: s13s=sproduct(SQUARE,&p1,&p3)
  .sprod 4 ⟨false, 0, true, [], 2, true⟩,
  -- 45: a13a=sproduct(ANGLE,&p1,&p3)
  .sprod 5 ⟨true, 0, true, [], 2, true⟩,
  -- 46: s24s=sproduct(SQUARE,&p2,&p4)
  .sprod 6 ⟨false, 1, true, [], 3, true⟩,
  -- 47: a24a=sproduct(ANGLE,&p2,&p4)
  .sprod 7 ⟨true, 1, true, [], 3, true⟩,
  -- 48: s23s=sproduct(SQUARE,&p2,&p3)
  .sprod 8 ⟨false, 1, true, [], 2, true⟩,
  -- 49: a23a=sproduct(ANGLE,&p2,&p3)
  .sprod 9 ⟨true, 1, true, [], 2, true⟩,
  -- 50: s14s=sproduct(SQUARE,&p1,&p4)
  .sprod 10 ⟨false, 0, true, [], 3, true⟩,
  -- 51: a14a=sproduct(ANGLE,&p1,&p4)
  .sprod 11 ⟨true, 0, true, [], 3, true⟩,
  -- 52: s342a=sproduct(SQUARE,&p3,&p4,&p2)
  .sprod 12 ⟨false, 2, true, [3], 1, true⟩,
  -- 53: s243a=sproduct(SQUARE,&p2,&p4,&p3)
  .sprod 13 ⟨false, 1, true, [3], 2, true⟩]

/-- `set_masses` (SM/dAgd.cpp:55-60); parameters: 0 `massd` -/
def setMasses : List SInstr := [
  -- 56: md=massd
  .set .r 3 (.loc .r 0),
  -- 57: p1.set_mass(md)
  .setMass 0 (.mem .r 3),
  -- 58: p4.set_mass(md)
  .setMass 3 (.mem .r 3),
  -- 59: prop.set_mass(md)
  .propMass 0 (.mem .r 3)]

/-- `set_momenta` (SM/dAgd.cpp:61-90); parameters: 0 `mom1`, 1 `mom2`, 2 `mom3`, 3 `mom4` -/
def setMomenta : List SInstr := [
  -- 63: p1.set_momentum(mom1)
  .setMom 0 0,
  -- 64: p2.set_momentum(mom2)
  .setMom 1 1,
  -- 65: p3.set_momentum(mom3)
  .setMom 2 2,
  -- 66: p4.set_momentum(mom4)
  .setMom 3 3,
  -- 67: s34s.update()
  .update 0,
  -- 68: a34a.update()
  .update 1,
  -- 69: s12s.update()
  .update 2,
  -- 70: a12a.update()
  .update 3,
  -- 71: s13s.update()
  .update 4,
  -- 72: a13a.update()
  .update 5,
  -- 73: s24s.update()
  .update 6,
  -- 74: a24a.update()
  .update 7,
  -- 75: s23s.update()
  .update 8,
  -- 76: a23a.update()
  .update 9,
  -- 77: s14s.update()
  .update 10,
  -- 78: a14a.update()
  .update 11,
  -- 79: s342a.update()
  .update 12,
  -- 80: s243a.update()
  .update 13,
  -- 87: pDenT=prop.denominator(propTP)
  .den .c 0 0 (.sub 0 2),
  -- 88: pDenS=prop.denominator(propSP)
  .den .c 1 0 (.add 0 1)]

/-- `cdouble amp(ds1,ds2,ds3,ds4)` (SM/dAgd.cpp:97-123); variables: i 0 `ds1`, i 1 `ds2`, i 2 `ds3`, i 3 `ds4` -/
def m_amp : Method := ⟨4, 
  -- 98: if(ds3>0&&ds2>0)
  .seq (.ite (.and (.lt (.lit 0) (.var 2)) (.lt (.lit 0) (.var 1))) (
    -- 102: return +2.0*e*Qd*gs*md*s23s.v()*s23s.v()*a14a.v(ds1,ds4)/pDenS/pDenT
    .ret .c (.div (.div (.mul (.mul (.smul (.mul (.mul (.mul (.mul (.lit 2) (.mem .r 0)) (.mem .r 1)) (.mem .r 2)) (.mem .r 3)) (.v 8 [])) (.v 8 [])) (.v 11 [.var 0, .var 3])) (.mem .c 1)) (.mem .c 0))) (
    -- 104: if(ds3<0&&ds2<0)
    .ite (.and (.lt (.var 2) (.lit 0)) (.lt (.var 1) (.lit 0))) (
      -- 108: return -2.0*e*Qd*gs*md*a23a.v()*a23a.v()*s14s.v(ds1,ds4)/pDenS/pDenT
      .ret .c (.div (.div (.mul (.mul (.smul (.mul (.mul (.mul (.mul (.neg (.lit 2)) (.mem .r 0)) (.mem .r 1)) (.mem .r 2)) (.mem .r 3)) (.v 9 [])) (.v 9 [])) (.v 10 [.var 0, .var 3])) (.mem .c 1)) (.mem .c 0))) (
      -- 110: if(ds3>0&&ds2<0)
      .ite (.and (.lt (.lit 0) (.var 2)) (.lt (.var 1) (.lit 0))) (
        -- 114: return +2.0*e*Qd*gs*(s34s.v(ds4)*a12a.v(ds1)-s13s.v(ds1)*a24a.v(ds4))*s342a.v()/pDenS/pDenT
        .ret .c (.div (.div (.mul (.smul (.mul (.mul (.mul (.lit 2) (.mem .r 0)) (.mem .r 1)) (.mem .r 2)) (.sub (.mul (.v 0 [.var 3]) (.v 3 [.var 0])) (.mul (.v 4 [.var 0]) (.v 7 [.var 3])))) (.v 12 [])) (.mem .c 1)) (.mem .c 0))) (
        -- 116: if(ds3<0&&ds2>0)
        .ite (.and (.lt (.var 2) (.lit 0)) (.lt (.lit 0) (.var 1))) (
          -- 120: return -2.0*e*Qd*gs*(a34a.v(ds4)*s12s.v(ds1)-a13a.v(ds1)*s24s.v(ds4))*s243a.v()/pDenS/pDenT
          .ret .c (.div (.div (.mul (.smul (.mul (.mul (.mul (.neg (.lit 2)) (.mem .r 0)) (.mem .r 1)) (.mem .r 2)) (.sub (.mul (.v 1 [.var 3]) (.v 2 [.var 0])) (.mul (.v 5 [.var 0]) (.v 6 [.var 3])))) (.v 13 [])) (.mem .c 1)) (.mem .c 0))) (
          .skip))))) <|
  -- 122: return cdouble(0,0)
  .ret .c (.ofR (.lit 0))⟩

/-- `ldouble amp2()` (SM/dAgd.cpp:127-142); variables: r 0 `amp2`, c 0 `M`, i 0 `j1`, i 1 `j2`, i 2 `j3`, i 3 `j4` -/
def m_amp2 : Method := ⟨0, 
  -- 128: ldouble amp2
  .seq (.set .r 0 (.lit 0)) <|
  -- 129: cdouble M
  .seq (.set .c 0 (.ofR (.lit 0))) <|
  -- 132: for(int j1=-1;j1<=1;j1+=2)
  .seq (.loop 0 (-1) true (.lit 1) 2 (
    -- 133: for(int j2=-2;j2<=2;j2+=4)
    .loop 1 (-2) true (.lit 2) 4 (
      -- 134: for(int j3=-2;j3<=2;j3+=4)
      .loop 2 (-2) true (.lit 2) 4 (
        -- 135: for(int j4=-1;j4<=1;j4+=2)
        .loop 3 (-1) true (.lit 1) 2 (
          -- 136: M=amp(j1,j2,j3,j4)
          .seq (.set .c 0 (.call 0 [.var 0, .var 1, .var 2, .var 3])) <|
          -- 137: amp2+=4.0*std::pow(std::abs(M),2)
          .set .r 0 (.add (.loc .r 0) (.mul (.lit 4) (.pow (.abs (.loc .c 0)) 2)))))))) <|
  -- 141: return amp2/12.0
  .ret .r (.div (.loc .r 0) (.lit 12))⟩

/-- `ldouble amp2_Aplus()` (SM/dAgd.cpp:145-159); variables: r 0 `amp2`, c 0 `M`, i 0 `j1`, i 1 `j3`, i 2 `j4` -/
def m_amp2_Aplus : Method := ⟨0, 
  -- 146: ldouble amp2
  .seq (.set .r 0 (.lit 0)) <|
  -- 147: cdouble M
  .seq (.set .c 0 (.ofR (.lit 0))) <|
  -- 150: for(int j1=-1;j1<=1;j1+=2)
  .seq (.loop 0 (-1) true (.lit 1) 2 (
    -- 151: for(int j3=-1;j3<=1;j3+=2)
    .loop 1 (-1) true (.lit 1) 2 (
      -- 152: for(int j4=-1;j4<=1;j4+=2)
      .loop 2 (-1) true (.lit 1) 2 (
        -- 153: M=amp(j1,2,j3,j4)
        .seq (.set .c 0 (.call 0 [.var 0, .lit 2, .var 1, .var 2])) <|
        -- 154: amp2+=4.0*std::pow(std::abs(M),2)
        .set .r 0 (.add (.loc .r 0) (.mul (.lit 4) (.pow (.abs (.loc .c 0)) 2))))))) <|
  -- 158: return amp2/6.0
  .ret .r (.div (.loc .r 0) (.lit 6))⟩

/-- `ldouble amp2_Aminus()` (SM/dAgd.cpp:162-176); variables: r 0 `amp2`, c 0 `M`, i 0 `j1`, i 1 `j3`, i 2 `j4` -/
def m_amp2_Aminus : Method := ⟨0, 
  -- 163: ldouble amp2
  .seq (.set .r 0 (.lit 0)) <|
  -- 164: cdouble M
  .seq (.set .c 0 (.ofR (.lit 0))) <|
  -- 167: for(int j1=-1;j1<=1;j1+=2)
  .seq (.loop 0 (-1) true (.lit 1) 2 (
    -- 168: for(int j3=-1;j3<=1;j3+=2)
    .loop 1 (-1) true (.lit 1) 2 (
      -- 169: for(int j4=-1;j4<=1;j4+=2)
      .loop 2 (-1) true (.lit 1) 2 (
        -- 170: M=amp(j1,-2,j3,j4)
        .seq (.set .c 0 (.call 0 [.var 0, .lit (-2), .var 1, .var 2])) <|
        -- 171: amp2+=4.0*std::pow(std::abs(M),2)
        .set .r 0 (.add (.loc .r 0) (.mul (.lit 4) (.pow (.abs (.loc .c 0)) 2))))))) <|
  -- 175: return amp2/6.0
  .ret .r (.div (.loc .r 0) (.lit 6))⟩

end dAgd

/-- `class dAgd` (SM/dAgd.cpp, SM/include/dAgd.h:25-32).  Members:
* ldouble: 0 `e`, 1 `Qd`, 2 `gs`, 3 `md`, 4 `sqrt2`
* cdouble: 0 `pDenT`, 1 `pDenS`
* propagator: 0 `prop`
* sproduct: 0 `s34s`, 1 `a34a`, 2 `s12s`, 3 `a12a`, 4 `s13s`, 5 `a13a`, 6 `s24s`, 7 `a24a`, 8 `s23s`, 9 `a23a`, 10 `s14s`, 11 `a14a`, 12 `s342a`, 13 `s243a` -/
def dAgd : Proc where
  name := "dAgd"
  nPar := 3
  ctor := dAgd.ctor
  setMasses := dAgd.setMasses
  massPar := [2]
  setMomenta := dAgd.setMomenta
  methods := [dAgd.m_amp2_Aminus, dAgd.m_amp2_Aplus, dAgd.m_amp2, dAgd.m_amp]
  amp2 := 1
  others := [("amp2_Aplus", 2), ("amp2_Aminus", 3)]

namespace dWgu

/-- constructor (SM/dWgu.cpp:32-51); parameters: 0 `echarge`, 1 `gscharge`, 2 `massu`, 3 `massd`, 4 `massW`, 5 `sinW` -/
def ctor : List SInstr := [
  -- 32: e(echarge)
  .set .r 0 (.loc .r 0),
  -- 32: gs(gscharge)
  .set .r 1 (.loc .r 1),
  -- 32: mu(massu)
  .set .r 2 (.loc .r 2),
  -- 32: md(massd)
  .set .r 3 (.loc .r 3),
  -- 32: MW(massW)
  .set .r 4 (.loc .r 4),
  -- 32: SW(sinW)
  .set .r 5 (.loc .r 5),
  -- 35: propu=propagator(mu,0)
  .prop 0 (.mem .r 2) (.lit 0),
  -- 36: propd=propagator(md,0)
  .prop 1 (.mem .r 3) (.lit 0),
  -- 37: p1=particle(md)
  .part 0 (.mem .r 3),
  -- 38: p2=particle(MW)
  .part 1 (.mem .r 4),
  -- 39: p3=particle(0)
  .part 2 (.lit 0),
  -- 40: p4=particle(mu)
  .part 3 (.mem .r 2),
  -- 41: a21a=sproduct(ANGLE,&p2,&p1)
  .sprod 0 ⟨true, 1, true, [], 0, true⟩,
  -- 42: s24s=sproduct(SQUARE,&p2,&p4)
  .sprod 1 ⟨false, 1, true, [], 3, true⟩,
  -- 43: s32s=sproduct(SQUARE,&p3,&p2)
  .sprod 2 ⟨false, 2, true, [], 1, true⟩,
  -- 44: s34s=sproduct(SQUARE,&p3,&p4)
  .sprod 3 ⟨false, 2, true, [], 3, true⟩,
  -- 45: s3413s=sproduct(SQUARE,&p3,&p4,&p1,&p3)
  .sprod 4 ⟨false, 2, true, [3, 0], 2, true⟩,
  -- 46: a32a=sproduct(ANGLE,&p3,&p2)
  .sprod 5 ⟨true, 2, true, [], 1, true⟩,
  -- 47: a31a=sproduct(ANGLE,&p3,&p1)
  .sprod 6 ⟨true, 2, true, [], 0, true⟩,
  -- 48: a3413a=sproduct(ANGLE,&p3,&p4,&p1,&p3)
  .sprod 7 ⟨true, 2, true, [3, 0], 2, true⟩,
  -- 50: pre=std::sqrt(2.0)*e*gs/(MW*SW)
  .set .r 6 (.div (.mul (.mul (.sqrt (.lit 2)) (.mem .r 0)) (.mem .r 1)) (.mul (.mem .r 4) (.mem .r 5)))]

/-- `set_masses` (SM/dWgu.cpp:52-63); parameters: 0 `massu`, 1 `massd`, 2 `massW` -/
def setMasses : List SInstr := [
  -- 54: mu=massu
  .set .r 2 (.loc .r 0),
  -- 55: md=massd
  .set .r 3 (.loc .r 1),
  -- 56: MW=massW
  .set .r 4 (.loc .r 2),
  -- 57: p1.set_mass(md)
  .setMass 0 (.mem .r 3),
  -- 58: p2.set_mass(MW)
  .setMass 1 (.mem .r 4),
  -- 59: p4.set_mass(mu)
  .setMass 3 (.mem .r 2),
  -- 60: propu.set_mass(mu)
  .propMass 0 (.mem .r 2),
  -- 61: propd.set_mass(md)
  .propMass 1 (.mem .r 3),
  -- 62: pre=std::sqrt(2.0)*e*gs/(MW*SW)
  .set .r 6 (.div (.mul (.mul (.sqrt (.lit 2)) (.mem .r 0)) (.mem .r 1)) (.mul (.mem .r 4) (.mem .r 5)))]

/-- `set_momenta` (SM/dWgu.cpp:64-88); parameters: 0 `mom1`, 1 `mom2`, 2 `mom3`, 3 `mom4` -/
def setMomenta : List SInstr := [
  -- 67: p1.set_momentum(mom1)
  .setMom 0 0,
  -- 68: p2.set_momentum(mom2)
  .setMom 1 1,
  -- 69: p3.set_momentum(mom3)
  .setMom 2 2,
  -- 70: p4.set_momentum(mom4)
  .setMom 3 3,
  -- 71: a21a.update()
  .update 0,
  -- 72: s24s.update()
  .update 1,
  -- 73: s32s.update()
  .update 2,
  -- 74: s34s.update()
  .update 3,
  -- 75: s3413s.update()
  .update 4,
  -- 76: a32a.update()
  .update 5,
  -- 77: a31a.update()
  .update 6,
  -- 78: a3413a.update()
  .update 7,
  -- 86: pDenS=propu.denominator(propSP)
  .den .c 0 0 (.add 0 1),
  -- 87: pDenT=propd.denominator(propTP)
  .den .c 1 1 (.sub 0 2)]

/-- `cdouble amp(ds1,ds2,ds3,ds4)` (SM/dWgu.cpp:93-134); variables: i 0 `ds1`, i 1 `ds2`, i 2 `ds3`, i 3 `ds4`, c 0 `amplitude`, i 4 `ds2a`, i 5 `ds2b`, i 6 `nCombs`, r 0 `normFactor`, i 7 `i` -/
def m_amp : Method := ⟨4, 
  -- 95: cdouble amplitude
  .seq (.set .c 0 (.ofR (.lit 0))) <|
  -- 99: int nCombs
  .seq (.seti 6 (.loops [1])) <|
  -- 100: ldouble normFactor
  .seq (.set .r 0 (.norm [1])) <|
  -- 102: for(int i=0;i<nCombs;i++)
  .seq (.loop 7 0 false (.var 6) 1 (
    -- 103: get_spinor_spins(ds2,ds2a,ds2b,i)
    .seq (.spins [(1, 4, 5)] (.var 7)) <|
    -- 105: if(ds3>0)
    .ite (.lt (.lit 0) (.var 2)) (
      -- 118: amplitude+=-normFactor*pre*a21a.v(ds2a,ds1)*s24s.v(ds2b,ds4)*s3413s.v()/pDenS/pDenT-normFactor*pre*s32s.v(ds2a)*s34s.v(ds4)*a21a.v(ds2b,ds1)/pDenS
      .set .c 0 (.add (.loc .c 0) (.sub (.div (.div (.mul (.mul (.smul (.mul (.neg (.loc .r 0)) (.mem .r 6)) (.v 0 [.var 4, .var 0])) (.v 1 [.var 5, .var 3])) (.v 4 [])) (.mem .c 0)) (.mem .c 1)) (.div (.mul (.mul (.smul (.mul (.loc .r 0) (.mem .r 6)) (.v 2 [.var 4])) (.v 3 [.var 3])) (.v 0 [.var 5, .var 0])) (.mem .c 0))))) (
      -- 123: if(ds3<0)
      .ite (.lt (.var 2) (.lit 0)) (
        -- 126: amplitude+=-normFactor*pre*a21a.v(ds2a,ds1)*s24s.v(ds2b,ds4)*a3413a.v()/pDenS/pDenT+normFactor*pre*a32a.v(ds2a)*a31a.v(ds1)*s24s.v(ds2b,ds4)/pDenT
        .set .c 0 (.add (.loc .c 0) (.add (.div (.div (.mul (.mul (.smul (.mul (.neg (.loc .r 0)) (.mem .r 6)) (.v 0 [.var 4, .var 0])) (.v 1 [.var 5, .var 3])) (.v 7 [])) (.mem .c 0)) (.mem .c 1)) (.div (.mul (.mul (.smul (.mul (.loc .r 0) (.mem .r 6)) (.v 5 [.var 4])) (.v 6 [.var 0])) (.v 1 [.var 5, .var 3])) (.mem .c 1))))) (
        .skip)))) <|
  -- 133: return amplitude
  .ret .c (.loc .c 0)⟩

/-- `ldouble amp2()` (SM/dWgu.cpp:137-154); variables: r 0 `amp2`, c 0 `M`, i 0 `j1`, i 1 `j2`, i 2 `j3`, i 3 `j4` -/
def m_amp2 : Method := ⟨0, 
  -- 139: ldouble amp2
  .seq (.set .r 0 (.lit 0)) <|
  -- 140: cdouble M
  .seq (.set .c 0 (.ofR (.lit 0))) <|
  -- 143: for(int j1=-1;j1<=1;j1+=2)
  .seq (.loop 0 (-1) true (.lit 1) 2 (
    -- 144: for(int j2=-2;j2<=2;j2+=2)
    .loop 1 (-2) true (.lit 2) 2 (
      -- 145: for(int j3=-2;j3<=2;j3+=4)
      .loop 2 (-2) true (.lit 2) 4 (
        -- 146: for(int j4=-1;j4<=1;j4+=2)
        .loop 3 (-1) true (.lit 1) 2 (
          -- 147: M=amp(j1,j2,j3,j4)
          .seq (.set .c 0 (.call 0 [.var 0, .var 1, .var 2, .var 3])) <|
          -- 149: amp2+=four*std::pow(std::abs(M),2)
          .set .r 0 (.add (.loc .r 0) (.mul (.lit 4) (.pow (.abs (.loc .c 0)) 2)))))))) <|
  -- 153: return amp2/18.0
  .ret .r (.div (.loc .r 0) (.lit 18))⟩

end dWgu

/-- `class dWgu` (SM/dWgu.cpp, SM/include/dWgu.h:25-33).  Members:
* ldouble: 0 `e`, 1 `gs`, 2 `mu`, 3 `md`, 4 `MW`, 5 `SW`, 6 `pre`
* cdouble: 0 `pDenS`, 1 `pDenT`, 2 `pDenU`
* propagator: 0 `propu`, 1 `propd`
* sproduct: 0 `a21a`, 1 `s24s`, 2 `s32s`, 3 `s34s`, 4 `s3413s`, 5 `a32a`, 6 `a31a`, 7 `a3413a` -/
def dWgu : Proc where
  name := "dWgu"
  nPar := 6
  ctor := dWgu.ctor
  setMasses := dWgu.setMasses
  massPar := [2, 3, 4]
  setMomenta := dWgu.setMomenta
  methods := [dWgu.m_amp2, dWgu.m_amp]
  amp2 := 1
  others := []

namespace dZZd

/-- constructor (SM/dZZd.cpp:32-63); parameters: 0 `echarge`, 1 `massf`, 2 `massh`, 3 `widthh`, 4 `massW`, 5 `sinW`, 6 `widthZ` -/
def ctor : List SInstr := [
  -- 32: e(echarge)
  .set .r 0 (.loc .r 0),
  -- 32: Qf(-1.0/3.0)
  .set .r 1 (.div (.neg (.lit 1)) (.lit 3)),
  -- 32: mf(massf)
  .set .r 2 (.loc .r 1),
  -- 32: mh(massh)
  .set .r 3 (.loc .r 2),
  -- 32: wh(widthh)
  .set .r 4 (.loc .r 3),
  -- 32: MW(massW)
  .set .r 5 (.loc .r 4),
  -- 32: SW(sinW)
  .set .r 6 (.loc .r 5),
  -- 32: CW(std::sqrt(1.0-sinW*sinW))
  .set .r 7 (.sqrt (.sub (.lit 1) (.mul (.loc .r 5) (.loc .r 5)))),
  -- 32: MZ(massW/CW)
  .set .r 8 (.div (.loc .r 4) (.mem .r 7)),
  -- 32: WZ(widthZ)
  .set .r 9 (.loc .r 6),
  -- 32: propf(massf,0)
  .prop 1 (.loc .r 1) (.lit 0),
  -- 35: sqrt2=std::sqrt(two)
  .set .r 10 (.sqrt (.lit 2)),
  -- 36: MZ=MW/CW
  .set .r 8 (.div (.mem .r 5) (.mem .r 7)),
  -- 37: proph=propagator(mh,wh)
  .prop 0 (.mem .r 3) (.mem .r 4),
  -- 38: p1=particle(mf)
  .part 0 (.mem .r 2),
  -- 39: p2=particle(MZ)
  .part 1 (.mem .r 8),
  -- 40: p3=particle(MZ)
  .part 2 (.mem .r 8),
  -- 41: p4=particle(mf)
  .part 3 (.mem .r 2),
  -- 43: s12s=sproduct(SQUARE,&p1,&p2)
  .sprod 0 ⟨false, 0, true, [], 1, true⟩,
  -- 44: a12a=sproduct(ANGLE,&p1,&p2)
  .sprod 1 ⟨true, 0, true, [], 1, true⟩,
  -- 45: s23s=sproduct(SQUARE,&p2,&p3)
  .sprod 2 ⟨false, 1, true, [], 2, true⟩,
  -- 46: a23a=sproduct(ANGLE,&p2,&p3)
  .sprod 3 ⟨true, 1, true, [], 2, true⟩,
  -- 47: s13s=sproduct(SQUARE,&p1,&p3)
  .sprod 4 ⟨false, 0, true, [], 2, true⟩,
  -- 48: a13a=sproduct(ANGLE,&p1,&p3)
  .sprod 5 ⟨true, 0, true, [], 2, true⟩,
  -- 49: s34s=sproduct(SQUARE,&p3,&p4)
  .sprod 6 ⟨false, 2, true, [], 3, true⟩,
  -- 50: a34a=sproduct(ANGLE,&p3,&p4)
  .sprod 7 ⟨true, 2, true, [], 3, true⟩,
  -- 51: s24s=sproduct(SQUARE,&p2,&p4)
  .sprod 8 ⟨false, 1, true, [], 3, true⟩,
  -- 52: a24a=sproduct(ANGLE,&p2,&p4)
  .sprod 9 ⟨true, 1, true, [], 3, true⟩,
  -- 53: s14s=sproduct(SQUARE,&p1,&p4)
  .sprod 10 ⟨false, 0, true, [], 3, true⟩,
  -- 54: a14a=sproduct(ANGLE,&p1,&p4)
  .sprod 11 ⟨true, 0, true, [], 3, true⟩,
  -- 56: s312a=sproduct(SQUARE,&p3,&p1,&p2)
  .sprod 12 ⟨false, 2, true, [0], 1, true⟩,
  -- 57: s213a=sproduct(SQUARE,&p2,&p1,&p3)
  .sprod 13 ⟨false, 1, true, [0], 2, true⟩,
  -- 59: preTU=e*e/(2.0*MW*MW*SW*SW)
  .set .r 11 (.div (.mul (.mem .r 0) (.mem .r 0)) (.mul (.mul (.mul (.mul (.lit 2) (.mem .r 5)) (.mem .r 5)) (.mem .r 6)) (.mem .r 6))),
  -- 60: gL=-2.0*Qf*SW*SW-1.0
  .set .r 13 (.sub (.mul (.mul (.mul (.neg (.lit 2)) (.mem .r 1)) (.mem .r 6)) (.mem .r 6)) (.lit 1)),
  -- 61: gR=-2.0*Qf*SW*SW
  .set .r 14 (.mul (.mul (.mul (.neg (.lit 2)) (.mem .r 1)) (.mem .r 6)) (.mem .r 6)),
  -- 62: preh=e*e*mf/(2.0*MW*MW*SW*SW)
  .set .r 12 (.div (.mul (.mul (.mem .r 0) (.mem .r 0)) (.mem .r 2)) (.mul (.mul (.mul (.mul (.lit 2) (.mem .r 5)) (.mem .r 5)) (.mem .r 6)) (.mem .r 6)))]

/-- `set_masses` (SM/dZZd.cpp:64-78); parameters: 0 `massf`, 1 `massh`, 2 `massW` -/
def setMasses : List SInstr := [
  -- 65: mf=massf
  .set .r 2 (.loc .r 0),
  -- 66: mh=massh
  .set .r 3 (.loc .r 1),
  -- 67: MW=massW
  .set .r 5 (.loc .r 2),
  -- 68: MZ=MW/CW
  .set .r 8 (.div (.mem .r 5) (.mem .r 7)),
  -- 69: p1.set_mass(mf)
  .setMass 0 (.mem .r 2),
  -- 70: p2.set_mass(MZ)
  .setMass 1 (.mem .r 8),
  -- 71: p3.set_mass(MZ)
  .setMass 2 (.mem .r 8),
  -- 72: p4.set_mass(mf)
  .setMass 3 (.mem .r 2),
  -- 73: propf.set_mass(mf)
  .propMass 1 (.mem .r 2),
  -- 74: proph.set_mass(mh)
  .propMass 0 (.mem .r 3),
  -- 76: preTU=e*e/(2.0*MW*MW*SW*SW)
  .set .r 11 (.div (.mul (.mem .r 0) (.mem .r 0)) (.mul (.mul (.mul (.mul (.lit 2) (.mem .r 5)) (.mem .r 5)) (.mem .r 6)) (.mem .r 6))),
  -- 77: preh=e*e*mf/(2.0*MW*MW*SW*SW)
  .set .r 12 (.div (.mul (.mul (.mem .r 0) (.mem .r 0)) (.mem .r 2)) (.mul (.mul (.mul (.mul (.lit 2) (.mem .r 5)) (.mem .r 5)) (.mem .r 6)) (.mem .r 6)))]

/-- `set_momenta` (SM/dZZd.cpp:79-111); parameters: 0 `mom1`, 1 `mom2`, 2 `mom3`, 3 `mom4` -/
def setMomenta : List SInstr := [
  -- 81: p1.set_momentum(mom1)
  .setMom 0 0,
  -- 82: p2.set_momentum(mom2)
  .setMom 1 1,
  -- 83: p3.set_momentum(mom3)
  .setMom 2 2,
  -- 84: p4.set_momentum(mom4)
  .setMom 3 3,
  -- 86: s12s.update()
  .update 0,
  -- 87: a12a.update()
  .update 1,
  -- 88: s23s.update()
  .update 2,
  -- 89: a23a.update()
  .update 3,
  -- 90: s13s.update()
  .update 4,
  -- 91: a13a.update()
  .update 5,
  -- 92: s34s.update()
  .update 6,
  -- 93: a34a.update()
  .update 7,
  -- 94: s24s.update()
  .update 8,
  -- 95: a24a.update()
  .update 9,
  -- 96: s14s.update()
  .update 10,
  -- 97: a14a.update()
  .update 11,
  -- 99: s312a.update()
  .update 12,
  -- 100: s213a.update()
  .update 13,
  -- 108: pDenS=propf.denominator(propSP)
  .den .c 0 1 (.add 0 1),
  -- 109: pDenT=propf.denominator(propTP)
  .den .c 1 1 (.sub 0 2),
  -- 110: pDenU=proph.denominator(propUP)
  .den .c 2 0 (.sub 0 3)]

/-- `cdouble amp(ds1,ds2,ds3,ds4)` (SM/dZZd.cpp:116-178); variables: i 0 `ds1`, i 1 `ds2`, i 2 `ds3`, i 3 `ds4`, c 0 `amplitude`, i 4 `ds3a`, i 5 `ds3b`, i 6 `ds2a`, i 7 `ds2b`, i 8 `nCombs`, r 0 `normFactor`, i 9 `i` -/
def m_amp : Method := ⟨4, 
  -- 117: cdouble amplitude
  .seq (.set .c 0 (.ofR (.lit 0))) <|
  -- 121: int nCombs
  .seq (.seti 8 (.loops [2, 1])) <|
  -- 122: ldouble normFactor
  .seq (.set .r 0 (.norm [2, 1])) <|
  -- 124: for(int i=0;i<nCombs;i++)
  .seq (.loop 9 0 false (.var 8) 1 (
    -- 125: get_spinor_spins(ds3,ds3a,ds3b,ds2,ds2a,ds2b,i)
    .seq (.spins [(2, 4, 5), (1, 6, 7)] (.var 9)) <|
    -- 135: amplitude+=-normFactor*preh*s23s.v(ds2a,ds3a)*a23a.v(ds2b,ds3b)*(s14s.v(ds1,ds4)-a14a.v(ds1,ds4))/pDenU
    .seq (.set .c 0 (.add (.loc .c 0) (.div (.mul (.mul (.smul (.mul (.neg (.loc .r 0)) (.mem .r 12)) (.v 2 [.var 6, .var 4])) (.v 3 [.var 7, .var 5])) (.sub (.v 10 [.var 0, .var 3]) (.v 11 [.var 0, .var 3]))) (.mem .c 2)))) <|
    -- 151: amplitude+=-normFactor*preTU*gL*gL*s24s.v(ds2a,ds4)*a13a.v(ds1,ds3a)*(MZ*a23a.v(ds2b,ds3b)+s312a.v(ds3b,ds2b))/pDenT+normFactor*preTU*gR*gR*a24a.v(ds2a,ds4)*s13s.v(ds1,ds3a)*(MZ*s23s.v(ds2b,ds3b)+s213a.v(ds2b,ds3b))/pDenT+normFactor*preTU*gL*gR*mf*(s13s.v(ds1,ds3a)*s24s.v(ds2a,ds4)*a23a.v(ds2b,ds3b)-a13a.v(ds1,ds3a)*a24a.v(ds2a,ds4)*s23s.v(ds2b,ds3b))/pDenT
    .seq (.set .c 0 (.add (.loc .c 0) (.add (.add (.div (.mul (.mul (.smul (.mul (.mul (.mul (.neg (.loc .r 0)) (.mem .r 11)) (.mem .r 13)) (.mem .r 13)) (.v 8 [.var 6, .var 3])) (.v 5 [.var 0, .var 4])) (.add (.smul (.mem .r 8) (.v 3 [.var 7, .var 5])) (.v 12 [.var 5, .var 7]))) (.mem .c 1)) (.div (.mul (.mul (.smul (.mul (.mul (.mul (.loc .r 0) (.mem .r 11)) (.mem .r 14)) (.mem .r 14)) (.v 9 [.var 6, .var 3])) (.v 4 [.var 0, .var 4])) (.add (.smul (.mem .r 8) (.v 2 [.var 7, .var 5])) (.v 13 [.var 7, .var 5]))) (.mem .c 1))) (.div (.smul (.mul (.mul (.mul (.mul (.loc .r 0) (.mem .r 11)) (.mem .r 13)) (.mem .r 14)) (.mem .r 2)) (.sub (.mul (.mul (.v 4 [.var 0, .var 4]) (.v 8 [.var 6, .var 3])) (.v 3 [.var 7, .var 5])) (.mul (.mul (.v 5 [.var 0, .var 4]) (.v 9 [.var 6, .var 3])) (.v 2 [.var 7, .var 5])))) (.mem .c 1))))) <|
    -- 170: amplitude+=-normFactor*preTU*gL*gL*s34s.v(ds3a,ds4)*a12a.v(ds1,ds2a)*(MZ*a23a.v(ds2b,ds3b)+s213a.v(ds2b,ds3b))/pDenS+normFactor*preTU*gR*gR*s12s.v(ds1,ds2a)*a34a.v(ds3a,ds4)*(MZ*s23s.v(ds2b,ds3b)+s312a.v(ds3b,ds2b))/pDenS+normFactor*preTU*gL*gR*mf*(-s12s.v(ds1,ds2a)*s34s.v(ds3a,ds4)*a23a.v(ds2b,ds3b)+a12a.v(ds1,ds2a)*a34a.v(ds3a,ds4)*s23s.v(ds2b,ds3b))/pDenS
    .set .c 0 (.add (.loc .c 0) (.add (.add (.div (.mul (.mul (.smul (.mul (.mul (.mul (.neg (.loc .r 0)) (.mem .r 11)) (.mem .r 13)) (.mem .r 13)) (.v 6 [.var 4, .var 3])) (.v 1 [.var 0, .var 6])) (.add (.smul (.mem .r 8) (.v 3 [.var 7, .var 5])) (.v 13 [.var 7, .var 5]))) (.mem .c 0)) (.div (.mul (.mul (.smul (.mul (.mul (.mul (.loc .r 0) (.mem .r 11)) (.mem .r 14)) (.mem .r 14)) (.v 0 [.var 0, .var 6])) (.v 7 [.var 4, .var 3])) (.add (.smul (.mem .r 8) (.v 2 [.var 7, .var 5])) (.v 12 [.var 5, .var 7]))) (.mem .c 0))) (.div (.smul (.mul (.mul (.mul (.mul (.loc .r 0) (.mem .r 11)) (.mem .r 13)) (.mem .r 14)) (.mem .r 2)) (.add (.mul (.mul (.neg (.v 0 [.var 0, .var 6])) (.v 6 [.var 4, .var 3])) (.v 3 [.var 7, .var 5])) (.mul (.mul (.v 1 [.var 0, .var 6]) (.v 7 [.var 4, .var 3])) (.v 2 [.var 7, .var 5])))) (.mem .c 0)))))) <|
  -- 177: return amplitude
  .ret .c (.loc .c 0)⟩

/-- `ldouble amp2()` (SM/dZZd.cpp:181-196); variables: r 0 `amp2`, c 0 `M`, i 0 `j1`, i 1 `j2`, i 2 `j3`, i 3 `j4` -/
def m_amp2 : Method := ⟨0, 
  -- 182: ldouble amp2
  .seq (.set .r 0 (.lit 0)) <|
  -- 183: cdouble M
  .seq (.set .c 0 (.ofR (.lit 0))) <|
  -- 186: for(int j1=-1;j1<=1;j1+=2)
  .seq (.loop 0 (-1) true (.lit 1) 2 (
    -- 187: for(int j2=-2;j2<=2;j2+=2)
    .loop 1 (-2) true (.lit 2) 2 (
      -- 188: for(int j3=-2;j3<=2;j3+=2)
      .loop 2 (-2) true (.lit 2) 2 (
        -- 189: for(int j4=-1;j4<=1;j4+=2)
        .loop 3 (-1) true (.lit 1) 2 (
          -- 190: M=amp(j1,j2,j3,j4)
          .seq (.set .c 0 (.call 0 [.var 0, .var 1, .var 2, .var 3])) <|
          -- 191: amp2+=3.0*std::pow(std::abs(M),2)
          .set .r 0 (.add (.loc .r 0) (.mul (.lit 3) (.pow (.abs (.loc .c 0)) 2)))))))) <|
  -- 195: return amp2/18.0
  .ret .r (.div (.loc .r 0) (.lit 18))⟩

end dZZd

/-- `class dZZd` (SM/dZZd.cpp, SM/include/dZZd.h:25-36).  Members:
* ldouble: 0 `e`, 1 `Qf`, 2 `mf`, 3 `mh`, 4 `wh`, 5 `MW`, 6 `SW`, 7 `CW`, 8 `MZ`, 9 `WZ`, 10 `sqrt2`, 11 `preTU`, 12 `preh`, 13 `gL`, 14 `gR`
* cdouble: 0 `pDenS`, 1 `pDenT`, 2 `pDenU`
* propagator: 0 `proph`, 1 `propf`
* sproduct: 0 `s12s`, 1 `a12a`, 2 `s23s`, 3 `a23a`, 4 `s13s`, 5 `a13a`, 6 `s34s`, 7 `a34a`, 8 `s24s`, 9 `a24a`, 10 `s14s`, 11 `a14a`, 12 `s312a`, 13 `s213a` -/
def dZZd : Proc where
  name := "dZZd"
  nPar := 7
  ctor := dZZd.ctor
  setMasses := dZZd.setMasses
  massPar := [1, 2, 4]
  setMomenta := dZZd.setMomenta
  methods := [dZZd.m_amp2, dZZd.m_amp]
  amp2 := 1
  others := []

namespace dZdh

/-- constructor (SM/dZdh.cpp:32-60); parameters: 0 `echarge`, 1 `massd`, 2 `massh`, 3 `widthh`, 4 `massW`, 5 `sinW`, 6 `widthZ` -/
def ctor : List SInstr := [
  -- 32: e(echarge)
  .set .r 0 (.loc .r 0),
  -- 32: md(massd)
  .set .r 1 (.loc .r 1),
  -- 32: mh(massh)
  .set .r 2 (.loc .r 2),
  -- 32: wh(widthh)
  .set .r 3 (.loc .r 3),
  -- 32: MW(massW)
  .set .r 4 (.loc .r 4),
  -- 32: SW(sinW)
  .set .r 5 (.loc .r 5),
  -- 32: CW(std::sqrt(1.0-sinW*sinW))
  .set .r 6 (.sqrt (.sub (.lit 1) (.mul (.loc .r 5) (.loc .r 5)))),
  -- 32: MZ(massW/CW)
  .set .r 7 (.div (.loc .r 4) (.mem .r 6)),
  -- 32: WZ(widthZ)
  .set .r 8 (.loc .r 6),
  -- 32: propd(massd,0)
  .prop 1 (.loc .r 1) (.lit 0),
  -- 35: sqrt2=std::sqrt(two)
  .set .r 9 (.sqrt (.lit 2)),
  -- 36: MZ=MW/CW
  .set .r 7 (.div (.mem .r 4) (.mem .r 6)),
  -- 37: propZ=propagator(MZ,WZ)
  .prop 0 (.mem .r 7) (.mem .r 8),
  -- 38: p1=particle(md)
  .part 0 (.mem .r 1),
  -- 39: p2=particle(MZ)
  .part 1 (.mem .r 7),
  -- 40: p3=particle(md)
  .part 2 (.mem .r 1),
  -- 41: p4=particle(mh)
  .part 3 (.mem .r 2),
  -- 43: s12s=sproduct(SQUARE,&p1,&p2)
  .sprod 0 ⟨false, 0, true, [], 1, true⟩,
  -- 44: a12a=sproduct(ANGLE,&p1,&p2)
  .sprod 1 ⟨true, 0, true, [], 1, true⟩,
  -- 45: s23s=sproduct(SQUARE,&p2,&p3)
  .sprod 2 ⟨false, 1, true, [], 2, true⟩,
  -- 46: a23a=sproduct(ANGLE,&p2,&p3)
  .sprod 3 ⟨true, 1, true, [], 2, true⟩,
  -- 47: s13s=sproduct(SQUARE,&p1,&p3)
  .sprod 4 ⟨false, 0, true, [], 2, true⟩,
  -- 48: a13a=sproduct(ANGLE,&p1,&p3)
  .sprod 5 ⟨true, 0, true, [], 2, true⟩,
  -- 50: s312a=sproduct(SQUARE,&p3,&p1,&p2)
  .sprod 6 ⟨false, 2, true, [0], 1, true⟩,
  -- 51: s213a=sproduct(SQUARE,&p2,&p1,&p3)
  .sprod 7 ⟨false, 1, true, [0], 2, true⟩,
  -- 52: s242a=sproduct(SQUARE,&p2,&p4,&p2)
  .sprod 8 ⟨false, 1, true, [3], 1, true⟩,
  -- 53: s142a=sproduct(SQUARE,&p1,&p4,&p2)
  .sprod 9 ⟨false, 0, true, [3], 1, true⟩,
  -- 54: s241a=sproduct(SQUARE,&p2,&p4,&p1)
  .sprod 10 ⟨false, 1, true, [3], 0, true⟩,
  -- 56: preTU=sqrt2*e*e*md/(4.0*MW*MW*SW*SW)
  .set .r 10 (.div (.mul (.mul (.mul (.mem .r 9) (.mem .r 0)) (.mem .r 0)) (.mem .r 1)) (.mul (.mul (.mul (.mul (.lit 4) (.mem .r 4)) (.mem .r 4)) (.mem .r 5)) (.mem .r 5))),
  -- 57: gL=2.0/3.0*SW*SW-1.0
  .set .r 12 (.sub (.mul (.mul (.div (.lit 2) (.lit 3)) (.mem .r 5)) (.mem .r 5)) (.lit 1)),
  -- 58: gR=2.0/3.0*SW*SW
  .set .r 13 (.mul (.mul (.div (.lit 2) (.lit 3)) (.mem .r 5)) (.mem .r 5)),
  -- 59: preZ=sqrt2*e*e/(4.0*MW*MW*SW*SW)
  .set .r 11 (.div (.mul (.mul (.mem .r 9) (.mem .r 0)) (.mem .r 0)) (.mul (.mul (.mul (.mul (.lit 4) (.mem .r 4)) (.mem .r 4)) (.mem .r 5)) (.mem .r 5)))]

/-- `set_masses` (SM/dZdh.cpp:61-75); parameters: 0 `massd`, 1 `massh`, 2 `massW` -/
def setMasses : List SInstr := [
  -- 62: md=massd
  .set .r 1 (.loc .r 0),
  -- 63: mh=massh
  .set .r 2 (.loc .r 1),
  -- 64: MW=massW
  .set .r 4 (.loc .r 2),
  -- 65: MZ=MW/CW
  .set .r 7 (.div (.mem .r 4) (.mem .r 6)),
  -- 66: p1.set_mass(md)
  .setMass 0 (.mem .r 1),
  -- 67: p2.set_mass(MZ)
  .setMass 1 (.mem .r 7),
  -- 68: p3.set_mass(md)
  .setMass 2 (.mem .r 1),
  -- 69: p4.set_mass(mh)
  .setMass 3 (.mem .r 2),
  -- 70: propd.set_mass(md)
  .propMass 1 (.mem .r 1),
  -- 71: propZ.set_mass(MZ)
  .propMass 0 (.mem .r 7),
  -- 73: preTU=sqrt2*e*e*md/(4.0*MW*MW*SW*SW)
  .set .r 10 (.div (.mul (.mul (.mul (.mem .r 9) (.mem .r 0)) (.mem .r 0)) (.mem .r 1)) (.mul (.mul (.mul (.mul (.lit 4) (.mem .r 4)) (.mem .r 4)) (.mem .r 5)) (.mem .r 5))),
  -- 74: preZ=sqrt2*e*e/(4.0*MW*MW*SW*SW)
  .set .r 11 (.div (.mul (.mul (.mem .r 9) (.mem .r 0)) (.mem .r 0)) (.mul (.mul (.mul (.mul (.lit 4) (.mem .r 4)) (.mem .r 4)) (.mem .r 5)) (.mem .r 5)))]

/-- `set_momenta` (SM/dZdh.cpp:76-105); parameters: 0 `mom1`, 1 `mom2`, 2 `mom3`, 3 `mom4` -/
def setMomenta : List SInstr := [
  -- 78: p1.set_momentum(mom1)
  .setMom 0 0,
  -- 79: p2.set_momentum(mom2)
  .setMom 1 1,
  -- 80: p3.set_momentum(mom3)
  .setMom 2 2,
  -- 81: p4.set_momentum(mom4)
  .setMom 3 3,
  -- 83: s12s.update()
  .update 0,
  -- 84: a12a.update()
  .update 1,
  -- 85: s23s.update()
  .update 2,
  -- 86: a23a.update()
  .update 3,
  -- 87: s13s.update()
  .update 4,
  -- 88: a13a.update()
  .update 5,
  -- 90: s312a.update()
  .update 6,
  -- 91: s213a.update()
  .update 7,
  -- 92: s242a.update()
  .update 8,
  -- 93: s142a.update()
  .update 9,
  -- 94: s241a.update()
  .update 10,
  -- 102: pDenS=propd.denominator(propSP)
  .den .c 0 1 (.add 0 1),
  -- 103: pDenT=propZ.denominator(propTP)
  .den .c 1 0 (.sub 0 2),
  -- 104: pDenU=propd.denominator(propUP)
  .den .c 2 1 (.sub 0 3)]

/-- `cdouble amp(ds1,ds2,ds3)` (SM/dZdh.cpp:110-152); variables: i 0 `ds1`, i 1 `ds2`, i 2 `ds3`, c 0 `amplitude`, i 3 `ds2a`, i 4 `ds2b`, i 5 `nCombs`, r 0 `normFactor`, i 6 `i` -/
def m_amp : Method := ⟨3, 
  -- 111: cdouble amplitude
  .seq (.set .c 0 (.ofR (.lit 0))) <|
  -- 115: int nCombs
  .seq (.seti 5 (.loops [1])) <|
  -- 116: ldouble normFactor
  .seq (.set .r 0 (.norm [1])) <|
  -- 117: for(int i=0;i<nCombs;i++)
  .seq (.loop 6 0 false (.var 5) 1 (
    -- 118: get_spinor_spins(ds2,ds2a,ds2b,i)
    .seq (.spins [(1, 3, 4)] (.var 6)) <|
    -- 128: amplitude+=normFactor*preZ*(md*(gL-gR)*(a13a.v(ds1,ds3)+s13s.v(ds1,ds3))*s242a.v(ds2a,ds2b)-2.0*MZ*MZ*(gL*s23s.v(ds2a,ds3)*a12a.v(ds1,ds2b)-gR*a23a.v(ds2a,ds3)*s12s.v(ds1,ds2b)))/pDenT
    .seq (.set .c 0 (.add (.loc .c 0) (.div (.smul (.mul (.loc .r 0) (.mem .r 11)) (.sub (.mul (.smul (.mul (.mem .r 1) (.sub (.mem .r 12) (.mem .r 13))) (.add (.v 5 [.var 0, .var 2]) (.v 4 [.var 0, .var 2]))) (.v 8 [.var 3, .var 4])) (.smul (.mul (.mul (.lit 2) (.mem .r 7)) (.mem .r 7)) (.sub (.mul (.smul (.mem .r 12) (.v 2 [.var 3, .var 2])) (.v 1 [.var 0, .var 4])) (.mul (.smul (.mem .r 13) (.v 3 [.var 3, .var 2])) (.v 0 [.var 0, .var 4])))))) (.mem .c 1)))) <|
    -- 138: amplitude+=-normFactor*preTU*(gL*a12a.v(ds1,ds2a)*(md*s23s.v(ds2b,ds3)-s213a.v(ds2b,ds3)-MZ*a23a.v(ds2b,ds3))+gR*s12s.v(ds1,ds2a)*(-md*a23a.v(ds2b,ds3)+s312a.v(ds3,ds2b)+MZ*s23s.v(ds2b,ds3)))/pDenS
    .seq (.set .c 0 (.add (.loc .c 0) (.div (.smul (.mul (.neg (.loc .r 0)) (.mem .r 10)) (.add (.mul (.smul (.mem .r 12) (.v 1 [.var 0, .var 3])) (.sub (.sub (.smul (.mem .r 1) (.v 2 [.var 4, .var 2])) (.v 7 [.var 4, .var 2])) (.smul (.mem .r 7) (.v 3 [.var 4, .var 2])))) (.mul (.smul (.mem .r 13) (.v 0 [.var 0, .var 3])) (.add (.add (.smul (.neg (.mem .r 1)) (.v 3 [.var 4, .var 2])) (.v 6 [.var 2, .var 4])) (.smul (.mem .r 7) (.v 2 [.var 4, .var 2])))))) (.mem .c 0)))) <|
    -- 148: amplitude+=-normFactor*preTU*(gL*s23s.v(ds2a,ds3)*(-s142a.v(ds1,ds2b)+2.0*md*a12a.v(ds1,ds2b))-gR*a23a.v(ds2a,ds3)*(-s241a.v(ds2b,ds1)+2.0*md*s12s.v(ds1,ds2b)))/pDenU
    .set .c 0 (.add (.loc .c 0) (.div (.smul (.mul (.neg (.loc .r 0)) (.mem .r 10)) (.sub (.mul (.smul (.mem .r 12) (.v 2 [.var 3, .var 2])) (.add (.neg (.v 9 [.var 0, .var 4])) (.smul (.mul (.lit 2) (.mem .r 1)) (.v 1 [.var 0, .var 4])))) (.mul (.smul (.mem .r 13) (.v 3 [.var 3, .var 2])) (.add (.neg (.v 10 [.var 4, .var 0])) (.smul (.mul (.lit 2) (.mem .r 1)) (.v 0 [.var 0, .var 4])))))) (.mem .c 2))))) <|
  -- 151: return amplitude
  .ret .c (.loc .c 0)⟩

/-- `ldouble amp2()` (SM/dZdh.cpp:155-169); variables: r 0 `amp2`, c 0 `M`, i 0 `j1`, i 1 `j2`, i 2 `j3` -/
def m_amp2 : Method := ⟨0, 
  -- 156: ldouble amp2
  .seq (.set .r 0 (.lit 0)) <|
  -- 157: cdouble M
  .seq (.set .c 0 (.ofR (.lit 0))) <|
  -- 160: for(int j1=-1;j1<=1;j1+=2)
  .seq (.loop 0 (-1) true (.lit 1) 2 (
    -- 161: for(int j2=-2;j2<=2;j2+=2)
    .loop 1 (-2) true (.lit 2) 2 (
      -- 162: for(int j3=-1;j3<=1;j3+=2)
      .loop 2 (-1) true (.lit 1) 2 (
        -- 163: M=amp(j1,j2,j3)
        .seq (.set .c 0 (.call 0 [.var 0, .var 1, .var 2])) <|
        -- 164: amp2+=3.0*std::pow(std::abs(M),2)
        .set .r 0 (.add (.loc .r 0) (.mul (.lit 3) (.pow (.abs (.loc .c 0)) 2))))))) <|
  -- 168: return amp2/18.0
  .ret .r (.div (.loc .r 0) (.lit 18))⟩

end dZdh

/-- `class dZdh` (SM/dZdh.cpp, SM/include/dZdh.h:25-36).  Members:
* ldouble: 0 `e`, 1 `md`, 2 `mh`, 3 `wh`, 4 `MW`, 5 `SW`, 6 `CW`, 7 `MZ`, 8 `WZ`, 9 `sqrt2`, 10 `preTU`, 11 `preZ`, 12 `gL`, 13 `gR`
* cdouble: 0 `pDenS`, 1 `pDenT`, 2 `pDenU`
* propagator: 0 `propZ`, 1 `propd`
* sproduct: 0 `s12s`, 1 `a12a`, 2 `s23s`, 3 `a23a`, 4 `s13s`, 5 `a13a`, 6 `s312a`, 7 `s213a`, 8 `s242a`, 9 `s142a`, 10 `s241a` -/
def dZdh : Proc where
  name := "dZdh"
  nPar := 7
  ctor := dZdh.ctor
  setMasses := dZdh.setMasses
  massPar := [1, 2, 4]
  setMomenta := dZdh.setMomenta
  methods := [dZdh.m_amp2, dZdh.m_amp]
  amp2 := 1
  others := []

namespace ddAA

/-- constructor (SM/ddAA.cpp:32-54); parameters: 0 `echarge`, 1 `massd` -/
def ctor : List SInstr := [
  -- 32: e(echarge)
  .set .r 0 (.loc .r 0),
  -- 32: Qd(-1.0/3.0)
  .set .r 1 (.div (.neg (.lit 1)) (.lit 3)),
  -- 32: md(massd)
  .set .r 2 (.loc .r 1),
  -- 32: prop(massd,0)
  .prop 0 (.loc .r 1) (.lit 0),
  -- 35: sqrt2=std::sqrt(two)
  .set .r 3 (.sqrt (.lit 2)),
  -- 36: p1=particle(md)
  .part 0 (.mem .r 2),
  -- 37: p2=particle(md)
  .part 1 (.mem .r 2),
  -- 38: p3=particle(0)
  .part 2 (.lit 0),
  -- 39: p4=particle(0)
  .part 3 (.lit 0),
  -- 40: s34s=sproduct(SQUARE,&p3,&p4)
  .sprod 0 ⟨false, 2, true, [], 3, true⟩,
  -- 41: a34a=sproduct(ANGLE,&p3,&p4)
  .sprod 1 ⟨true, 2, true, [], 3, true⟩,
  -- 42: s12s=sproduct(SQUARE,&p1,&p2)
  .sprod 2 ⟨false, 0, true, [], 1, true⟩,
  -- 43: a12a=sproduct(ANGLE,&p1,&p2)
  .sprod 3 ⟨true, 0, true, [], 1, true⟩,
  -- 44: s13s=sproduct(SQUARE,&p1,&p3)
  .sprod 4 ⟨false, 0, true, [], 2, true⟩,
  -- 45: a13a=sproduct(ANGLE,&p1,&p3)
  .sprod 5 ⟨true, 0, true, [], 2, true⟩,
  -- 46: s24s=sproduct(SQUARE,&p2,&p4)
  .sprod 6 ⟨false, 1, true, [], 3, true⟩,
  -- 47: a24a=sproduct(ANGLE,&p2,&p4)
  .sprod 7 ⟨true, 1, true, [], 3, true⟩,
  -- 48: s23s=sproduct(SQUARE,&p2,&p3)
  .sprod 8 ⟨false, 1, true, [], 2, true⟩,
  -- 49: a23a=sproduct(ANGLE,&p2,&p3)
  .sprod 9 ⟨true, 1, true, [], 2, true⟩,
  -- 50: s14s=sproduct(SQUARE,&p1,&p4)
  .sprod 10 ⟨false, 0, true, [], 3, true⟩,
  -- 51: a14a=sproduct(ANGLE,&p1,&p4)
  .sprod 11 ⟨true, 0, true, [], 3, true⟩,
  -- 52: s314a=sproduct(SQUARE,&p3,&p1,&p4)
  .sprod 12 ⟨false, 2, true, [0], 3, true⟩,
  -- 53: s413a=sproduct(SQUARE,&p4,&p1,&p3)
  .sprod 13 ⟨false, 3, true, [0], 2, true⟩]

/-- `set_masses` (SM/ddAA.cpp:55-60); parameters: 0 `massd` -/
def setMasses : List SInstr := [
  -- 56: md=massd
  .set .r 2 (.loc .r 0),
  -- 57: p1.set_mass(md)
  .setMass 0 (.mem .r 2),
  -- 58: p2.set_mass(md)
  .setMass 1 (.mem .r 2),
  -- 59: prop.set_mass(md)
  .propMass 0 (.mem .r 2)]

/-- `set_momenta` (SM/ddAA.cpp:61-90); parameters: 0 `mom1`, 1 `mom2`, 2 `mom3`, 3 `mom4` -/
def setMomenta : List SInstr := [
  -- 63: p1.set_momentum(mom1)
  .setMom 0 0,
  -- 64: p2.set_momentum(mom2)
  .setMom 1 1,
  -- 65: p3.set_momentum(mom3)
  .setMom 2 2,
  -- 66: p4.set_momentum(mom4)
  .setMom 3 3,
  -- 67: s34s.update()
  .update 0,
  -- 68: a34a.update()
  .update 1,
  -- 69: s12s.update()
  .update 2,
  -- 70: a12a.update()
  .update 3,
  -- 71: s13s.update()
  .update 4,
  -- 72: a13a.update()
  .update 5,
  -- 73: s24s.update()
  .update 6,
  -- 74: a24a.update()
  .update 7,
  -- 75: s23s.update()
  .update 8,
  -- 76: a23a.update()
  .update 9,
  -- 77: s14s.update()
  .update 10,
  -- 78: a14a.update()
  .update 11,
  -- 79: s314a.update()
  .update 12,
  -- 80: s413a.update()
  .update 13,
  -- 87: pDenT=prop.denominator(propTP)
  .den .c 0 0 (.sub 0 2),
  -- 88: pDenU=prop.denominator(propUP)
  .den .c 1 0 (.sub 0 3)]

/-- `cdouble amp(ds1,ds2,ds3,ds4)` (SM/ddAA.cpp:97-116); variables: i 0 `ds1`, i 1 `ds2`, i 2 `ds3`, i 3 `ds4` -/
def m_amp : Method := ⟨4, 
  -- 99: if(ds3>0&&ds4>0)
  .seq (.ite (.and (.lt (.lit 0) (.var 2)) (.lt (.lit 0) (.var 3))) (
    -- 101: return 2.0*e*e*Qd*Qd*md*s34s.v()*s34s.v()*a12a.v(ds1,ds2)/pDenT/pDenU
    .ret .c (.div (.div (.mul (.mul (.smul (.mul (.mul (.mul (.mul (.mul (.lit 2) (.mem .r 0)) (.mem .r 0)) (.mem .r 1)) (.mem .r 1)) (.mem .r 2)) (.v 0 [])) (.v 0 [])) (.v 3 [.var 0, .var 1])) (.mem .c 0)) (.mem .c 1))) (
    -- 103: if(ds3<0&&ds4<0)
    .ite (.and (.lt (.var 2) (.lit 0)) (.lt (.var 3) (.lit 0))) (
      -- 105: return 2.0*e*e*Qd*Qd*md*a34a.v()*a34a.v()*s12s.v(ds1,ds2)/pDenT/pDenU
      .ret .c (.div (.div (.mul (.mul (.smul (.mul (.mul (.mul (.mul (.mul (.lit 2) (.mem .r 0)) (.mem .r 0)) (.mem .r 1)) (.mem .r 1)) (.mem .r 2)) (.v 1 [])) (.v 1 [])) (.v 2 [.var 0, .var 1])) (.mem .c 0)) (.mem .c 1))) (
      -- 107: if(ds3>0&&ds4<0)
      .ite (.and (.lt (.lit 0) (.var 2)) (.lt (.var 3) (.lit 0))) (
        -- 109: return 2.0*e*e*Qd*Qd*(s13s.v(ds1)*a24a.v(ds2)+s23s.v(ds2)*a14a.v(ds1))*s314a.v()/pDenT/pDenU
        .ret .c (.div (.div (.mul (.smul (.mul (.mul (.mul (.mul (.lit 2) (.mem .r 0)) (.mem .r 0)) (.mem .r 1)) (.mem .r 1)) (.add (.mul (.v 4 [.var 0]) (.v 7 [.var 1])) (.mul (.v 8 [.var 1]) (.v 11 [.var 0])))) (.v 12 [])) (.mem .c 0)) (.mem .c 1))) (
        -- 111: if(ds3<0&&ds4>0)
        .ite (.and (.lt (.var 2) (.lit 0)) (.lt (.lit 0) (.var 3))) (
          -- 113: return 2.0*e*e*Qd*Qd*(a13a.v(ds1)*s24s.v(ds2)+a23a.v(ds2)*s14s.v(ds1))*s413a.v()/pDenT/pDenU
          .ret .c (.div (.div (.mul (.smul (.mul (.mul (.mul (.mul (.lit 2) (.mem .r 0)) (.mem .r 0)) (.mem .r 1)) (.mem .r 1)) (.add (.mul (.v 5 [.var 0]) (.v 6 [.var 1])) (.mul (.v 9 [.var 1]) (.v 10 [.var 0])))) (.v 13 [])) (.mem .c 0)) (.mem .c 1))) (
          .skip))))) <|
  -- 115: return cdouble(0,0)
  .ret .c (.ofR (.lit 0))⟩

/-- `ldouble amp2()` (SM/ddAA.cpp:118-134); variables: r 0 `amp2`, c 0 `M`, i 0 `j1`, i 1 `j2`, i 2 `j3`, i 3 `j4` -/
def m_amp2 : Method := ⟨0, 
  -- 119: ldouble amp2
  .seq (.set .r 0 (.lit 0)) <|
  -- 120: cdouble M
  .seq (.set .c 0 (.ofR (.lit 0))) <|
  -- 123: for(int j1=-1;j1<=1;j1+=2)
  .seq (.loop 0 (-1) true (.lit 1) 2 (
    -- 124: for(int j2=-1;j2<=1;j2+=2)
    .loop 1 (-1) true (.lit 1) 2 (
      -- 125: for(int j3=-2;j3<=2;j3+=4)
      .loop 2 (-2) true (.lit 2) 4 (
        -- 126: for(int j4=-2;j4<=2;j4+=4)
        .loop 3 (-2) true (.lit 2) 4 (
          -- 127: M=amp(j1,j2,j3,j4)
          .seq (.set .c 0 (.call 0 [.var 0, .var 1, .var 2, .var 3])) <|
          -- 128: amp2+=3.0*std::pow(std::abs(M),2)
          .set .r 0 (.add (.loc .r 0) (.mul (.lit 3) (.pow (.abs (.loc .c 0)) 2)))))))) <|
  -- 133: return amp2/72.0
  .ret .r (.div (.loc .r 0) (.lit 72))⟩

end ddAA

/-- `class ddAA` (SM/ddAA.cpp, SM/include/ddAA.h:25-32).  Members:
* ldouble: 0 `e`, 1 `Qd`, 2 `md`, 3 `sqrt2`
* cdouble: 0 `pDenT`, 1 `pDenU`
* propagator: 0 `prop`
* sproduct: 0 `s34s`, 1 `a34a`, 2 `s12s`, 3 `a12a`, 4 `s13s`, 5 `a13a`, 6 `s24s`, 7 `a24a`, 8 `s23s`, 9 `a23a`, 10 `s14s`, 11 `a14a`, 12 `s314a`, 13 `s413a` -/
def ddAA : Proc where
  name := "ddAA"
  nPar := 2
  ctor := ddAA.ctor
  setMasses := ddAA.setMasses
  massPar := [1]
  setMomenta := ddAA.setMomenta
  methods := [ddAA.m_amp2, ddAA.m_amp]
  amp2 := 1
  others := []

namespace ddAh

/-- constructor (SM/ddAh.cpp:32-54); parameters: 0 `echarge`, 1 `massd`, 2 `massh`, 3 `massW`, 4 `sinW` -/
def ctor : List SInstr := [
  -- 32: e(echarge)
  .set .r 0 (.loc .r 0),
  -- 32: Qd(-1.0/3.0)
  .set .r 1 (.div (.neg (.lit 1)) (.lit 3)),
  -- 32: md(massd)
  .set .r 2 (.loc .r 1),
  -- 32: mh(massh)
  .set .r 3 (.loc .r 2),
  -- 32: MW(massW)
  .set .r 4 (.loc .r 3),
  -- 32: SW(sinW)
  .set .r 5 (.loc .r 4),
  -- 32: prop(massd,0)
  .prop 0 (.loc .r 1) (.lit 0),
  -- 35: sqrt2=std::sqrt(two)
  .set .r 7 (.sqrt (.lit 2)),
  -- 36: p1=particle(md)
  .part 0 (.mem .r 2),
  -- 37: p2=particle(md)
  .part 1 (.mem .r 2),
  -- 38: p3=particle(0)
  .part 2 (.lit 0),
  -- 39: p4=particle(mh)
  .part 3 (.mem .r 3),
  -- 40: s13s=sproduct(SQUARE,&p1,&p3)
  .sprod 0 ⟨false, 0, true, [], 2, true⟩,
  -- 41: a13a=sproduct(ANGLE,&p1,&p3)
  .sprod 1 ⟨true, 0, true, [], 2, true⟩,
  -- 42: s23s=sproduct(SQUARE,&p2,&p3)
  .sprod 2 ⟨false, 1, true, [], 2, true⟩,
  -- 43: a23a=sproduct(ANGLE,&p2,&p3)
  .sprod 3 ⟨true, 1, true, [], 2, true⟩,
  -- 44: s12s=sproduct(SQUARE,&p1,&p2)
  .sprod 4 ⟨false, 0, true, [], 1, true⟩,
  -- 45: a12a=sproduct(ANGLE,&p1,&p2)
  .sprod 5 ⟨true, 0, true, [], 1, true⟩,
  -- 46: s342a=sproduct(SQUARE,&p3,&p4,&p2)
  .sprod 6 ⟨false, 2, true, [3], 1, true⟩,
  -- 47: a342s=sproduct(ANGLE,&p3,&p4,&p2)
  .sprod 7 ⟨true, 2, true, [3], 1, true⟩,
  -- 48: s341a=sproduct(SQUARE,&p3,&p4,&p1)
  .sprod 8 ⟨false, 2, true, [3], 0, true⟩,
  -- 49: a341s=sproduct(ANGLE,&p3,&p4,&p1)
  .sprod 9 ⟨true, 2, true, [3], 0, true⟩,
  -- 50: s3243s=sproduct(SQUARE,&p3,&p2,&p4,&p3)
  .sprod 10 ⟨false, 2, true, [1, 3], 2, true⟩,
  -- 51: a3243a=sproduct(ANGLE,&p3,&p2,&p4,&p3)
  .sprod 11 ⟨true, 2, true, [1, 3], 2, true⟩,
  -- 53: pre=sqrt2*e*e*Qd*md/(2.0*MW*SW)
  .set .r 6 (.div (.mul (.mul (.mul (.mul (.mem .r 7) (.mem .r 0)) (.mem .r 0)) (.mem .r 1)) (.mem .r 2)) (.mul (.mul (.lit 2) (.mem .r 4)) (.mem .r 5)))]

/-- `set_masses` (SM/ddAh.cpp:55-64); parameters: 0 `massd`, 1 `massh`, 2 `massW` -/
def setMasses : List SInstr := [
  -- 56: md=massd
  .set .r 2 (.loc .r 0),
  -- 57: mh=massh
  .set .r 3 (.loc .r 1),
  -- 58: MW=massW
  .set .r 4 (.loc .r 2),
  -- 59: p1.set_mass(md)
  .setMass 0 (.mem .r 2),
  -- 60: p2.set_mass(md)
  .setMass 1 (.mem .r 2),
  -- 61: p4.set_mass(mh)
  .setMass 3 (.mem .r 3),
  -- 62: prop.set_mass(md)
  .propMass 0 (.mem .r 2),
  -- 63: pre=sqrt2*e*e*Qd*md/(2.0*MW*SW)
  .set .r 6 (.div (.mul (.mul (.mul (.mul (.mem .r 7) (.mem .r 0)) (.mem .r 0)) (.mem .r 1)) (.mem .r 2)) (.mul (.mul (.lit 2) (.mem .r 4)) (.mem .r 5)))]

/-- `set_momenta` (SM/ddAh.cpp:65-91); parameters: 0 `mom1`, 1 `mom2`, 2 `mom3`, 3 `mom4` -/
def setMomenta : List SInstr := [
  -- 67: p1.set_momentum(mom1)
  .setMom 0 0,
  -- 68: p2.set_momentum(mom2)
  .setMom 1 1,
  -- 69: p3.set_momentum(mom3)
  .setMom 2 2,
  -- 70: p4.set_momentum(mom4)
  .setMom 3 3,
  -- 71: s13s.update()
  .update 0,
  -- 72: a13a.update()
  .update 1,
  -- 73: s23s.update()
  .update 2,
  -- 74: a23a.update()
  .update 3,
  -- 75: s12s.update()
  .update 4,
  -- 76: a12a.update()
  .update 5,
  -- 77: s342a.update()
  .update 6,
  -- 78: a342s.update()
  .update 7,
  -- 79: s341a.update()
  .update 8,
  -- 80: a341s.update()
  .update 9,
  -- 81: s3243s.update()
  .update 10,
  -- 82: a3243a.update()
  .update 11,
  -- 89: pDenT=prop.denominator(propTP)
  .den .c 0 0 (.sub 0 2),
  -- 90: pDenU=prop.denominator(propUP)
  .den .c 1 0 (.sub 0 3)]

/-- `cdouble amp(ds1,ds2,ds3)` (SM/ddAh.cpp:96-110); variables: i 0 `ds1`, i 1 `ds2`, i 2 `ds3` -/
def m_amp : Method := ⟨3, 
  -- 101: if(ds3>0)
  .seq (.ite (.lt (.lit 0) (.var 2)) (
    -- 103: return pre*(-mh*mh*s13s.v(ds1)*s23s.v(ds2)+md*s13s.v(ds1)*s342a.v(ds2)+md*s23s.v(ds2)*s341a.v(ds1)+a12a.v(ds1,ds2)*s3243s.v())/pDenT/pDenU
    .ret .c (.div (.div (.smul (.mem .r 6) (.add (.add (.add (.mul (.smul (.mul (.neg (.mem .r 3)) (.mem .r 3)) (.v 0 [.var 0])) (.v 2 [.var 1])) (.mul (.smul (.mem .r 2) (.v 0 [.var 0])) (.v 6 [.var 1]))) (.mul (.smul (.mem .r 2) (.v 2 [.var 1])) (.v 8 [.var 0]))) (.mul (.v 5 [.var 0, .var 1]) (.v 10 [])))) (.mem .c 0)) (.mem .c 1))) (
    -- 105: if(ds3<0)
    .ite (.lt (.var 2) (.lit 0)) (
      -- 107: return pre*(-mh*mh*a13a.v(ds1)*a23a.v(ds2)+md*a13a.v(ds1)*a342s.v(ds2)+md*a23a.v(ds2)*a341s.v(ds1)+s12s.v(ds1,ds2)*a3243a.v())/pDenT/pDenU
      .ret .c (.div (.div (.smul (.mem .r 6) (.add (.add (.add (.mul (.smul (.mul (.neg (.mem .r 3)) (.mem .r 3)) (.v 1 [.var 0])) (.v 3 [.var 1])) (.mul (.smul (.mem .r 2) (.v 1 [.var 0])) (.v 7 [.var 1]))) (.mul (.smul (.mem .r 2) (.v 3 [.var 1])) (.v 9 [.var 0]))) (.mul (.v 4 [.var 0, .var 1]) (.v 11 [])))) (.mem .c 0)) (.mem .c 1))) (
      .skip))) <|
  -- 109: return cdouble(0,0)
  .ret .c (.ofR (.lit 0))⟩

/-- `ldouble amp2()` (SM/ddAh.cpp:113-127); variables: r 0 `amp2`, c 0 `M`, i 0 `j1`, i 1 `j2`, i 2 `j3` -/
def m_amp2 : Method := ⟨0, 
  -- 114: ldouble amp2
  .seq (.set .r 0 (.lit 0)) <|
  -- 115: cdouble M
  .seq (.set .c 0 (.ofR (.lit 0))) <|
  -- 118: for(int j1=-1;j1<=1;j1+=2)
  .seq (.loop 0 (-1) true (.lit 1) 2 (
    -- 119: for(int j2=-1;j2<=1;j2+=2)
    .loop 1 (-1) true (.lit 1) 2 (
      -- 120: for(int j3=-2;j3<=2;j3+=4)
      .loop 2 (-2) true (.lit 2) 4 (
        -- 121: M=amp(j1,j2,j3)
        .seq (.set .c 0 (.call 0 [.var 0, .var 1, .var 2])) <|
        -- 122: amp2+=3.0*std::pow(std::abs(M),2)
        .set .r 0 (.add (.loc .r 0) (.mul (.lit 3) (.pow (.abs (.loc .c 0)) 2))))))) <|
  -- 126: return amp2/36.0
  .ret .r (.div (.loc .r 0) (.lit 36))⟩

end ddAh

/-- `class ddAh` (SM/ddAh.cpp, SM/include/ddAh.h:25-33).  Members:
* ldouble: 0 `e`, 1 `Qd`, 2 `md`, 3 `mh`, 4 `MW`, 5 `SW`, 6 `pre`, 7 `sqrt2`
* cdouble: 0 `pDenT`, 1 `pDenU`
* propagator: 0 `prop`
* sproduct: 0 `s13s`, 1 `a13a`, 2 `s23s`, 3 `a23a`, 4 `s12s`, 5 `a12a`, 6 `s342a`, 7 `a342s`, 8 `s341a`, 9 `a341s`, 10 `s3243s`, 11 `a3243a` -/
def ddAh : Proc where
  name := "ddAh"
  nPar := 5
  ctor := ddAh.ctor
  setMasses := ddAh.setMasses
  massPar := [1, 2, 3]
  setMomenta := ddAh.setMomenta
  methods := [ddAh.m_amp2, ddAh.m_amp]
  amp2 := 1
  others := []

namespace ddWW

/-- constructor (SM/ddWW.cpp:32-67); parameters: 0 `echarge`, 1 `massd`, 2 `massu`, 3 `massh`, 4 `widthh`, 5 `massW`, 6 `sinW`, 7 `widthZ` -/
def ctor : List SInstr := [
  -- 32: e(echarge)
  .set .r 0 (.loc .r 0),
  -- 32: Qf(-1.0/3.0)
  .set .r 1 (.div (.neg (.lit 1)) (.lit 3)),
  -- 32: mu(massu)
  .set .r 2 (.loc .r 2),
  -- 32: md(massd)
  .set .r 3 (.loc .r 1),
  -- 32: mh(massh)
  .set .r 4 (.loc .r 3),
  -- 32: wh(widthh)
  .set .r 5 (.loc .r 4),
  -- 32: MW(massW)
  .set .r 6 (.loc .r 5),
  -- 32: SW(sinW)
  .set .r 7 (.loc .r 6),
  -- 32: CW(std::sqrt(1.0-sinW*sinW))
  .set .r 8 (.sqrt (.sub (.lit 1) (.mul (.loc .r 6) (.loc .r 6)))),
  -- 32: MZ(massW/CW)
  .set .r 9 (.div (.loc .r 5) (.mem .r 8)),
  -- 32: WZ(widthZ)
  .set .r 10 (.loc .r 7),
  -- 32: propu(mu,0)
  .prop 1 (.mem .r 2) (.lit 0),
  -- 32: propA(0,0)
  .prop 3 (.lit 0) (.lit 0),
  -- 35: sqrt2=std::sqrt(two)
  .set .r 11 (.sqrt (.lit 2)),
  -- 36: MZ=MW/CW
  .set .r 9 (.div (.mem .r 6) (.mem .r 8)),
  -- 37: propZ=propagator(MZ,WZ)
  .prop 2 (.mem .r 9) (.mem .r 10),
  -- 38: proph=propagator(mh,wh)
  .prop 0 (.mem .r 4) (.mem .r 5),
  -- 39: p1=particle(md)
  .part 0 (.mem .r 3),
  -- 40: p2=particle(md)
  .part 1 (.mem .r 3),
  -- 41: p3=particle(MW)
  .part 2 (.mem .r 6),
  -- 42: p4=particle(MW)
  .part 3 (.mem .r 6),
  -- 44: s12s=sproduct(SQUARE,&p1,&p2)
  .sprod 0 ⟨false, 0, true, [], 1, true⟩,
  -- 45: a12a=sproduct(ANGLE,&p1,&p2)
  .sprod 1 ⟨true, 0, true, [], 1, true⟩,
  -- 46: s23s=sproduct(SQUARE,&p2,&p3)
  .sprod 2 ⟨false, 1, true, [], 2, true⟩,
  -- 47: a23a=sproduct(ANGLE,&p2,&p3)
  .sprod 3 ⟨true, 1, true, [], 2, true⟩,
  -- 48: s13s=sproduct(SQUARE,&p1,&p3)
  .sprod 4 ⟨false, 0, true, [], 2, true⟩,
  -- 49: a13a=sproduct(ANGLE,&p1,&p3)
  .sprod 5 ⟨true, 0, true, [], 2, true⟩,
  -- 50: s34s=sproduct(SQUARE,&p3,&p4)
  .sprod 6 ⟨false, 2, true, [], 3, true⟩,
  -- 51: a34a=sproduct(ANGLE,&p3,&p4)
  .sprod 7 ⟨true, 2, true, [], 3, true⟩,
  -- 52: s24s=sproduct(SQUARE,&p2,&p4)
  .sprod 8 ⟨false, 1, true, [], 3, true⟩,
  -- 53: a24a=sproduct(ANGLE,&p2,&p4)
  .sprod 9 ⟨true, 1, true, [], 3, true⟩,
  -- 54: s14s=sproduct(SQUARE,&p1,&p4)
  .sprod 10 ⟨false, 0, true, [], 3, true⟩,
  -- 55: a14a=sproduct(ANGLE,&p1,&p4)
  .sprod 11 ⟨true, 0, true, [], 3, true⟩,
  -- 57: s413a=sproduct(SQUARE,&p4,&p1,&p3)
  .sprod 12 ⟨false, 3, true, [0], 2, true⟩,
  -- 58: s314a=sproduct(SQUARE,&p3,&p1,&p4)
  .sprod 13 ⟨false, 2, true, [0], 3, true⟩,
  -- 59: s231a=sproduct(SQUARE,&p2,&p3,&p1)
  .sprod 14 ⟨false, 1, true, [2], 0, true⟩,
  -- 60: s132a=sproduct(SQUARE,&p1,&p3,&p2)
  .sprod 15 ⟨false, 0, true, [2], 1, true⟩,
  -- 62: pred=2.0*e*e/(2.0*MW*MW*SW*SW)
  .set .r 12 (.div (.mul (.mul (.lit 2) (.mem .r 0)) (.mem .r 0)) (.mul (.mul (.mul (.mul (.lit 2) (.mem .r 6)) (.mem .r 6)) (.mem .r 7)) (.mem .r 7))),
  -- 63: preh=2.0*e*e*md/(4.0*MW*MW*SW*SW)
  .set .r 13 (.div (.mul (.mul (.mul (.lit 2) (.mem .r 0)) (.mem .r 0)) (.mem .r 3)) (.mul (.mul (.mul (.mul (.lit 4) (.mem .r 6)) (.mem .r 6)) (.mem .r 7)) (.mem .r 7))),
  -- 64: preZ=e*e/(2.0*MW*MW*SW*SW)
  .set .r 14 (.div (.mul (.mem .r 0) (.mem .r 0)) (.mul (.mul (.mul (.mul (.lit 2) (.mem .r 6)) (.mem .r 6)) (.mem .r 7)) (.mem .r 7))),
  -- 65: gL=-2.0*Qf*SW*SW-1.0
  .set .r 15 (.sub (.mul (.mul (.mul (.neg (.lit 2)) (.mem .r 1)) (.mem .r 7)) (.mem .r 7)) (.lit 1)),
  -- 66: gR=-2.0*Qf*SW*SW
  .set .r 16 (.mul (.mul (.mul (.neg (.lit 2)) (.mem .r 1)) (.mem .r 7)) (.mem .r 7))]

/-- `set_masses` (SM/ddWW.cpp:68-85); parameters: 0 `massd`, 1 `massu`, 2 `massh`, 3 `massW` -/
def setMasses : List SInstr := [
  -- 69: md=massd
  .set .r 3 (.loc .r 0),
  -- 70: mu=massu
  .set .r 2 (.loc .r 1),
  -- 71: mh=massh
  .set .r 4 (.loc .r 2),
  -- 72: MW=massW
  .set .r 6 (.loc .r 3),
  -- 73: MZ=MW/CW
  .set .r 9 (.div (.mem .r 6) (.mem .r 8)),
  -- 74: p1.set_mass(md)
  .setMass 0 (.mem .r 3),
  -- 75: p2.set_mass(md)
  .setMass 1 (.mem .r 3),
  -- 76: p3.set_mass(MW)
  .setMass 2 (.mem .r 6),
  -- 77: p4.set_mass(MW)
  .setMass 3 (.mem .r 6),
  -- 78: propu.set_mass(mu)
  .propMass 1 (.mem .r 2),
  -- 79: proph.set_mass(mh)
  .propMass 0 (.mem .r 4),
  -- 80: propZ.set_mass(MZ)
  .propMass 2 (.mem .r 9),
  -- 82: pred=e*e/(MW*MW*SW*SW)
  .set .r 12 (.div (.mul (.mem .r 0) (.mem .r 0)) (.mul (.mul (.mul (.mem .r 6) (.mem .r 6)) (.mem .r 7)) (.mem .r 7))),
  -- 83: preh=e*e*md/(2.0*MW*MW*SW*SW)
  .set .r 13 (.div (.mul (.mul (.mem .r 0) (.mem .r 0)) (.mem .r 3)) (.mul (.mul (.mul (.mul (.lit 2) (.mem .r 6)) (.mem .r 6)) (.mem .r 7)) (.mem .r 7))),
  -- 84: preZ=e*e/(2.0*MW*MW*SW*SW)
  .set .r 14 (.div (.mul (.mem .r 0) (.mem .r 0)) (.mul (.mul (.mul (.mul (.lit 2) (.mem .r 6)) (.mem .r 6)) (.mem .r 7)) (.mem .r 7)))]

/-- `set_momenta` (SM/ddWW.cpp:86-122); parameters: 0 `mom1`, 1 `mom2`, 2 `mom3`, 3 `mom4` -/
def setMomenta : List SInstr := [
  -- 88: p1.set_momentum(mom1)
  .setMom 0 0,
  -- 89: p2.set_momentum(mom2)
  .setMom 1 1,
  -- 90: p3.set_momentum(mom3)
  .setMom 2 2,
  -- 91: p4.set_momentum(mom4)
  .setMom 3 3,
  -- 93: s12s.update()
  .update 0,
  -- 94: a12a.update()
  .update 1,
  -- 95: s23s.update()
  .update 2,
  -- 96: a23a.update()
  .update 3,
  -- 97: s13s.update()
  .update 4,
  -- 98: a13a.update()
  .update 5,
  -- 99: s34s.update()
  .update 6,
  -- 100: a34a.update()
  .update 7,
  -- 101: s24s.update()
  .update 8,
  -- 102: a24a.update()
  .update 9,
  -- 103: s14s.update()
  .update 10,
  -- 104: a14a.update()
  .update 11,
  -- 106: s413a.update()
  .update 12,
  -- 107: s314a.update()
  .update 13,
  -- 108: s231a.update()
  .update 14,
  -- 109: s132a.update()
  .update 15,
  -- 117: pDenhS=proph.denominator(propSP)
  .den .c 0 0 (.add 0 1),
  -- 118: pDenuT=propu.denominator(propTP)
  .den .c 1 1 (.sub 0 2),
  -- 119: pDenuU=propu.denominator(propUP)
  .den .c 2 1 (.sub 0 3),
  -- 120: pDenZS=propZ.denominator(propSP)
  .den .c 3 2 (.add 0 1),
  -- 121: pDenAS=propA.denominator(propSP)
  .den .c 4 3 (.add 0 1)]

/-- `cdouble amp(ds1,ds2,ds3,ds4)` (SM/ddWW.cpp:127-188); variables: i 0 `ds1`, i 1 `ds2`, i 2 `ds3`, i 3 `ds4`, c 0 `amplitude`, i 4 `ds3a`, i 5 `ds3b`, i 6 `ds4a`, i 7 `ds4b`, i 8 `nCombs`, r 0 `normFactor`, i 9 `i` -/
def m_amp : Method := ⟨4, 
  -- 128: cdouble amplitude
  .seq (.set .c 0 (.ofR (.lit 0))) <|
  -- 133: int nCombs
  .seq (.seti 8 (.loops [2, 3])) <|
  -- 134: ldouble normFactor
  .seq (.set .r 0 (.norm [2, 3])) <|
  -- 136: for(int i=0;i<nCombs;i++)
  .seq (.loop 9 0 false (.var 8) 1 (
    -- 137: get_spinor_spins(ds3,ds3a,ds3b,ds4,ds4a,ds4b,i)
    .seq (.spins [(2, 4, 5), (3, 6, 7)] (.var 9)) <|
    -- 145: amplitude+=normFactor*preh*s34s.v(ds3a,ds4a)*a34a.v(ds3b,ds4b)*(s12s.v(ds1,ds2)+a12a.v(ds1,ds2))/pDenhS
    .seq (.set .c 0 (.add (.loc .c 0) (.div (.mul (.mul (.smul (.mul (.loc .r 0) (.mem .r 13)) (.v 6 [.var 4, .var 6])) (.v 7 [.var 5, .var 7])) (.add (.v 0 [.var 0, .var 1]) (.v 1 [.var 0, .var 1]))) (.mem .c 0)))) <|
    -- 153: amplitude+=-normFactor*pred*a24a.v(ds2,ds4a)*s13s.v(ds1,ds3a)*(-MW*s34s.v(ds3b,ds4b)+s413a.v(ds4b,ds3b))/pDenuT
    .seq (.set .c 0 (.add (.loc .c 0) (.div (.mul (.mul (.smul (.mul (.neg (.loc .r 0)) (.mem .r 12)) (.v 9 [.var 1, .var 6])) (.v 4 [.var 0, .var 4])) (.add (.smul (.neg (.mem .r 6)) (.v 6 [.var 5, .var 7])) (.v 12 [.var 7, .var 5]))) (.mem .c 1)))) <|
    -- 158: amplitude+=-normFactor*e*e*Qf*two/MW*(a13a.v(ds1,ds3a)*s24s.v(ds2,ds4a)+s13s.v(ds1,ds3a)*a24a.v(ds2,ds4a)+a14a.v(ds1,ds4a)*s23s.v(ds2,ds3a)+s14s.v(ds1,ds4a)*a23a.v(ds2,ds3a))*(s34s.v(ds3b,ds4b)+a34a.v(ds3b,ds4b))/pDenAS-normFactor*e*e*Qf*two/MW/MW*(s34s.v(ds3a,ds4a)*a34a.v(ds3b,ds4b)*(s231a.v(ds2,ds1)+s132a.v(ds1,ds2)))/pDenAS
    .seq (.set .c 0 (.add (.loc .c 0) (.sub (.div (.mul (.smul (.div (.mul (.mul (.mul (.mul (.neg (.loc .r 0)) (.mem .r 0)) (.mem .r 0)) (.mem .r 1)) (.lit 2)) (.mem .r 6)) (.add (.add (.add (.mul (.v 5 [.var 0, .var 4]) (.v 8 [.var 1, .var 6])) (.mul (.v 4 [.var 0, .var 4]) (.v 9 [.var 1, .var 6]))) (.mul (.v 11 [.var 0, .var 6]) (.v 2 [.var 1, .var 4]))) (.mul (.v 10 [.var 0, .var 6]) (.v 3 [.var 1, .var 4])))) (.add (.v 6 [.var 5, .var 7]) (.v 7 [.var 5, .var 7]))) (.mem .c 4)) (.div (.smul (.div (.div (.mul (.mul (.mul (.mul (.loc .r 0) (.mem .r 0)) (.mem .r 0)) (.mem .r 1)) (.lit 2)) (.mem .r 6)) (.mem .r 6)) (.mul (.mul (.v 6 [.var 4, .var 6]) (.v 7 [.var 5, .var 7])) (.add (.v 14 [.var 1, .var 0]) (.v 15 [.var 0, .var 1])))) (.mem .c 4))))) <|
    -- 179: amplitude+=normFactor*preZ*((gR-gL)*md*s34s.v(ds3a,ds4a)*a34a.v(ds3b,ds4b)*(s12s.v(ds1,ds2)-a12a.v(ds1,ds2))-two*s34s.v(ds3a,ds4a)*a34a.v(ds3b,ds4b)*(gR*s231a.v(ds2,ds1)+gL*s132a.v(ds1,ds2))-two*MW*(s34s.v(ds3a,ds4a)+a34a.v(ds3a,ds4a))*(gR*(s23s.v(ds2,ds3b)*a14a.v(ds1,ds4b)+s24s.v(ds2,ds4b)*a13a.v(ds1,ds3b))+gL*(s13s.v(ds1,ds3b)*a24a.v(ds2,ds4b)+s14s.v(ds1,ds4b)*a23a.v(ds2,ds3b))))/pDenZS
    .set .c 0 (.add (.loc .c 0) (.div (.smul (.mul (.loc .r 0) (.mem .r 14)) (.sub (.sub (.mul (.mul (.smul (.mul (.sub (.mem .r 16) (.mem .r 15)) (.mem .r 3)) (.v 6 [.var 4, .var 6])) (.v 7 [.var 5, .var 7])) (.sub (.v 0 [.var 0, .var 1]) (.v 1 [.var 0, .var 1]))) (.mul (.mul (.smul (.lit 2) (.v 6 [.var 4, .var 6])) (.v 7 [.var 5, .var 7])) (.add (.smul (.mem .r 16) (.v 14 [.var 1, .var 0])) (.smul (.mem .r 15) (.v 15 [.var 0, .var 1]))))) (.mul (.smul (.mul (.lit 2) (.mem .r 6)) (.add (.v 6 [.var 4, .var 6]) (.v 7 [.var 4, .var 6]))) (.add (.smul (.mem .r 16) (.add (.mul (.v 2 [.var 1, .var 5]) (.v 11 [.var 0, .var 7])) (.mul (.v 8 [.var 1, .var 7]) (.v 5 [.var 0, .var 5])))) (.smul (.mem .r 15) (.add (.mul (.v 4 [.var 0, .var 5]) (.v 9 [.var 1, .var 7])) (.mul (.v 10 [.var 0, .var 7]) (.v 3 [.var 1, .var 5])))))))) (.mem .c 3))))) <|
  -- 187: return amplitude
  .ret .c (.loc .c 0)⟩

/-- `ldouble amp2()` (SM/ddWW.cpp:191-206); variables: r 0 `amp2`, c 0 `M`, i 0 `j1`, i 1 `j2`, i 2 `j3`, i 3 `j4` -/
def m_amp2 : Method := ⟨0, 
  -- 192: ldouble amp2
  .seq (.set .r 0 (.lit 0)) <|
  -- 193: cdouble M
  .seq (.set .c 0 (.ofR (.lit 0))) <|
  -- 196: for(int j1=-1;j1<=1;j1+=2)
  .seq (.loop 0 (-1) true (.lit 1) 2 (
    -- 197: for(int j2=-1;j2<=1;j2+=2)
    .loop 1 (-1) true (.lit 1) 2 (
      -- 198: for(int j3=-2;j3<=2;j3+=2)
      .loop 2 (-2) true (.lit 2) 2 (
        -- 199: for(int j4=-2;j4<=2;j4+=2)
        .loop 3 (-2) true (.lit 2) 2 (
          -- 200: M=amp(j1,j2,j3,j4)
          .seq (.set .c 0 (.call 0 [.var 0, .var 1, .var 2, .var 3])) <|
          -- 201: amp2+=3.0*std::pow(std::abs(M),2)
          .set .r 0 (.add (.loc .r 0) (.mul (.lit 3) (.pow (.abs (.loc .c 0)) 2)))))))) <|
  -- 205: return amp2/36.0
  .ret .r (.div (.loc .r 0) (.lit 36))⟩

end ddWW

/-- `class ddWW` (SM/ddWW.cpp, SM/include/ddWW.h:25-36).  Members:
* ldouble: 0 `e`, 1 `Qf`, 2 `mu`, 3 `md`, 4 `mh`, 5 `wh`, 6 `MW`, 7 `SW`, 8 `CW`, 9 `MZ`, 10 `WZ`, 11 `sqrt2`, 12 `pred`, 13 `preh`, 14 `preZ`, 15 `gL`, 16 `gR`
* cdouble: 0 `pDenhS`, 1 `pDenuT`, 2 `pDenuU`, 3 `pDenZS`, 4 `pDenAS`
* propagator: 0 `proph`, 1 `propu`, 2 `propZ`, 3 `propA`
* sproduct: 0 `s12s`, 1 `a12a`, 2 `s23s`, 3 `a23a`, 4 `s13s`, 5 `a13a`, 6 `s34s`, 7 `a34a`, 8 `s24s`, 9 `a24a`, 10 `s14s`, 11 `a14a`, 12 `s413a`, 13 `s314a`, 14 `s231a`, 15 `s132a` -/
def ddWW : Proc where
  name := "ddWW"
  nPar := 8
  ctor := ddWW.ctor
  setMasses := ddWW.setMasses
  massPar := [1, 2, 3, 5]
  setMomenta := ddWW.setMomenta
  methods := [ddWW.m_amp2, ddWW.m_amp]
  amp2 := 1
  others := []

end Spinas.SM.Cls
