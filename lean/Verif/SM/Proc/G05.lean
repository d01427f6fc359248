import Verif.SM.Lang

/-! Generated by tools/sm/translate.py from SM/*.cpp: dnnd, dsds, eAAe, eAeh, eWWe, eZZe, eZeh, eeAA, eeAZ, eeAh, eeWW, eeZZ. -/

namespace Spinas.SM.Cls

namespace dnnd

/-- constructor (SM/dnnd.cpp:32-49); parameters: 0 `echarge`, 1 `massd`, 2 `massW`, 3 `sinW`, 4 `widthZ` -/
def ctor : List SInstr := [
  -- 32: e(echarge)
  .set .r 0 (.loc .r 0),
  -- 32: md(massd)
  .set .r 1 (.loc .r 1),
  -- 32: WZ(widthZ)
  .set .r 3 (.loc .r 4),
  -- 32: MW(massW)
  .set .r 4 (.loc .r 2),
  -- 32: SW(sinW)
  .set .r 5 (.loc .r 3),
  -- 32: CW(std::sqrt(1.0-sinW*sinW))
  .set .r 6 (.sqrt (.sub (.lit 1) (.mul (.loc .r 3) (.loc .r 3)))),
  -- 32: p1(particle(md))
  .part 0 (.mem .r 1),
  -- 32: p2(particle(0))
  .part 1 (.lit 0),
  -- 32: p3(particle(0))
  .part 2 (.lit 0),
  -- 32: p4(particle(md))
  .part 3 (.mem .r 1),
  -- 32: s34s(sproduct(SQUARE,&p3,&p4))
  .sprod 0 ⟨false, 2, true, [], 3, true⟩,
  -- 32: a12a(sproduct(ANGLE,&p1,&p2))
  .sprod 1 ⟨true, 0, true, [], 1, true⟩,
  -- 32: s13s(sproduct(SQUARE,&p1,&p3))
  .sprod 2 ⟨false, 0, true, [], 2, true⟩,
  -- 32: a24a(sproduct(ANGLE,&p2,&p4))
  .sprod 3 ⟨true, 1, true, [], 3, true⟩,
  -- 42: MZ=MW/CW
  .set .r 2 (.div (.mem .r 4) (.mem .r 6)),
  -- 43: propZ.set_mass(MZ)
  .propMass 0 (.mem .r 2),
  -- 44: gLd=-1.0+2.0/3.0*SW*SW
  .set .r 8 (.add (.neg (.lit 1)) (.mul (.mul (.div (.lit 2) (.lit 3)) (.mem .r 5)) (.mem .r 5))),
  -- 45: gRd=2.0/3.0*SW*SW
  .set .r 9 (.mul (.mul (.div (.lit 2) (.lit 3)) (.mem .r 5)) (.mem .r 5)),
  -- 46: gLn=1.0
  .set .r 10 (.lit 1),
  -- 47: gRn=0
  .set .r 11 (.lit 0),
  -- 48: preZ=e*e/(4.0*CW*CW*SW*SW)
  .set .r 12 (.div (.mul (.mem .r 0) (.mem .r 0)) (.mul (.mul (.mul (.mul (.lit 4) (.mem .r 6)) (.mem .r 6)) (.mem .r 5)) (.mem .r 5)))]

/-- `set_masses` (SM/dnnd.cpp:50-57); parameters: 0 `massd`, 1 `massW` -/
def setMasses : List SInstr := [
  -- 51: md=massd
  .set .r 1 (.loc .r 0),
  -- 52: MW=massW
  .set .r 4 (.loc .r 1),
  -- 53: MZ=MW/CW
  .set .r 2 (.div (.mem .r 4) (.mem .r 6)),
  -- 54: propZ.set_mass(MZ)
  .propMass 0 (.mem .r 2),
  -- 55: p1.set_mass(md)
  .setMass 0 (.mem .r 1),
  -- 56: p4.set_mass(md)
  .setMass 3 (.mem .r 1)]

/-- `set_momenta` (SM/dnnd.cpp:58-73); parameters: 0 `mom1`, 1 `mom2`, 2 `mom3`, 3 `mom4` -/
def setMomenta : List SInstr := [
  -- 60: p1.set_momentum(mom1)
  .setMom 0 0,
  -- 61: p2.set_momentum(mom2)
  .setMom 1 1,
  -- 62: p3.set_momentum(mom3)
  .setMom 2 2,
  -- 63: p4.set_momentum(mom4)
  .setMom 3 3,
  -- 64: s34s.update()
  .update 0,
  -- 65: a12a.update()
  .update 1,
  -- 66: s13s.update()
  .update 2,
  -- 67: a24a.update()
  .update 3,
  -- 72: pDenUZ=propZ.denominator(propP)
  .den .c 0 0 (.sub 0 3)]

/-- `cdouble amp(ds1,ds4)` (SM/dnnd.cpp:78-102); variables: i 0 `ds1`, i 1 `ds4`, c 0 `amplitude` -/
def m_amp : Method := ⟨2, 
  -- 80: cdouble amplitude
  .seq (.set .c 0 (.ofR (.lit 0))) <|
  -- 95: amplitude+=+two*preZ*gLn*(+gLd*s34s.v(ds4)*a12a.v(ds1)-gRd*s13s.v(ds1)*a24a.v(ds4))/pDenUZ
  .seq (.set .c 0 (.add (.loc .c 0) (.div (.smul (.mul (.mul (.lit 2) (.mem .r 12)) (.mem .r 10)) (.sub (.mul (.smul (.mem .r 8) (.v 0 [.var 1])) (.v 1 [.var 0])) (.mul (.smul (.mem .r 9) (.v 2 [.var 0])) (.v 3 [.var 1])))) (.mem .c 0)))) <|
  -- 101: return amplitude
  .ret .c (.loc .c 0)⟩

/-- `ldouble amp2()` (SM/dnnd.cpp:105-118); variables: r 0 `amp2`, r 1 `two`, r 2 `three`, c 0 `M`, i 0 `j1`, i 1 `j2` -/
def m_amp2 : Method := ⟨0, 
  -- 106: ldouble amp2
  .seq (.set .r 0 (.lit 0)) <|
  -- 106: ldouble two
  .seq (.set .r 1 (.lit 2)) <|
  -- 106: ldouble three
  .seq (.set .r 2 (.lit 3)) <|
  -- 107: cdouble M
  .seq (.set .c 0 (.ofR (.lit 0))) <|
  -- 110: for(int j1=-1;j1<=1;j1+=2)
  .seq (.loop 0 (-1) true (.lit 1) 2 (
    -- 111: for(int j2=-1;j2<=1;j2+=2)
    .loop 1 (-1) true (.lit 1) 2 (
      -- 112: M=amp(j1,j2)
      .seq (.set .c 0 (.call 0 [.var 0, .var 1])) <|
      -- 113: amp2+=three*std::pow(std::abs(M),2)
      .set .r 0 (.add (.loc .r 0) (.mul (.loc .r 2) (.pow (.abs (.loc .c 0)) 2)))))) <|
  -- 117: return amp2/6.0
  .ret .r (.div (.loc .r 0) (.lit 6))⟩

end dnnd

/-- `class dnnd` (SM/dnnd.cpp, SM/include/dnnd.h:25-32).  Members:
* ldouble: 0 `e`, 1 `md`, 2 `MZ`, 3 `WZ`, 4 `MW`, 5 `SW`, 6 `CW`, 7 `preh`, 8 `gLd`, 9 `gRd`, 10 `gLn`, 11 `gRn`, 12 `preZ`, 13 `preZ0`
* cdouble: 0 `pDenUZ`
* propagator: 0 `propZ`
* sproduct: 0 `s34s`, 1 `a12a`, 2 `s13s`, 3 `a24a` -/
def dnnd : Proc where
  name := "dnnd"
  nPar := 5
  ctor := dnnd.ctor
  setMasses := dnnd.setMasses
  massPar := [1, 2]
  setMomenta := dnnd.setMomenta
  methods := [dnnd.m_amp2, dnnd.m_amp]
  amp2 := 1
  others := []

namespace dsds

/-- constructor (SM/dsds.cpp:32-58); parameters: 0 `echarge`, 1 `gscharge`, 2 `massd`, 3 `masss`, 4 `massh`, 5 `widthh`, 6 `massW`, 7 `sinW`, 8 `widthZ` -/
def ctor : List SInstr := [
  -- 32: e(echarge)
  .set .r 0 (.loc .r 0),
  -- 32: gs(gscharge)
  .set .r 1 (.loc .r 1),
  -- 32: md(massd)
  .set .r 2 (.loc .r 2),
  -- 32: ms(masss)
  .set .r 3 (.loc .r 3),
  -- 32: mh(massh)
  .set .r 4 (.loc .r 4),
  -- 32: wh(widthh)
  .set .r 5 (.loc .r 5),
  -- 32: WZ(widthZ)
  .set .r 7 (.loc .r 8),
  -- 32: MW(massW)
  .set .r 8 (.loc .r 6),
  -- 32: SW(sinW)
  .set .r 9 (.loc .r 7),
  -- 32: CW(std::sqrt(1.0-sinW*sinW))
  .set .r 10 (.sqrt (.sub (.lit 1) (.mul (.loc .r 7) (.loc .r 7)))),
  -- 32: p1(particle(md))
  .part 0 (.mem .r 2),
  -- 32: p2(particle(ms))
  .part 1 (.mem .r 3),
  -- 32: p3(particle(md))
  .part 2 (.mem .r 2),
  -- 32: p4(particle(ms))
  .part 3 (.mem .r 3),
  -- 32: propAG(0,0)
  .prop 0 (.lit 0) (.lit 0),
  -- 32: proph(mh,wh)
  .prop 1 (.mem .r 4) (.mem .r 5),
  -- 32: a13a(sproduct(ANGLE,&p1,&p3))
  .sprod 0 ⟨true, 0, true, [], 2, true⟩,
  -- 32: s13s(sproduct(SQUARE,&p1,&p3))
  .sprod 1 ⟨false, 0, true, [], 2, true⟩,
  -- 32: a14a(sproduct(ANGLE,&p1,&p4))
  .sprod 2 ⟨true, 0, true, [], 3, true⟩,
  -- 32: s14s(sproduct(SQUARE,&p1,&p4))
  .sprod 3 ⟨false, 0, true, [], 3, true⟩,
  -- 32: a23a(sproduct(ANGLE,&p2,&p3))
  .sprod 4 ⟨true, 1, true, [], 2, true⟩,
  -- 32: s23s(sproduct(SQUARE,&p2,&p3))
  .sprod 5 ⟨false, 1, true, [], 2, true⟩,
  -- 32: a24a(sproduct(ANGLE,&p2,&p4))
  .sprod 6 ⟨true, 1, true, [], 3, true⟩,
  -- 32: s24s(sproduct(SQUARE,&p2,&p4))
  .sprod 7 ⟨false, 1, true, [], 3, true⟩,
  -- 32: s12s(sproduct(SQUARE,&p1,&p2))
  .sprod 8 ⟨false, 0, true, [], 1, true⟩,
  -- 32: a12a(sproduct(ANGLE,&p1,&p2))
  .sprod 9 ⟨true, 0, true, [], 1, true⟩,
  -- 32: s34s(sproduct(SQUARE,&p3,&p4))
  .sprod 10 ⟨false, 2, true, [], 3, true⟩,
  -- 32: a34a(sproduct(ANGLE,&p3,&p4))
  .sprod 11 ⟨true, 2, true, [], 3, true⟩,
  -- 51: MZ=MW/CW
  .set .r 6 (.div (.mem .r 8) (.mem .r 10)),
  -- 52: propZ.set_mass(MZ)
  .propMass 2 (.mem .r 6),
  -- 53: preh=e*e*md*ms/(4.0*MW*MW*SW*SW)
  .set .r 11 (.div (.mul (.mul (.mul (.mem .r 0) (.mem .r 0)) (.mem .r 2)) (.mem .r 3)) (.mul (.mul (.mul (.mul (.lit 4) (.mem .r 8)) (.mem .r 8)) (.mem .r 9)) (.mem .r 9))),
  -- 54: gL=-1.0+2.0/3.0*SW*SW
  .set .r 12 (.add (.neg (.lit 1)) (.mul (.mul (.div (.lit 2) (.lit 3)) (.mem .r 9)) (.mem .r 9))),
  -- 55: gR=2.0/3.0*SW*SW
  .set .r 13 (.mul (.mul (.div (.lit 2) (.lit 3)) (.mem .r 9)) (.mem .r 9)),
  -- 56: preZ=e*e/(4.0*CW*CW*SW*SW)
  .set .r 14 (.div (.mul (.mem .r 0) (.mem .r 0)) (.mul (.mul (.mul (.mul (.lit 4) (.mem .r 10)) (.mem .r 10)) (.mem .r 9)) (.mem .r 9))),
  -- 57: preZ0=preZ*(gL-gR)*(gL-gR)*md*ms/MZ/MZ
  .set .r 15 (.div (.div (.mul (.mul (.mul (.mul (.mem .r 14) (.sub (.mem .r 12) (.mem .r 13))) (.sub (.mem .r 12) (.mem .r 13))) (.mem .r 2)) (.mem .r 3)) (.mem .r 6)) (.mem .r 6))]

/-- `set_masses` (SM/dsds.cpp:59-73); parameters: 0 `massd`, 1 `masss`, 2 `massh`, 3 `massW` -/
def setMasses : List SInstr := [
  -- 60: md=massd
  .set .r 2 (.loc .r 0),
  -- 61: ms=masss
  .set .r 3 (.loc .r 1),
  -- 62: mh=massh
  .set .r 4 (.loc .r 2),
  -- 63: proph.set_mass(mh)
  .propMass 1 (.mem .r 4),
  -- 64: MW=massW
  .set .r 8 (.loc .r 3),
  -- 65: MZ=MW/CW
  .set .r 6 (.div (.mem .r 8) (.mem .r 10)),
  -- 66: propZ.set_mass(MZ)
  .propMass 2 (.mem .r 6),
  -- 67: p1.set_mass(md)
  .setMass 0 (.mem .r 2),
  -- 68: p2.set_mass(ms)
  .setMass 1 (.mem .r 3),
  -- 69: p3.set_mass(md)
  .setMass 2 (.mem .r 2),
  -- 70: p4.set_mass(ms)
  .setMass 3 (.mem .r 3),
  -- 71: preh=e*e*md*ms/(4*MW*MW*SW*SW)
  .set .r 11 (.div (.mul (.mul (.mul (.mem .r 0) (.mem .r 0)) (.mem .r 2)) (.mem .r 3)) (.mul (.mul (.mul (.mul (.lit 4) (.mem .r 8)) (.mem .r 8)) (.mem .r 9)) (.mem .r 9))),
  -- 72: preZ0=preZ*(gL-gR)*(gL-gR)*md*ms/MZ/MZ
  .set .r 15 (.div (.div (.mul (.mul (.mul (.mul (.mem .r 14) (.sub (.mem .r 12) (.mem .r 13))) (.sub (.mem .r 12) (.mem .r 13))) (.mem .r 2)) (.mem .r 3)) (.mem .r 6)) (.mem .r 6))]

/-- `set_momenta` (SM/dsds.cpp:74-99); parameters: 0 `mom1`, 1 `mom2`, 2 `mom3`, 3 `mom4` -/
def setMomenta : List SInstr := [
  -- 76: p1.set_momentum(mom1)
  .setMom 0 0,
  -- 77: p2.set_momentum(mom2)
  .setMom 1 1,
  -- 78: p3.set_momentum(mom3)
  .setMom 2 2,
  -- 79: p4.set_momentum(mom4)
  .setMom 3 3,
  -- 80: a13a.update()
  .update 0,
  -- 81: s13s.update()
  .update 1,
  -- 82: a14a.update()
  .update 2,
  -- 83: s14s.update()
  .update 3,
  -- 84: a23a.update()
  .update 4,
  -- 85: s23s.update()
  .update 5,
  -- 86: a24a.update()
  .update 6,
  -- 87: s24s.update()
  .update 7,
  -- 88: s12s.update()
  .update 8,
  -- 89: a12a.update()
  .update 9,
  -- 90: s34s.update()
  .update 10,
  -- 91: a34a.update()
  .update 11,
  -- 96: pDenTAG=propAG.denominator(propP)
  .den .c 0 0 (.sub 0 2),
  -- 97: pDenTh=proph.denominator(propP)
  .den .c 1 1 (.sub 0 2),
  -- 98: pDenTZ=propZ.denominator(propP)
  .den .c 2 2 (.sub 0 2)]

/-- `cdouble amp_gluon(ds1,ds2,ds3,ds4)` (SM/dsds.cpp:107-125); variables: i 0 `ds1`, i 1 `ds2`, i 2 `ds3`, i 3 `ds4`, c 0 `amplitude` -/
def m_amp_gluon : Method := ⟨4, 
  -- 109: cdouble amplitude
  .seq (.set .c 0 (.ofR (.lit 0))) <|
  -- 119: amplitude=-two*gs*gs*(a14a.v(ds1,ds4)*s23s.v(ds2,ds3)+a12a.v(ds1,ds2)*s34s.v(ds3,ds4)+s14s.v(ds1,ds4)*a23a.v(ds2,ds3)+s12s.v(ds1,ds2)*a34a.v(ds3,ds4))/pDenTAG
  .seq (.set .c 0 (.div (.smul (.mul (.mul (.neg (.lit 2)) (.mem .r 1)) (.mem .r 1)) (.add (.add (.add (.mul (.v 2 [.var 0, .var 3]) (.v 5 [.var 1, .var 2])) (.mul (.v 9 [.var 0, .var 1]) (.v 10 [.var 2, .var 3]))) (.mul (.v 3 [.var 0, .var 3]) (.v 4 [.var 1, .var 2]))) (.mul (.v 8 [.var 0, .var 1]) (.v 11 [.var 2, .var 3])))) (.mem .c 0))) <|
  -- 124: return amplitude
  .ret .c (.loc .c 0)⟩

/-- `cdouble amp_rest(ds1,ds2,ds3,ds4)` (SM/dsds.cpp:126-177); variables: i 0 `ds1`, i 1 `ds2`, i 2 `ds3`, i 3 `ds4`, r 0 `two`, c 0 `amplitude` -/
def m_amp_rest : Method := ⟨4, 
  -- 127: ldouble two
  .seq (.set .r 0 (.lit 2)) <|
  -- 128: cdouble amplitude
  .seq (.set .c 0 (.ofR (.lit 0))) <|
  -- 138: amplitude=-two*e*e*1.0/9.0*(a14a.v(ds1,ds4)*s23s.v(ds2,ds3)+a12a.v(ds1,ds2)*s34s.v(ds3,ds4)+s14s.v(ds1,ds4)*a23a.v(ds2,ds3)+s12s.v(ds1,ds2)*a34a.v(ds3,ds4))/pDenTAG
  .seq (.set .c 0 (.div (.smul (.div (.mul (.mul (.mul (.neg (.loc .r 0)) (.mem .r 0)) (.mem .r 0)) (.lit 1)) (.lit 9)) (.add (.add (.add (.mul (.v 2 [.var 0, .var 3]) (.v 5 [.var 1, .var 2])) (.mul (.v 9 [.var 0, .var 1]) (.v 10 [.var 2, .var 3]))) (.mul (.v 3 [.var 0, .var 3]) (.v 4 [.var 1, .var 2]))) (.mul (.v 8 [.var 0, .var 1]) (.v 11 [.var 2, .var 3])))) (.mem .c 0))) <|
  -- 151: amplitude+=-preh*(s13s.v(ds1,ds3)-a13a.v(ds1,ds3))*(s24s.v(ds2,ds4)-a24a.v(ds2,ds4))/pDenTh
  .seq (.set .c 0 (.add (.loc .c 0) (.div (.mul (.smul (.neg (.mem .r 11)) (.sub (.v 1 [.var 0, .var 2]) (.v 0 [.var 0, .var 2]))) (.sub (.v 7 [.var 1, .var 3]) (.v 6 [.var 1, .var 3]))) (.mem .c 1)))) <|
  -- 168: amplitude+=+preZ0*(a13a.v(ds1,ds3)+s13s.v(ds1,ds3))*(a24a.v(ds2,ds4)+s24s.v(ds2,ds4))/pDenTZ-two*preZ*(gL*gL*s34s.v(ds3,ds4)*a12a.v(ds1,ds2)+gL*gR*(s14s.v(ds1,ds4)*a23a.v(ds2,ds3)+s23s.v(ds2,ds3)*a14a.v(ds1,ds4))+gR*gR*s12s.v(ds1,ds2)*a34a.v(ds3,ds4))/pDenTZ
  .seq (.set .c 0 (.add (.loc .c 0) (.sub (.div (.mul (.smul (.mem .r 15) (.add (.v 0 [.var 0, .var 2]) (.v 1 [.var 0, .var 2]))) (.add (.v 6 [.var 1, .var 3]) (.v 7 [.var 1, .var 3]))) (.mem .c 2)) (.div (.smul (.mul (.loc .r 0) (.mem .r 14)) (.add (.add (.mul (.smul (.mul (.mem .r 12) (.mem .r 12)) (.v 10 [.var 2, .var 3])) (.v 9 [.var 0, .var 1])) (.smul (.mul (.mem .r 12) (.mem .r 13)) (.add (.mul (.v 3 [.var 0, .var 3]) (.v 4 [.var 1, .var 2])) (.mul (.v 5 [.var 1, .var 2]) (.v 2 [.var 0, .var 3]))))) (.mul (.smul (.mul (.mem .r 13) (.mem .r 13)) (.v 8 [.var 0, .var 1])) (.v 11 [.var 2, .var 3])))) (.mem .c 2))))) <|
  -- 176: return amplitude
  .ret .c (.loc .c 0)⟩

/-- `ldouble amp2()` (SM/dsds.cpp:180-198); variables: r 0 `amp2`, r 1 `two`, r 2 `three`, r 3 `nine`, c 0 `M_rest`, c 1 `M_gluon`, i 0 `j1`, i 1 `j2`, i 2 `j3`, i 3 `j4` -/
def m_amp2 : Method := ⟨0, 
  -- 181: ldouble amp2
  .seq (.set .r 0 (.lit 0)) <|
  -- 181: ldouble two
  .seq (.set .r 1 (.lit 2)) <|
  -- 181: ldouble three
  .seq (.set .r 2 (.lit 3)) <|
  -- 181: ldouble nine
  .seq (.set .r 3 (.lit 9)) <|
  -- 182: cdouble M_rest
  .seq (.set .c 0 (.ofR (.lit 0))) <|
  -- 182: cdouble M_gluon
  .seq (.set .c 1 (.ofR (.lit 0))) <|
  -- 185: for(int j1=-1;j1<=1;j1+=2)
  .seq (.loop 0 (-1) true (.lit 1) 2 (
    -- 186: for(int j2=-1;j2<=1;j2+=2)
    .loop 1 (-1) true (.lit 1) 2 (
      -- 187: for(int j3=-1;j3<=1;j3+=2)
      .loop 2 (-1) true (.lit 1) 2 (
        -- 188: for(int j4=-1;j4<=1;j4+=2)
        .loop 3 (-1) true (.lit 1) 2 (
          -- 189: M_rest=amp_rest(j1,j2,j3,j4)
          .seq (.set .c 0 (.call 1 [.var 0, .var 1, .var 2, .var 3])) <|
          -- 190: M_gluon=amp_gluon(j1,j2,j3,j4)
          .seq (.set .c 1 (.call 0 [.var 0, .var 1, .var 2, .var 3])) <|
          -- 191: amp2+=nine*std::pow(std::abs(M_rest),2)
          .seq (.set .r 0 (.add (.loc .r 0) (.mul (.loc .r 3) (.pow (.abs (.loc .c 0)) 2)))) <|
          -- 193: amp2+=two*std::pow(std::abs(M_gluon),2)
          .set .r 0 (.add (.loc .r 0) (.mul (.loc .r 1) (.pow (.abs (.loc .c 1)) 2)))))))) <|
  -- 197: return amp2/36.0
  .ret .r (.div (.loc .r 0) (.lit 36))⟩

end dsds

/-- `class dsds` (SM/dsds.cpp, SM/include/dsds.h:25-33).  Members:
* ldouble: 0 `e`, 1 `gs`, 2 `md`, 3 `ms`, 4 `mh`, 5 `wh`, 6 `MZ`, 7 `WZ`, 8 `MW`, 9 `SW`, 10 `CW`, 11 `preh`, 12 `gL`, 13 `gR`, 14 `preZ`, 15 `preZ0`
* cdouble: 0 `pDenTAG`, 1 `pDenTh`, 2 `pDenTZ`
* propagator: 0 `propAG`, 1 `proph`, 2 `propZ`
* sproduct: 0 `a13a`, 1 `s13s`, 2 `a14a`, 3 `s14s`, 4 `a23a`, 5 `s23s`, 6 `a24a`, 7 `s24s`, 8 `s12s`, 9 `a12a`, 10 `s34s`, 11 `a34a` -/
def dsds : Proc where
  name := "dsds"
  nPar := 9
  ctor := dsds.ctor
  setMasses := dsds.setMasses
  massPar := [2, 3, 4, 6]
  setMomenta := dsds.setMomenta
  methods := [dsds.m_amp2, dsds.m_amp_rest, dsds.m_amp_gluon]
  amp2 := 2
  others := []

namespace eAAe

/-- constructor (SM/eAAe.cpp:32-54); parameters: 0 `echarge`, 1 `masse` -/
def ctor : List SInstr := [
  -- 32: e(echarge)
  .set .r 0 (.loc .r 0),
  -- 32: me(masse)
  .set .r 1 (.loc .r 1),
  -- 32: prop(masse,0)
  .prop 0 (.loc .r 1) (.lit 0),
  -- 35: sqrt2=std::sqrt(two)
  .set .r 2 (.sqrt (.lit 2)),
  -- 36: p1=particle(me)
  .part 0 (.mem .r 1),
  -- 37: p2=particle(0)
  .part 1 (.lit 0),
  -- 38: p3=particle(0)
  .part 2 (.lit 0),
  -- 39: p4=particle(me)
  .part 3 (.mem .r 1),
  -- 40: s34s=sproduct(SQUARE,&p3,&p4)
  .sprod 0 ⟨false, 2, true, [], 3, true⟩,
  -- 41: a34a=sproduct(ANGLE,&p3,&p4)
  .sprod 1 ⟨true, 2, true, [], 3, true⟩,
  -- 42: s12s=sproduct(SQUARE,&p1,&p2)
  .sprod 2 ⟨false, 0, true, [], 1, true⟩,
  -- 43: a12a=sproduct(ANGLE,&p1,&p2)
  .sprod 3 ⟨true, 0, true, [], 1, true⟩,
  -- 44: s13s=sproduct(SQUARE,&p1,&p3)
  .sprod 4 ⟨false, 0, true, [], 2, true⟩,
  -- 45: a13a=sproduct(ANGLE,&p1,&p3)
  .sprod 5 ⟨true, 0, true, [], 2, true⟩,
  -- 46: s24s=sproduct(SQUARE,&p2,&p4)
  .sprod 6 ⟨false, 1, true, [], 3, true⟩,
  -- 47: a24a=sproduct(ANGLE,&p2,&p4)
  .sprod 7 ⟨true, 1, true, [], 3, true⟩,
  -- 48: s23s=sproduct(SQUARE,&p2,&p3)
  .sprod 8 ⟨false, 1, true, [], 2, true⟩,
  -- 49: a23a=sproduct(ANGLE,&p2,&p3)
  .sprod 9 ⟨true, 1, true, [], 2, true⟩,
  -- 50: s14s=sproduct(SQUARE,&p1,&p4)
  .sprod 10 ⟨false, 0, true, [], 3, true⟩,
  -- 51: a14a=sproduct(ANGLE,&p1,&p4)
  .sprod 11 ⟨true, 0, true, [], 3, true⟩,
  -- 52: s342a=sproduct(SQUARE,&p3,&p4,&p2)
  .sprod 12 ⟨false, 2, true, [3], 1, true⟩,
  -- 53: s243a=sproduct(SQUARE,&p2,&p4,&p3)
  .sprod 13 ⟨false, 1, true, [3], 2, true⟩]

/-- `set_masses` (SM/eAAe.cpp:55-60); parameters: 0 `masse` -/
def setMasses : List SInstr := [
  -- 56: me=masse
  .set .r 1 (.loc .r 0),
  -- 57: p1.set_mass(me)
  .setMass 0 (.mem .r 1),
  -- 58: p4.set_mass(me)
  .setMass 3 (.mem .r 1),
  -- 59: prop.set_mass(me)
  .propMass 0 (.mem .r 1)]

/-- `set_momenta` (SM/eAAe.cpp:61-90); parameters: 0 `mom1`, 1 `mom2`, 2 `mom3`, 3 `mom4` -/
def setMomenta : List SInstr := [
  -- 63: p1.set_momentum(mom1)
  .setMom 0 0,
  -- 64: p2.set_momentum(mom2)
  .setMom 1 1,
  -- 65: p3.set_momentum(mom3)
  .setMom 2 2,
  -- 66: p4.set_momentum(mom4)
  .setMom 3 3,
  -- 67: s34s.update()
  .update 0,
  -- 68: a34a.update()
  .update 1,
  -- 69: s12s.update()
  .update 2,
  -- 70: a12a.update()
  .update 3,
  -- 71: s13s.update()
  .update 4,
  -- 72: a13a.update()
  .update 5,
  -- 73: s24s.update()
  .update 6,
  -- 74: a24a.update()
  .update 7,
  -- 75: s23s.update()
  .update 8,
  -- 76: a23a.update()
  .update 9,
  -- 77: s14s.update()
  .update 10,
  -- 78: a14a.update()
  .update 11,
  -- 79: s342a.update()
  .update 12,
  -- 80: s243a.update()
  .update 13,
  -- 87: pDenS=prop.denominator(propSP)
  .den .c 0 0 (.add 0 1),
  -- 88: pDenT=prop.denominator(propTP)
  .den .c 1 0 (.sub 0 2)]

/-- `cdouble amp(ds1,ds2,ds3,ds4)` (SM/eAAe.cpp:97-135); variables: i 0 `ds1`, i 1 `ds2`, i 2 `ds3`, i 3 `ds4` -/
def m_amp : Method := ⟨4, 
  -- 98: if(ds3>0&&ds2>0)
  .seq (.ite (.and (.lt (.lit 0) (.var 2)) (.lt (.lit 0) (.var 1))) (
    -- 105: return +2.0*e*e*me*s23s.v()*s23s.v()*a14a.v(ds1,ds4)/pDenS/pDenT
    .ret .c (.div (.div (.mul (.mul (.smul (.mul (.mul (.mul (.lit 2) (.mem .r 0)) (.mem .r 0)) (.mem .r 1)) (.v 8 [])) (.v 8 [])) (.v 11 [.var 0, .var 3])) (.mem .c 0)) (.mem .c 1))) (
    -- 107: if(ds3<0&&ds2<0)
    .ite (.and (.lt (.var 2) (.lit 0)) (.lt (.var 1) (.lit 0))) (
      -- 114: return -2.0*e*e*me*a23a.v()*a23a.v()*s14s.v(ds1,ds4)/pDenS/pDenT
      .ret .c (.div (.div (.mul (.mul (.smul (.mul (.mul (.mul (.neg (.lit 2)) (.mem .r 0)) (.mem .r 0)) (.mem .r 1)) (.v 9 [])) (.v 9 [])) (.v 10 [.var 0, .var 3])) (.mem .c 0)) (.mem .c 1))) (
      -- 116: if(ds3>0&&ds2<0)
      .ite (.and (.lt (.lit 0) (.var 2)) (.lt (.var 1) (.lit 0))) (
        -- 123: return +2.0*e*e*(s34s.v(ds4)*a12a.v(ds1)-s13s.v(ds1)*a24a.v(ds4))*s342a.v()/pDenS/pDenT
        .ret .c (.div (.div (.mul (.smul (.mul (.mul (.lit 2) (.mem .r 0)) (.mem .r 0)) (.sub (.mul (.v 0 [.var 3]) (.v 3 [.var 0])) (.mul (.v 4 [.var 0]) (.v 7 [.var 3])))) (.v 12 [])) (.mem .c 0)) (.mem .c 1))) (
        -- 125: if(ds3<0&&ds2>0)
        .ite (.and (.lt (.var 2) (.lit 0)) (.lt (.lit 0) (.var 1))) (
          -- 132: return -2.0*e*e*(a34a.v(ds4)*s12s.v(ds1)-a13a.v(ds1)*s24s.v(ds4))*s243a.v()/pDenS/pDenT
          .ret .c (.div (.div (.mul (.smul (.mul (.mul (.neg (.lit 2)) (.mem .r 0)) (.mem .r 0)) (.sub (.mul (.v 1 [.var 3]) (.v 2 [.var 0])) (.mul (.v 5 [.var 0]) (.v 6 [.var 3])))) (.v 13 [])) (.mem .c 0)) (.mem .c 1))) (
          .skip))))) <|
  -- 134: return cdouble(0,0)
  .ret .c (.ofR (.lit 0))⟩

/-- `ldouble amp2()` (SM/eAAe.cpp:139-153); variables: r 0 `amp2`, c 0 `M`, i 0 `j1`, i 1 `j2`, i 2 `j3`, i 3 `j4` -/
def m_amp2 : Method := ⟨0, 
  -- 140: ldouble amp2
  .seq (.set .r 0 (.lit 0)) <|
  -- 141: cdouble M
  .seq (.set .c 0 (.ofR (.lit 0))) <|
  -- 144: for(int j1=-1;j1<=1;j1+=2)
  .seq (.loop 0 (-1) true (.lit 1) 2 (
    -- 145: for(int j2=-2;j2<=2;j2+=4)
    .loop 1 (-2) true (.lit 2) 4 (
      -- 146: for(int j3=-2;j3<=2;j3+=4)
      .loop 2 (-2) true (.lit 2) 4 (
        -- 147: for(int j4=-1;j4<=1;j4+=2)
        .loop 3 (-1) true (.lit 1) 2 (
          -- 148: M=amp(j1,j2,j3,j4)
          .seq (.set .c 0 (.call 0 [.var 0, .var 1, .var 2, .var 3])) <|
          -- 149: amp2+=std::pow(std::abs(M),2)
          .set .r 0 (.add (.loc .r 0) (.pow (.abs (.loc .c 0)) 2))))))) <|
  -- 152: return amp2/4.0
  .ret .r (.div (.loc .r 0) (.lit 4))⟩

/-- `ldouble amp2_Aplus()` (SM/eAAe.cpp:156-169); variables: r 0 `amp2`, c 0 `M`, i 0 `j1`, i 1 `j3`, i 2 `j4` -/
def m_amp2_Aplus : Method := ⟨0, 
  -- 157: ldouble amp2
  .seq (.set .r 0 (.lit 0)) <|
  -- 158: cdouble M
  .seq (.set .c 0 (.ofR (.lit 0))) <|
  -- 161: for(int j1=-1;j1<=1;j1+=2)
  .seq (.loop 0 (-1) true (.lit 1) 2 (
    -- 162: for(int j3=-2;j3<=2;j3+=4)
    .loop 1 (-2) true (.lit 2) 4 (
      -- 163: for(int j4=-1;j4<=1;j4+=2)
      .loop 2 (-1) true (.lit 1) 2 (
        -- 164: M=amp(j1,2,j3,j4)
        .seq (.set .c 0 (.call 0 [.var 0, .lit 2, .var 1, .var 2])) <|
        -- 165: amp2+=std::pow(std::abs(M),2)
        .set .r 0 (.add (.loc .r 0) (.pow (.abs (.loc .c 0)) 2)))))) <|
  -- 168: return amp2/2.0
  .ret .r (.div (.loc .r 0) (.lit 2))⟩

end eAAe

/-- `class eAAe` (SM/eAAe.cpp, SM/include/eAAe.h:25-32).  Members:
* ldouble: 0 `e`, 1 `me`, 2 `sqrt2`
* cdouble: 0 `pDenS`, 1 `pDenT`
* propagator: 0 `prop`
* sproduct: 0 `s34s`, 1 `a34a`, 2 `s12s`, 3 `a12a`, 4 `s13s`, 5 `a13a`, 6 `s24s`, 7 `a24a`, 8 `s23s`, 9 `a23a`, 10 `s14s`, 11 `a14a`, 12 `s342a`, 13 `s243a` -/
def eAAe : Proc where
  name := "eAAe"
  nPar := 2
  ctor := eAAe.ctor
  setMasses := eAAe.setMasses
  massPar := [1]
  setMomenta := eAAe.setMomenta
  methods := [eAAe.m_amp2_Aplus, eAAe.m_amp2, eAAe.m_amp]
  amp2 := 1
  others := [("amp2_Aplus", 2)]

namespace eAeh

/-- constructor (SM/eAeh.cpp:32-52); parameters: 0 `echarge`, 1 `masse`, 2 `massh`, 3 `vev` -/
def ctor : List SInstr := [
  -- 32: e(echarge)
  .set .r 0 (.loc .r 0),
  -- 32: me(masse)
  .set .r 1 (.loc .r 1),
  -- 32: mh(massh)
  .set .r 2 (.loc .r 2),
  -- 32: v(vev)
  .set .r 3 (.loc .r 3),
  -- 32: prop(masse,0)
  .prop 0 (.loc .r 1) (.lit 0),
  -- 35: sqrt2=std::sqrt(two)
  .set .r 4 (.sqrt (.lit 2)),
  -- 36: p1=particle(me)
  .part 0 (.mem .r 1),
  -- 37: p2=particle(0)
  .part 1 (.lit 0),
  -- 38: p3=particle(me)
  .part 2 (.mem .r 1),
  -- 39: p4=particle(mh)
  .part 3 (.mem .r 2),
  -- 40: s12s=sproduct(SQUARE,&p1,&p2)
  .sprod 0 ⟨false, 0, true, [], 1, true⟩,
  -- 41: a12a=sproduct(ANGLE,&p1,&p2)
  .sprod 1 ⟨true, 0, true, [], 1, true⟩,
  -- 42: s23s=sproduct(SQUARE,&p2,&p3)
  .sprod 2 ⟨false, 1, true, [], 2, true⟩,
  -- 43: a23a=sproduct(ANGLE,&p2,&p3)
  .sprod 3 ⟨true, 1, true, [], 2, true⟩,
  -- 44: s13s=sproduct(SQUARE,&p1,&p3)
  .sprod 4 ⟨false, 0, true, [], 2, true⟩,
  -- 45: a13a=sproduct(ANGLE,&p1,&p3)
  .sprod 5 ⟨true, 0, true, [], 2, true⟩,
  -- 46: s243a=sproduct(SQUARE,&p2,&p4,&p3)
  .sprod 6 ⟨false, 1, true, [3], 2, true⟩,
  -- 47: a243s=sproduct(ANGLE,&p2,&p4,&p3)
  .sprod 7 ⟨true, 1, true, [3], 2, true⟩,
  -- 48: s241a=sproduct(SQUARE,&p2,&p4,&p1)
  .sprod 8 ⟨false, 1, true, [3], 0, true⟩,
  -- 49: a241s=sproduct(ANGLE,&p2,&p4,&p1)
  .sprod 9 ⟨true, 1, true, [3], 0, true⟩,
  -- 50: s2342s=sproduct(SQUARE,&p2,&p3,&p4,&p2)
  .sprod 10 ⟨false, 1, true, [2, 3], 1, true⟩,
  -- 51: a2342a=sproduct(ANGLE,&p2,&p3,&p4,&p2)
  .sprod 11 ⟨true, 1, true, [2, 3], 1, true⟩]

/-- `set_masses` (SM/eAeh.cpp:53-60); parameters: 0 `masse`, 1 `massh` -/
def setMasses : List SInstr := [
  -- 54: me=masse
  .set .r 1 (.loc .r 0),
  -- 55: mh=massh
  .set .r 2 (.loc .r 1),
  -- 56: p1.set_mass(me)
  .setMass 0 (.mem .r 1),
  -- 57: p3.set_mass(me)
  .setMass 2 (.mem .r 1),
  -- 58: p4.set_mass(mh)
  .setMass 3 (.mem .r 2),
  -- 59: prop.set_mass(me)
  .propMass 0 (.mem .r 1)]

/-- `set_momenta` (SM/eAeh.cpp:64-90); parameters: 0 `mom1`, 1 `mom2`, 2 `mom3`, 3 `mom4` -/
def setMomenta : List SInstr := [
  -- 66: p1.set_momentum(mom1)
  .setMom 0 0,
  -- 67: p2.set_momentum(mom2)
  .setMom 1 1,
  -- 68: p3.set_momentum(mom3)
  .setMom 2 2,
  -- 69: p4.set_momentum(mom4)
  .setMom 3 3,
  -- 70: s12s.update()
  .update 0,
  -- 71: a12a.update()
  .update 1,
  -- 72: s23s.update()
  .update 2,
  -- 73: a23a.update()
  .update 3,
  -- 74: s13s.update()
  .update 4,
  -- 75: a13a.update()
  .update 5,
  -- 76: s243a.update()
  .update 6,
  -- 77: a243s.update()
  .update 7,
  -- 78: s241a.update()
  .update 8,
  -- 79: a241s.update()
  .update 9,
  -- 80: s2342s.update()
  .update 10,
  -- 81: a2342a.update()
  .update 11,
  -- 88: pDenS=prop.denominator(propSP)
  .den .c 0 0 (.add 0 1),
  -- 89: pDenU=prop.denominator(propUP)
  .den .c 1 0 (.sub 0 3)]

/-- `set_v` (SM/eAeh.cpp:61-63); parameters: 0 `vev` -/
def setV : List SInstr := [
  -- 62: v=vev
  .set .r 3 (.loc .r 0)]

/-- `cdouble amp(ds1,ds2,ds3)` (SM/eAeh.cpp:95-108); variables: i 0 `ds1`, i 1 `ds2`, i 2 `ds3` -/
def m_amp : Method := ⟨3, 
  -- 99: if(ds2>0)
  .seq (.ite (.lt (.lit 0) (.var 1)) (
    -- 101: return sqrt2*e*me/v*(mh*mh*s12s.v(ds1)*s23s.v(ds3)-me*s12s.v(ds1)*s243a.v(ds3)-me*s23s.v(ds3)*s241a.v(ds1)+a13a.v(ds1,ds3)*s2342s.v())/pDenS/pDenU
    .ret .c (.div (.div (.smul (.div (.mul (.mul (.mem .r 4) (.mem .r 0)) (.mem .r 1)) (.mem .r 3)) (.add (.sub (.sub (.mul (.smul (.mul (.mem .r 2) (.mem .r 2)) (.v 0 [.var 0])) (.v 2 [.var 2])) (.mul (.smul (.mem .r 1) (.v 0 [.var 0])) (.v 6 [.var 2]))) (.mul (.smul (.mem .r 1) (.v 2 [.var 2])) (.v 8 [.var 0]))) (.mul (.v 5 [.var 0, .var 2]) (.v 10 [])))) (.mem .c 0)) (.mem .c 1))) (
    -- 103: if(ds2<0)
    .ite (.lt (.var 1) (.lit 0)) (
      -- 105: return sqrt2*e*me/v*(-mh*mh*a12a.v(ds1)*a23a.v(ds3)+me*a12a.v(ds1)*a243s.v(ds3)+me*a23a.v(ds3)*a241s.v(ds1)-s13s.v(ds1,ds3)*a2342a.v())/pDenS/pDenU
      .ret .c (.div (.div (.smul (.div (.mul (.mul (.mem .r 4) (.mem .r 0)) (.mem .r 1)) (.mem .r 3)) (.sub (.add (.add (.mul (.smul (.mul (.neg (.mem .r 2)) (.mem .r 2)) (.v 1 [.var 0])) (.v 3 [.var 2])) (.mul (.smul (.mem .r 1) (.v 1 [.var 0])) (.v 7 [.var 2]))) (.mul (.smul (.mem .r 1) (.v 3 [.var 2])) (.v 9 [.var 0]))) (.mul (.v 4 [.var 0, .var 2]) (.v 11 [])))) (.mem .c 0)) (.mem .c 1))) (
      .skip))) <|
  -- 107: return cdouble(0,0)
  .ret .c (.ofR (.lit 0))⟩

/-- `ldouble amp2()` (SM/eAeh.cpp:111-124); variables: r 0 `amp2`, c 0 `M`, i 0 `j1`, i 1 `j2`, i 2 `j3` -/
def m_amp2 : Method := ⟨0, 
  -- 112: ldouble amp2
  .seq (.set .r 0 (.lit 0)) <|
  -- 113: cdouble M
  .seq (.set .c 0 (.ofR (.lit 0))) <|
  -- 116: for(int j1=-1;j1<=1;j1+=2)
  .seq (.loop 0 (-1) true (.lit 1) 2 (
    -- 117: for(int j2=-2;j2<=2;j2+=4)
    .loop 1 (-2) true (.lit 2) 4 (
      -- 118: for(int j3=-1;j3<=1;j3+=2)
      .loop 2 (-1) true (.lit 1) 2 (
        -- 119: M=amp(j1,j2,j3)
        .seq (.set .c 0 (.call 0 [.var 0, .var 1, .var 2])) <|
        -- 120: amp2+=std::pow(std::abs(M),2)
        .set .r 0 (.add (.loc .r 0) (.pow (.abs (.loc .c 0)) 2)))))) <|
  -- 123: return amp2/4.0
  .ret .r (.div (.loc .r 0) (.lit 4))⟩

/-- `ldouble amp2_Aplus()` (SM/eAeh.cpp:128-140); variables: r 0 `amp2`, c 0 `M`, i 0 `j1`, i 1 `j3` -/
def m_amp2_Aplus : Method := ⟨0, 
  -- 129: ldouble amp2
  .seq (.set .r 0 (.lit 0)) <|
  -- 130: cdouble M
  .seq (.set .c 0 (.ofR (.lit 0))) <|
  -- 133: for(int j1=-1;j1<=1;j1+=2)
  .seq (.loop 0 (-1) true (.lit 1) 2 (
    -- 134: for(int j3=-1;j3<=1;j3+=2)
    .loop 1 (-1) true (.lit 1) 2 (
      -- 135: M=amp(j1,2,j3)
      .seq (.set .c 0 (.call 0 [.var 0, .lit 2, .var 1])) <|
      -- 136: amp2+=std::pow(std::abs(M),2)
      .set .r 0 (.add (.loc .r 0) (.pow (.abs (.loc .c 0)) 2))))) <|
  -- 139: return amp2/2.0
  .ret .r (.div (.loc .r 0) (.lit 2))⟩

end eAeh

/-- `class eAeh` (SM/eAeh.cpp, SM/include/eAeh.h:25-33).  Members:
* ldouble: 0 `e`, 1 `me`, 2 `mh`, 3 `v`, 4 `sqrt2`
* cdouble: 0 `pDenS`, 1 `pDenU`
* propagator: 0 `prop`
* sproduct: 0 `s12s`, 1 `a12a`, 2 `s23s`, 3 `a23a`, 4 `s13s`, 5 `a13a`, 6 `s243a`, 7 `a243s`, 8 `s241a`, 9 `a241s`, 10 `s2342s`, 11 `a2342a` -/
def eAeh : Proc where
  name := "eAeh"
  nPar := 4
  ctor := eAeh.ctor
  setMasses := eAeh.setMasses
  massPar := [1, 2]
  setMomenta := eAeh.setMomenta
  methods := [eAeh.m_amp2_Aplus, eAeh.m_amp2, eAeh.m_amp]
  amp2 := 1
  others := [("amp2_Aplus", 2)]

namespace eWWe

/-- constructor (SM/eWWe.cpp:32-67); parameters: 0 `echarge`, 1 `masse`, 2 `massh`, 3 `widthh`, 4 `massW`, 5 `sinW`, 6 `widthZ` -/
def ctor : List SInstr := [
  -- 32: e(echarge)
  .set .r 0 (.loc .r 0),
  -- 32: me(masse)
  .set .r 1 (.loc .r 1),
  -- 32: mh(massh)
  .set .r 2 (.loc .r 2),
  -- 32: wh(widthh)
  .set .r 3 (.loc .r 3),
  -- 32: MW(massW)
  .set .r 4 (.loc .r 4),
  -- 32: SW(sinW)
  .set .r 5 (.loc .r 5),
  -- 32: CW(std::sqrt(1.0-sinW*sinW))
  .set .r 6 (.sqrt (.sub (.lit 1) (.mul (.loc .r 5) (.loc .r 5)))),
  -- 32: MZ(massW/CW)
  .set .r 7 (.div (.loc .r 4) (.mem .r 6)),
  -- 32: WZ(widthZ)
  .set .r 8 (.loc .r 6),
  -- 32: propne(0,0)
  .prop 1 (.lit 0) (.lit 0),
  -- 32: propA(0,0)
  .prop 3 (.lit 0) (.lit 0),
  -- 35: sqrt2=std::sqrt(two)
  .set .r 9 (.sqrt (.lit 2)),
  -- 36: MZ=MW/CW
  .set .r 7 (.div (.mem .r 4) (.mem .r 6)),
  -- 37: propZ=propagator(MZ,WZ)
  .prop 2 (.mem .r 7) (.mem .r 8),
  -- 38: proph=propagator(mh,wh)
  .prop 0 (.mem .r 2) (.mem .r 3),
  -- 39: p1=particle(me)
  .part 0 (.mem .r 1),
  -- 40: p2=particle(MW)
  .part 1 (.mem .r 4),
  -- 41: p3=particle(MW)
  .part 2 (.mem .r 4),
  -- 42: p4=particle(me)
  .part 3 (.mem .r 1),
  -- 44: s12s=sproduct(SQUARE,&p1,&p2)
  .sprod 0 ⟨false, 0, true, [], 1, true⟩,
  -- 45: a12a=sproduct(ANGLE,&p1,&p2)
  .sprod 1 ⟨true, 0, true, [], 1, true⟩,
  -- 46: s23s=sproduct(SQUARE,&p2,&p3)
  .sprod 2 ⟨false, 1, true, [], 2, true⟩,
  -- 47: a23a=sproduct(ANGLE,&p2,&p3)
  .sprod 3 ⟨true, 1, true, [], 2, true⟩,
  -- 48: s13s=sproduct(SQUARE,&p1,&p3)
  .sprod 4 ⟨false, 0, true, [], 2, true⟩,
  -- 49: a13a=sproduct(ANGLE,&p1,&p3)
  .sprod 5 ⟨true, 0, true, [], 2, true⟩,
  -- 50: s34s=sproduct(SQUARE,&p3,&p4)
  .sprod 6 ⟨false, 2, true, [], 3, true⟩,
  -- 51: a34a=sproduct(ANGLE,&p3,&p4)
  .sprod 7 ⟨true, 2, true, [], 3, true⟩,
  -- 52: s24s=sproduct(SQUARE,&p2,&p4)
  .sprod 8 ⟨false, 1, true, [], 3, true⟩,
  -- 53: a24a=sproduct(ANGLE,&p2,&p4)
  .sprod 9 ⟨true, 1, true, [], 3, true⟩,
  -- 54: s14s=sproduct(SQUARE,&p1,&p4)
  .sprod 10 ⟨false, 0, true, [], 3, true⟩,
  -- 55: a14a=sproduct(ANGLE,&p1,&p4)
  .sprod 11 ⟨true, 0, true, [], 3, true⟩,
  -- 57: s213a=sproduct(SQUARE,&p2,&p1,&p3)
  .sprod 12 ⟨false, 1, true, [0], 2, true⟩,
  -- 58: s431a=sproduct(SQUARE,&p4,&p3,&p1)
  .sprod 13 ⟨false, 3, true, [2], 0, true⟩,
  -- 59: s134a=sproduct(SQUARE,&p1,&p3,&p4)
  .sprod 14 ⟨false, 0, true, [2], 3, true⟩,
  -- 61: prene=2.0*e*e/(2.0*MW*MW*SW*SW)
  .set .r 10 (.div (.mul (.mul (.lit 2) (.mem .r 0)) (.mem .r 0)) (.mul (.mul (.mul (.mul (.lit 2) (.mem .r 4)) (.mem .r 4)) (.mem .r 5)) (.mem .r 5))),
  -- 62: preh=2.0*e*e*me/(4.0*MW*MW*SW*SW)
  .set .r 11 (.div (.mul (.mul (.mul (.lit 2) (.mem .r 0)) (.mem .r 0)) (.mem .r 1)) (.mul (.mul (.mul (.mul (.lit 4) (.mem .r 4)) (.mem .r 4)) (.mem .r 5)) (.mem .r 5))),
  -- 63: preZ=e*e/(2.0*MW*MW*SW*SW)
  .set .r 12 (.div (.mul (.mem .r 0) (.mem .r 0)) (.mul (.mul (.mul (.mul (.lit 2) (.mem .r 4)) (.mem .r 4)) (.mem .r 5)) (.mem .r 5))),
  -- 64: gL=2.0*SW*SW-1.0
  .set .r 13 (.sub (.mul (.mul (.lit 2) (.mem .r 5)) (.mem .r 5)) (.lit 1)),
  -- 65: gR=2.0*SW*SW
  .set .r 14 (.mul (.mul (.lit 2) (.mem .r 5)) (.mem .r 5)),
  -- 66: preA=2*e*e/MW
  .set .r 15 (.div (.mul (.mul (.lit 2) (.mem .r 0)) (.mem .r 0)) (.mem .r 4))]

/-- `set_masses` (SM/eWWe.cpp:68-84); parameters: 0 `masse`, 1 `massh`, 2 `massW` -/
def setMasses : List SInstr := [
  -- 69: me=masse
  .set .r 1 (.loc .r 0),
  -- 70: mh=massh
  .set .r 2 (.loc .r 1),
  -- 71: MW=massW
  .set .r 4 (.loc .r 2),
  -- 72: MZ=MW/CW
  .set .r 7 (.div (.mem .r 4) (.mem .r 6)),
  -- 73: p1.set_mass(me)
  .setMass 0 (.mem .r 1),
  -- 74: p2.set_mass(MW)
  .setMass 1 (.mem .r 4),
  -- 75: p3.set_mass(MW)
  .setMass 2 (.mem .r 4),
  -- 76: p4.set_mass(me)
  .setMass 3 (.mem .r 1),
  -- 77: proph.set_mass(mh)
  .propMass 0 (.mem .r 2),
  -- 78: propZ.set_mass(MZ)
  .propMass 2 (.mem .r 7),
  -- 80: prene=2.0*e*e/(2.0*MW*MW*SW*SW)
  .set .r 10 (.div (.mul (.mul (.lit 2) (.mem .r 0)) (.mem .r 0)) (.mul (.mul (.mul (.mul (.lit 2) (.mem .r 4)) (.mem .r 4)) (.mem .r 5)) (.mem .r 5))),
  -- 81: preh=2.0*e*e*me/(4.0*MW*MW*SW*SW)
  .set .r 11 (.div (.mul (.mul (.mul (.lit 2) (.mem .r 0)) (.mem .r 0)) (.mem .r 1)) (.mul (.mul (.mul (.mul (.lit 4) (.mem .r 4)) (.mem .r 4)) (.mem .r 5)) (.mem .r 5))),
  -- 82: preZ=e*e/(2.0*MW*MW*SW*SW)
  .set .r 12 (.div (.mul (.mem .r 0) (.mem .r 0)) (.mul (.mul (.mul (.mul (.lit 2) (.mem .r 4)) (.mem .r 4)) (.mem .r 5)) (.mem .r 5))),
  -- 83: preA=2*e*e/MW
  .set .r 15 (.div (.mul (.mul (.lit 2) (.mem .r 0)) (.mem .r 0)) (.mem .r 4))]

/-- `set_momenta` (SM/eWWe.cpp:85-119); parameters: 0 `mom1`, 1 `mom2`, 2 `mom3`, 3 `mom4` -/
def setMomenta : List SInstr := [
  -- 87: p1.set_momentum(mom1)
  .setMom 0 0,
  -- 88: p2.set_momentum(mom2)
  .setMom 1 1,
  -- 89: p3.set_momentum(mom3)
  .setMom 2 2,
  -- 90: p4.set_momentum(mom4)
  .setMom 3 3,
  -- 92: s12s.update()
  .update 0,
  -- 93: a12a.update()
  .update 1,
  -- 94: s23s.update()
  .update 2,
  -- 95: a23a.update()
  .update 3,
  -- 96: s13s.update()
  .update 4,
  -- 97: a13a.update()
  .update 5,
  -- 98: s34s.update()
  .update 6,
  -- 99: a34a.update()
  .update 7,
  -- 100: s24s.update()
  .update 8,
  -- 101: a24a.update()
  .update 9,
  -- 102: s14s.update()
  .update 10,
  -- 103: a14a.update()
  .update 11,
  -- 105: s213a.update()
  .update 12,
  -- 106: s431a.update()
  .update 13,
  -- 107: s134a.update()
  .update 14,
  -- 115: pDenhU=proph.denominator(propUP)
  .den .c 0 0 (.sub 0 3),
  -- 116: pDenneS=propne.denominator(propSP)
  .den .c 1 1 (.add 0 1),
  -- 117: pDenZU=propZ.denominator(propUP)
  .den .c 3 2 (.sub 0 3),
  -- 118: pDenAU=propA.denominator(propUP)
  .den .c 4 3 (.sub 0 3)]

/-- `cdouble amp(ds1,ds2,ds3,ds4)` (SM/eWWe.cpp:124-204); variables: i 0 `ds1`, i 1 `ds2`, i 2 `ds3`, i 3 `ds4`, c 0 `amplitude`, i 4 `ds3a`, i 5 `ds3b`, i 6 `ds2a`, i 7 `ds2b`, i 8 `nCombs`, r 0 `normFactor`, i 9 `i` -/
def m_amp : Method := ⟨4, 
  -- 125: cdouble amplitude
  .seq (.set .c 0 (.ofR (.lit 0))) <|
  -- 130: int nCombs
  .seq (.seti 8 (.loops [1, 2])) <|
  -- 131: ldouble normFactor
  .seq (.set .r 0 (.norm [1, 2])) <|
  -- 133: for(int i=0;i<nCombs;i++)
  .seq (.loop 9 0 false (.var 8) 1 (
    -- 134: get_spinor_spins(ds2,ds2a,ds2b,ds3,ds3a,ds3b,i)
    .seq (.spins [(1, 6, 7), (2, 4, 5)] (.var 9)) <|
    -- 144: amplitude+=-normFactor*preh*s23s.v(ds2a,ds3a)*a23a.v(ds2b,ds3b)*(s14s.v(ds1,ds4)-a14a.v(ds1,ds4))/pDenhU
    .seq (.set .c 0 (.add (.loc .c 0) (.div (.mul (.mul (.smul (.mul (.neg (.loc .r 0)) (.mem .r 11)) (.v 2 [.var 6, .var 4])) (.v 3 [.var 7, .var 5])) (.sub (.v 10 [.var 0, .var 3]) (.v 11 [.var 0, .var 3]))) (.mem .c 0)))) <|
    -- 154: amplitude+=-normFactor*prene*s34s.v(ds3a,ds4)*a12a.v(ds1,ds2a)*(MW*a23a.v(ds2b,ds3b)+s213a.v(ds2b,ds3b))/pDenneS
    .seq (.set .c 0 (.add (.loc .c 0) (.div (.mul (.mul (.smul (.mul (.neg (.loc .r 0)) (.mem .r 10)) (.v 6 [.var 4, .var 3])) (.v 1 [.var 0, .var 6])) (.add (.smul (.mem .r 4) (.v 3 [.var 7, .var 5])) (.v 12 [.var 7, .var 5]))) (.mem .c 1)))) <|
    -- 167: amplitude+=+normFactor*preA*(a12a.v(ds1,ds2a)*s34s.v(ds3a,ds4)+s12s.v(ds1,ds2a)*a34a.v(ds3a,ds4)-a13a.v(ds1,ds3a)*s24s.v(ds2a,ds4)-s13s.v(ds1,ds3a)*a24a.v(ds2a,ds4))*(-a23a.v(ds2b,ds3b)+s23s.v(ds2b,ds3b))/pDenAU+normFactor*preA/MW*(s23s.v(ds2a,ds3a)*a23a.v(ds2b,ds3b)*(s431a.v(ds4,ds1)-s134a.v(ds1,ds4)))/pDenAU
    .seq (.set .c 0 (.add (.loc .c 0) (.add (.div (.mul (.smul (.mul (.loc .r 0) (.mem .r 15)) (.sub (.sub (.add (.mul (.v 1 [.var 0, .var 6]) (.v 6 [.var 4, .var 3])) (.mul (.v 0 [.var 0, .var 6]) (.v 7 [.var 4, .var 3]))) (.mul (.v 5 [.var 0, .var 4]) (.v 8 [.var 6, .var 3]))) (.mul (.v 4 [.var 0, .var 4]) (.v 9 [.var 6, .var 3])))) (.add (.neg (.v 3 [.var 7, .var 5])) (.v 2 [.var 7, .var 5]))) (.mem .c 4)) (.div (.smul (.div (.mul (.loc .r 0) (.mem .r 15)) (.mem .r 4)) (.mul (.mul (.v 2 [.var 6, .var 4]) (.v 3 [.var 7, .var 5])) (.sub (.v 13 [.var 3, .var 0]) (.v 14 [.var 0, .var 3])))) (.mem .c 4))))) <|
    -- 193: amplitude+=-normFactor*preZ*(-(gL-gR)*me*s23s.v(ds2a,ds3a)*a23a.v(ds2b,ds3b)*(s14s.v(ds1,ds4)+a14a.v(ds1,ds4))+two*s23s.v(ds2a,ds3a)*a23a.v(ds2b,ds3b)*(gL*s431a.v(ds4,ds1)-gR*s134a.v(ds1,ds4))+two*MW*(s23s.v(ds2a,ds3a)-a23a.v(ds2a,ds3a))*(+gL*(+s34s.v(ds3b,ds4)*a12a.v(ds1,ds2b)-s24s.v(ds2b,ds4)*a13a.v(ds1,ds3b))+gR*(-s13s.v(ds1,ds3b)*a24a.v(ds2b,ds4)+s12s.v(ds1,ds2b)*a34a.v(ds3b,ds4))))/pDenZU
    .set .c 0 (.add (.loc .c 0) (.div (.smul (.mul (.neg (.loc .r 0)) (.mem .r 12)) (.add (.add (.mul (.mul (.smul (.mul (.neg (.sub (.mem .r 13) (.mem .r 14))) (.mem .r 1)) (.v 2 [.var 6, .var 4])) (.v 3 [.var 7, .var 5])) (.add (.v 10 [.var 0, .var 3]) (.v 11 [.var 0, .var 3]))) (.mul (.mul (.smul (.lit 2) (.v 2 [.var 6, .var 4])) (.v 3 [.var 7, .var 5])) (.sub (.smul (.mem .r 13) (.v 13 [.var 3, .var 0])) (.smul (.mem .r 14) (.v 14 [.var 0, .var 3]))))) (.mul (.smul (.mul (.lit 2) (.mem .r 4)) (.sub (.v 2 [.var 6, .var 4]) (.v 3 [.var 6, .var 4]))) (.add (.smul (.mem .r 13) (.sub (.mul (.v 6 [.var 5, .var 3]) (.v 1 [.var 0, .var 7])) (.mul (.v 8 [.var 7, .var 3]) (.v 5 [.var 0, .var 5])))) (.smul (.mem .r 14) (.add (.mul (.neg (.v 4 [.var 0, .var 5])) (.v 9 [.var 7, .var 3])) (.mul (.v 0 [.var 0, .var 7]) (.v 7 [.var 5, .var 3])))))))) (.mem .c 3))))) <|
  -- 203: return amplitude
  .ret .c (.loc .c 0)⟩

/-- `ldouble amp2()` (SM/eWWe.cpp:207-221); variables: r 0 `amp2`, c 0 `M`, i 0 `j1`, i 1 `j2`, i 2 `j3`, i 3 `j4` -/
def m_amp2 : Method := ⟨0, 
  -- 208: ldouble amp2
  .seq (.set .r 0 (.lit 0)) <|
  -- 209: cdouble M
  .seq (.set .c 0 (.ofR (.lit 0))) <|
  -- 212: for(int j1=-1;j1<=1;j1+=2)
  .seq (.loop 0 (-1) true (.lit 1) 2 (
    -- 213: for(int j2=-2;j2<=2;j2+=2)
    .loop 1 (-2) true (.lit 2) 2 (
      -- 214: for(int j3=-2;j3<=2;j3+=2)
      .loop 2 (-2) true (.lit 2) 2 (
        -- 215: for(int j4=-1;j4<=1;j4+=2)
        .loop 3 (-1) true (.lit 1) 2 (
          -- 216: M=amp(j1,j2,j3,j4)
          .seq (.set .c 0 (.call 0 [.var 0, .var 1, .var 2, .var 3])) <|
          -- 217: amp2+=std::pow(std::abs(M),2)
          .set .r 0 (.add (.loc .r 0) (.pow (.abs (.loc .c 0)) 2))))))) <|
  -- 220: return amp2/6.0
  .ret .r (.div (.loc .r 0) (.lit 6))⟩

end eWWe

/-- `class eWWe` (SM/eWWe.cpp, SM/include/eWWe.h:25-36).  Members:
* ldouble: 0 `e`, 1 `me`, 2 `mh`, 3 `wh`, 4 `MW`, 5 `SW`, 6 `CW`, 7 `MZ`, 8 `WZ`, 9 `sqrt2`, 10 `prene`, 11 `preh`, 12 `preZ`, 13 `gL`, 14 `gR`, 15 `preA`
* cdouble: 0 `pDenhU`, 1 `pDenneS`, 2 `pDenneT`, 3 `pDenZU`, 4 `pDenAU`
* propagator: 0 `proph`, 1 `propne`, 2 `propZ`, 3 `propA`
* sproduct: 0 `s12s`, 1 `a12a`, 2 `s23s`, 3 `a23a`, 4 `s13s`, 5 `a13a`, 6 `s34s`, 7 `a34a`, 8 `s24s`, 9 `a24a`, 10 `s14s`, 11 `a14a`, 12 `s213a`, 13 `s431a`, 14 `s134a` -/
def eWWe : Proc where
  name := "eWWe"
  nPar := 7
  ctor := eWWe.ctor
  setMasses := eWWe.setMasses
  massPar := [1, 2, 4]
  setMomenta := eWWe.setMomenta
  methods := [eWWe.m_amp2, eWWe.m_amp]
  amp2 := 1
  others := []

namespace eZZe

/-- constructor (SM/eZZe.cpp:32-63); parameters: 0 `echarge`, 1 `masse`, 2 `massh`, 3 `widthh`, 4 `massW`, 5 `sinW`, 6 `widthZ` -/
def ctor : List SInstr := [
  -- 32: e(echarge)
  .set .r 0 (.loc .r 0),
  -- 32: me(masse)
  .set .r 1 (.loc .r 1),
  -- 32: mh(massh)
  .set .r 2 (.loc .r 2),
  -- 32: wh(widthh)
  .set .r 3 (.loc .r 3),
  -- 32: MW(massW)
  .set .r 4 (.loc .r 4),
  -- 32: SW(sinW)
  .set .r 5 (.loc .r 5),
  -- 32: CW(std::sqrt(1.0-sinW*sinW))
  .set .r 6 (.sqrt (.sub (.lit 1) (.mul (.loc .r 5) (.loc .r 5)))),
  -- 32: MZ(massW/CW)
  .set .r 7 (.div (.loc .r 4) (.mem .r 6)),
  -- 32: WZ(widthZ)
  .set .r 8 (.loc .r 6),
  -- 32: prope(masse,0)
  .prop 1 (.loc .r 1) (.lit 0),
  -- 35: sqrt2=std::sqrt(two)
  .set .r 9 (.sqrt (.lit 2)),
  -- 36: MZ=MW/CW
  .set .r 7 (.div (.mem .r 4) (.mem .r 6)),
  -- 37: proph=propagator(mh,wh)
  .prop 0 (.mem .r 2) (.mem .r 3),
  -- 38: p1=particle(me)
  .part 0 (.mem .r 1),
  -- 39: p2=particle(MZ)
  .part 1 (.mem .r 7),
  -- 40: p3=particle(MZ)
  .part 2 (.mem .r 7),
  -- 41: p4=particle(me)
  .part 3 (.mem .r 1),
  -- 43: s12s=sproduct(SQUARE,&p1,&p2)
  .sprod 0 ⟨false, 0, true, [], 1, true⟩,
  -- 44: a12a=sproduct(ANGLE,&p1,&p2)
  .sprod 1 ⟨true, 0, true, [], 1, true⟩,
  -- 45: s23s=sproduct(SQUARE,&p2,&p3)
  .sprod 2 ⟨false, 1, true, [], 2, true⟩,
  -- 46: a23a=sproduct(ANGLE,&p2,&p3)
  .sprod 3 ⟨true, 1, true, [], 2, true⟩,
  -- 47: s13s=sproduct(SQUARE,&p1,&p3)
  .sprod 4 ⟨false, 0, true, [], 2, true⟩,
  -- 48: a13a=sproduct(ANGLE,&p1,&p3)
  .sprod 5 ⟨true, 0, true, [], 2, true⟩,
  -- 49: s34s=sproduct(SQUARE,&p3,&p4)
  .sprod 6 ⟨false, 2, true, [], 3, true⟩,
  -- 50: a34a=sproduct(ANGLE,&p3,&p4)
  .sprod 7 ⟨true, 2, true, [], 3, true⟩,
  -- 51: s24s=sproduct(SQUARE,&p2,&p4)
  .sprod 8 ⟨false, 1, true, [], 3, true⟩,
  -- 52: a24a=sproduct(ANGLE,&p2,&p4)
  .sprod 9 ⟨true, 1, true, [], 3, true⟩,
  -- 53: s14s=sproduct(SQUARE,&p1,&p4)
  .sprod 10 ⟨false, 0, true, [], 3, true⟩,
  -- 54: a14a=sproduct(ANGLE,&p1,&p4)
  .sprod 11 ⟨true, 0, true, [], 3, true⟩,
  -- 56: s312a=sproduct(SQUARE,&p3,&p1,&p2)
  .sprod 12 ⟨false, 2, true, [0], 1, true⟩,
  -- 57: s213a=sproduct(SQUARE,&p2,&p1,&p3)
  .sprod 13 ⟨false, 1, true, [0], 2, true⟩,
  -- 59: preTS=e*e/(2.0*MW*MW*SW*SW)
  .set .r 10 (.div (.mul (.mem .r 0) (.mem .r 0)) (.mul (.mul (.mul (.mul (.lit 2) (.mem .r 4)) (.mem .r 4)) (.mem .r 5)) (.mem .r 5))),
  -- 60: gL=2.0*SW*SW-1.0
  .set .r 12 (.sub (.mul (.mul (.lit 2) (.mem .r 5)) (.mem .r 5)) (.lit 1)),
  -- 61: gR=2.0*SW*SW
  .set .r 13 (.mul (.mul (.lit 2) (.mem .r 5)) (.mem .r 5)),
  -- 62: preh=e*e*me/(2.0*MW*MW*SW*SW)
  .set .r 11 (.div (.mul (.mul (.mem .r 0) (.mem .r 0)) (.mem .r 1)) (.mul (.mul (.mul (.mul (.lit 2) (.mem .r 4)) (.mem .r 4)) (.mem .r 5)) (.mem .r 5)))]

/-- `set_masses` (SM/eZZe.cpp:64-78); parameters: 0 `masse`, 1 `massh`, 2 `massW` -/
def setMasses : List SInstr := [
  -- 65: me=masse
  .set .r 1 (.loc .r 0),
  -- 66: mh=massh
  .set .r 2 (.loc .r 1),
  -- 67: MW=massW
  .set .r 4 (.loc .r 2),
  -- 68: MZ=MW/CW
  .set .r 7 (.div (.mem .r 4) (.mem .r 6)),
  -- 69: p1.set_mass(me)
  .setMass 0 (.mem .r 1),
  -- 70: p2.set_mass(MZ)
  .setMass 1 (.mem .r 7),
  -- 71: p3.set_mass(MZ)
  .setMass 2 (.mem .r 7),
  -- 72: p4.set_mass(me)
  .setMass 3 (.mem .r 1),
  -- 73: prope.set_mass(me)
  .propMass 1 (.mem .r 1),
  -- 74: proph.set_mass(mh)
  .propMass 0 (.mem .r 2),
  -- 76: preTS=e*e/(2.0*MW*MW*SW*SW)
  .set .r 10 (.div (.mul (.mem .r 0) (.mem .r 0)) (.mul (.mul (.mul (.mul (.lit 2) (.mem .r 4)) (.mem .r 4)) (.mem .r 5)) (.mem .r 5))),
  -- 77: preh=e*e*me/(2.0*MW*MW*SW*SW)
  .set .r 11 (.div (.mul (.mul (.mem .r 0) (.mem .r 0)) (.mem .r 1)) (.mul (.mul (.mul (.mul (.lit 2) (.mem .r 4)) (.mem .r 4)) (.mem .r 5)) (.mem .r 5)))]

/-- `set_momenta` (SM/eZZe.cpp:79-111); parameters: 0 `mom1`, 1 `mom2`, 2 `mom3`, 3 `mom4` -/
def setMomenta : List SInstr := [
  -- 81: p1.set_momentum(mom1)
  .setMom 0 0,
  -- 82: p2.set_momentum(mom2)
  .setMom 1 1,
  -- 83: p3.set_momentum(mom3)
  .setMom 2 2,
  -- 84: p4.set_momentum(mom4)
  .setMom 3 3,
  -- 86: s12s.update()
  .update 0,
  -- 87: a12a.update()
  .update 1,
  -- 88: s23s.update()
  .update 2,
  -- 89: a23a.update()
  .update 3,
  -- 90: s13s.update()
  .update 4,
  -- 91: a13a.update()
  .update 5,
  -- 92: s34s.update()
  .update 6,
  -- 93: a34a.update()
  .update 7,
  -- 94: s24s.update()
  .update 8,
  -- 95: a24a.update()
  .update 9,
  -- 96: s14s.update()
  .update 10,
  -- 97: a14a.update()
  .update 11,
  -- 99: s312a.update()
  .update 12,
  -- 100: s213a.update()
  .update 13,
  -- 108: pDenU=proph.denominator(propUP)
  .den .c 2 0 (.sub 0 3),
  -- 109: pDenT=prope.denominator(propTP)
  .den .c 1 1 (.sub 0 2),
  -- 110: pDenS=prope.denominator(propSP)
  .den .c 0 1 (.add 0 1)]

/-- `cdouble amp(ds1,ds2,ds3,ds4)` (SM/eZZe.cpp:116-176); variables: i 0 `ds1`, i 1 `ds2`, i 2 `ds3`, i 3 `ds4`, c 0 `amplitude`, i 4 `ds3a`, i 5 `ds3b`, i 6 `ds2a`, i 7 `ds2b`, i 8 `nCombs`, r 0 `normFactor`, i 9 `i` -/
def m_amp : Method := ⟨4, 
  -- 117: cdouble amplitude
  .seq (.set .c 0 (.ofR (.lit 0))) <|
  -- 121: int nCombs
  .seq (.seti 8 (.loops [1, 2])) <|
  -- 122: ldouble normFactor
  .seq (.set .r 0 (.norm [1, 2])) <|
  -- 124: for(int i=0;i<nCombs;i++)
  .seq (.loop 9 0 false (.var 8) 1 (
    -- 125: get_spinor_spins(ds2,ds2a,ds2b,ds3,ds3a,ds3b,i)
    .seq (.spins [(1, 6, 7), (2, 4, 5)] (.var 9)) <|
    -- 135: amplitude+=-normFactor*preh*s23s.v(ds2a,ds3a)*a23a.v(ds2b,ds3b)*(s14s.v(ds1,ds4)-a14a.v(ds1,ds4))/pDenU
    .seq (.set .c 0 (.add (.loc .c 0) (.div (.mul (.mul (.smul (.mul (.neg (.loc .r 0)) (.mem .r 11)) (.v 2 [.var 6, .var 4])) (.v 3 [.var 7, .var 5])) (.sub (.v 10 [.var 0, .var 3]) (.v 11 [.var 0, .var 3]))) (.mem .c 2)))) <|
    -- 151: amplitude+=-normFactor*preTS*gL*gL*s24s.v(ds2a,ds4)*a13a.v(ds1,ds3a)*(MZ*a23a.v(ds2b,ds3b)+s312a.v(ds3b,ds2b))/pDenT+normFactor*preTS*gR*gR*a24a.v(ds2a,ds4)*s13s.v(ds1,ds3a)*(MZ*s23s.v(ds2b,ds3b)+s213a.v(ds2b,ds3b))/pDenT+normFactor*preTS*gL*gR*me*(s13s.v(ds1,ds3a)*s24s.v(ds2a,ds4)*a23a.v(ds2b,ds3b)-a13a.v(ds1,ds3a)*a24a.v(ds2a,ds4)*s23s.v(ds2b,ds3b))/pDenT
    .seq (.set .c 0 (.add (.loc .c 0) (.add (.add (.div (.mul (.mul (.smul (.mul (.mul (.mul (.neg (.loc .r 0)) (.mem .r 10)) (.mem .r 12)) (.mem .r 12)) (.v 8 [.var 6, .var 3])) (.v 5 [.var 0, .var 4])) (.add (.smul (.mem .r 7) (.v 3 [.var 7, .var 5])) (.v 12 [.var 5, .var 7]))) (.mem .c 1)) (.div (.mul (.mul (.smul (.mul (.mul (.mul (.loc .r 0) (.mem .r 10)) (.mem .r 13)) (.mem .r 13)) (.v 9 [.var 6, .var 3])) (.v 4 [.var 0, .var 4])) (.add (.smul (.mem .r 7) (.v 2 [.var 7, .var 5])) (.v 13 [.var 7, .var 5]))) (.mem .c 1))) (.div (.smul (.mul (.mul (.mul (.mul (.loc .r 0) (.mem .r 10)) (.mem .r 12)) (.mem .r 13)) (.mem .r 1)) (.sub (.mul (.mul (.v 4 [.var 0, .var 4]) (.v 8 [.var 6, .var 3])) (.v 3 [.var 7, .var 5])) (.mul (.mul (.v 5 [.var 0, .var 4]) (.v 9 [.var 6, .var 3])) (.v 2 [.var 7, .var 5])))) (.mem .c 1))))) <|
    -- 169: amplitude+=-normFactor*preTS*gL*gL*s34s.v(ds3a,ds4)*a12a.v(ds1,ds2a)*(MZ*a23a.v(ds2b,ds3b)+s213a.v(ds2b,ds3b))/pDenS+normFactor*preTS*gR*gR*s12s.v(ds1,ds2a)*a34a.v(ds3a,ds4)*(MZ*s23s.v(ds2b,ds3b)+s312a.v(ds3b,ds2b))/pDenS+normFactor*preTS*gL*gR*me*(-s12s.v(ds1,ds2a)*s34s.v(ds3a,ds4)*a23a.v(ds2b,ds3b)+a12a.v(ds1,ds2a)*a34a.v(ds3a,ds4)*s23s.v(ds2b,ds3b))/pDenS
    .set .c 0 (.add (.loc .c 0) (.add (.add (.div (.mul (.mul (.smul (.mul (.mul (.mul (.neg (.loc .r 0)) (.mem .r 10)) (.mem .r 12)) (.mem .r 12)) (.v 6 [.var 4, .var 3])) (.v 1 [.var 0, .var 6])) (.add (.smul (.mem .r 7) (.v 3 [.var 7, .var 5])) (.v 13 [.var 7, .var 5]))) (.mem .c 0)) (.div (.mul (.mul (.smul (.mul (.mul (.mul (.loc .r 0) (.mem .r 10)) (.mem .r 13)) (.mem .r 13)) (.v 0 [.var 0, .var 6])) (.v 7 [.var 4, .var 3])) (.add (.smul (.mem .r 7) (.v 2 [.var 7, .var 5])) (.v 12 [.var 5, .var 7]))) (.mem .c 0))) (.div (.smul (.mul (.mul (.mul (.mul (.loc .r 0) (.mem .r 10)) (.mem .r 12)) (.mem .r 13)) (.mem .r 1)) (.add (.mul (.mul (.neg (.v 0 [.var 0, .var 6])) (.v 6 [.var 4, .var 3])) (.v 3 [.var 7, .var 5])) (.mul (.mul (.v 1 [.var 0, .var 6]) (.v 7 [.var 4, .var 3])) (.v 2 [.var 7, .var 5])))) (.mem .c 0)))))) <|
  -- 175: return amplitude
  .ret .c (.loc .c 0)⟩

/-- `ldouble amp2()` (SM/eZZe.cpp:179-193); variables: r 0 `amp2`, c 0 `M`, i 0 `j1`, i 1 `j2`, i 2 `j3`, i 3 `j4` -/
def m_amp2 : Method := ⟨0, 
  -- 180: ldouble amp2
  .seq (.set .r 0 (.lit 0)) <|
  -- 181: cdouble M
  .seq (.set .c 0 (.ofR (.lit 0))) <|
  -- 184: for(int j1=-1;j1<=1;j1+=2)
  .seq (.loop 0 (-1) true (.lit 1) 2 (
    -- 185: for(int j2=-2;j2<=2;j2+=2)
    .loop 1 (-2) true (.lit 2) 2 (
      -- 186: for(int j3=-2;j3<=2;j3+=2)
      .loop 2 (-2) true (.lit 2) 2 (
        -- 187: for(int j4=-1;j4<=1;j4+=2)
        .loop 3 (-1) true (.lit 1) 2 (
          -- 188: M=amp(j1,j2,j3,j4)
          .seq (.set .c 0 (.call 0 [.var 0, .var 1, .var 2, .var 3])) <|
          -- 189: amp2+=std::pow(std::abs(M),2)
          .set .r 0 (.add (.loc .r 0) (.pow (.abs (.loc .c 0)) 2))))))) <|
  -- 192: return amp2/6.0
  .ret .r (.div (.loc .r 0) (.lit 6))⟩

end eZZe

/-- `class eZZe` (SM/eZZe.cpp, SM/include/eZZe.h:25-36).  Members:
* ldouble: 0 `e`, 1 `me`, 2 `mh`, 3 `wh`, 4 `MW`, 5 `SW`, 6 `CW`, 7 `MZ`, 8 `WZ`, 9 `sqrt2`, 10 `preTS`, 11 `preh`, 12 `gL`, 13 `gR`
* cdouble: 0 `pDenS`, 1 `pDenT`, 2 `pDenU`
* propagator: 0 `proph`, 1 `prope`
* sproduct: 0 `s12s`, 1 `a12a`, 2 `s23s`, 3 `a23a`, 4 `s13s`, 5 `a13a`, 6 `s34s`, 7 `a34a`, 8 `s24s`, 9 `a24a`, 10 `s14s`, 11 `a14a`, 12 `s312a`, 13 `s213a` -/
def eZZe : Proc where
  name := "eZZe"
  nPar := 7
  ctor := eZZe.ctor
  setMasses := eZZe.setMasses
  massPar := [1, 2, 4]
  setMomenta := eZZe.setMomenta
  methods := [eZZe.m_amp2, eZZe.m_amp]
  amp2 := 1
  others := []

namespace eZeh

/-- constructor (SM/eZeh.cpp:32-60); parameters: 0 `echarge`, 1 `masse`, 2 `massh`, 3 `widthh`, 4 `massW`, 5 `sinW`, 6 `widthZ` -/
def ctor : List SInstr := [
  -- 32: e(echarge)
  .set .r 0 (.loc .r 0),
  -- 32: me(masse)
  .set .r 1 (.loc .r 1),
  -- 32: mh(massh)
  .set .r 2 (.loc .r 2),
  -- 32: wh(widthh)
  .set .r 3 (.loc .r 3),
  -- 32: MW(massW)
  .set .r 4 (.loc .r 4),
  -- 32: SW(sinW)
  .set .r 5 (.loc .r 5),
  -- 32: CW(std::sqrt(1.0-sinW*sinW))
  .set .r 6 (.sqrt (.sub (.lit 1) (.mul (.loc .r 5) (.loc .r 5)))),
  -- 32: MZ(massW/CW)
  .set .r 7 (.div (.loc .r 4) (.mem .r 6)),
  -- 32: WZ(widthZ)
  .set .r 8 (.loc .r 6),
  -- 32: prope(masse,0)
  .prop 1 (.loc .r 1) (.lit 0),
  -- 35: sqrt2=std::sqrt(two)
  .set .r 9 (.sqrt (.lit 2)),
  -- 36: MZ=MW/CW
  .set .r 7 (.div (.mem .r 4) (.mem .r 6)),
  -- 37: propZ=propagator(MZ,WZ)
  .prop 0 (.mem .r 7) (.mem .r 8),
  -- 38: p1=particle(me)
  .part 0 (.mem .r 1),
  -- 39: p2=particle(MZ)
  .part 1 (.mem .r 7),
  -- 40: p3=particle(me)
  .part 2 (.mem .r 1),
  -- 41: p4=particle(mh)
  .part 3 (.mem .r 2),
  -- 43: s12s=sproduct(SQUARE,&p1,&p2)
  .sprod 0 ⟨false, 0, true, [], 1, true⟩,
  -- 44: a12a=sproduct(ANGLE,&p1,&p2)
  .sprod 1 ⟨true, 0, true, [], 1, true⟩,
  -- 45: s23s=sproduct(SQUARE,&p2,&p3)
  .sprod 2 ⟨false, 1, true, [], 2, true⟩,
  -- 46: a23a=sproduct(ANGLE,&p2,&p3)
  .sprod 3 ⟨true, 1, true, [], 2, true⟩,
  -- 47: s13s=sproduct(SQUARE,&p1,&p3)
  .sprod 4 ⟨false, 0, true, [], 2, true⟩,
  -- 48: a13a=sproduct(ANGLE,&p1,&p3)
  .sprod 5 ⟨true, 0, true, [], 2, true⟩,
  -- 50: s312a=sproduct(SQUARE,&p3,&p1,&p2)
  .sprod 6 ⟨false, 2, true, [0], 1, true⟩,
  -- 51: s213a=sproduct(SQUARE,&p2,&p1,&p3)
  .sprod 7 ⟨false, 1, true, [0], 2, true⟩,
  -- 52: s242a=sproduct(SQUARE,&p2,&p4,&p2)
  .sprod 8 ⟨false, 1, true, [3], 1, true⟩,
  -- 53: s142a=sproduct(SQUARE,&p1,&p4,&p2)
  .sprod 9 ⟨false, 0, true, [3], 1, true⟩,
  -- 54: s241a=sproduct(SQUARE,&p2,&p4,&p1)
  .sprod 10 ⟨false, 1, true, [3], 0, true⟩,
  -- 56: preSU=sqrt2*e*e*me/(4.0*MW*MW*SW*SW)
  .set .r 10 (.div (.mul (.mul (.mul (.mem .r 9) (.mem .r 0)) (.mem .r 0)) (.mem .r 1)) (.mul (.mul (.mul (.mul (.lit 4) (.mem .r 4)) (.mem .r 4)) (.mem .r 5)) (.mem .r 5))),
  -- 57: gL=2.0*SW*SW-1.0
  .set .r 12 (.sub (.mul (.mul (.lit 2) (.mem .r 5)) (.mem .r 5)) (.lit 1)),
  -- 58: gR=2.0*SW*SW
  .set .r 13 (.mul (.mul (.lit 2) (.mem .r 5)) (.mem .r 5)),
  -- 59: preZ=sqrt2*e*e/(4.0*MW*MW*SW*SW)
  .set .r 11 (.div (.mul (.mul (.mem .r 9) (.mem .r 0)) (.mem .r 0)) (.mul (.mul (.mul (.mul (.lit 4) (.mem .r 4)) (.mem .r 4)) (.mem .r 5)) (.mem .r 5)))]

/-- `set_masses` (SM/eZeh.cpp:61-75); parameters: 0 `masse`, 1 `massh`, 2 `massW` -/
def setMasses : List SInstr := [
  -- 62: me=masse
  .set .r 1 (.loc .r 0),
  -- 63: mh=massh
  .set .r 2 (.loc .r 1),
  -- 64: MW=massW
  .set .r 4 (.loc .r 2),
  -- 65: MZ=MW/CW
  .set .r 7 (.div (.mem .r 4) (.mem .r 6)),
  -- 66: p1.set_mass(me)
  .setMass 0 (.mem .r 1),
  -- 67: p2.set_mass(MZ)
  .setMass 1 (.mem .r 7),
  -- 68: p3.set_mass(me)
  .setMass 2 (.mem .r 1),
  -- 69: p4.set_mass(mh)
  .setMass 3 (.mem .r 2),
  -- 70: prope.set_mass(me)
  .propMass 1 (.mem .r 1),
  -- 71: propZ.set_mass(MZ)
  .propMass 0 (.mem .r 7),
  -- 73: preSU=sqrt2*e*e*me/(4.0*MW*MW*SW*SW)
  .set .r 10 (.div (.mul (.mul (.mul (.mem .r 9) (.mem .r 0)) (.mem .r 0)) (.mem .r 1)) (.mul (.mul (.mul (.mul (.lit 4) (.mem .r 4)) (.mem .r 4)) (.mem .r 5)) (.mem .r 5))),
  -- 74: preZ=sqrt2*e*e/(4.0*MW*MW*SW*SW)
  .set .r 11 (.div (.mul (.mul (.mem .r 9) (.mem .r 0)) (.mem .r 0)) (.mul (.mul (.mul (.mul (.lit 4) (.mem .r 4)) (.mem .r 4)) (.mem .r 5)) (.mem .r 5)))]

/-- `set_momenta` (SM/eZeh.cpp:76-105); parameters: 0 `mom1`, 1 `mom2`, 2 `mom3`, 3 `mom4` -/
def setMomenta : List SInstr := [
  -- 78: p1.set_momentum(mom1)
  .setMom 0 0,
  -- 79: p2.set_momentum(mom2)
  .setMom 1 1,
  -- 80: p3.set_momentum(mom3)
  .setMom 2 2,
  -- 81: p4.set_momentum(mom4)
  .setMom 3 3,
  -- 83: s12s.update()
  .update 0,
  -- 84: a12a.update()
  .update 1,
  -- 85: s23s.update()
  .update 2,
  -- 86: a23a.update()
  .update 3,
  -- 87: s13s.update()
  .update 4,
  -- 88: a13a.update()
  .update 5,
  -- 90: s312a.update()
  .update 6,
  -- 91: s213a.update()
  .update 7,
  -- 92: s242a.update()
  .update 8,
  -- 93: s142a.update()
  .update 9,
  -- 94: s241a.update()
  .update 10,
  -- 102: pDenT=propZ.denominator(propTP)
  .den .c 1 0 (.sub 0 2),
  -- 103: pDenS=prope.denominator(propSP)
  .den .c 0 1 (.add 0 1),
  -- 104: pDenU=prope.denominator(propUP)
  .den .c 2 1 (.sub 0 3)]

/-- `cdouble amp(ds1,ds2,ds3)` (SM/eZeh.cpp:110-162); variables: i 0 `ds1`, i 1 `ds2`, i 2 `ds3`, c 0 `amplitude`, i 3 `ds2a`, i 4 `ds2b`, i 5 `nCombs`, r 0 `normFactor`, i 6 `i` -/
def m_amp : Method := ⟨3, 
  -- 111: cdouble amplitude
  .seq (.set .c 0 (.ofR (.lit 0))) <|
  -- 115: int nCombs
  .seq (.seti 5 (.loops [1])) <|
  -- 116: ldouble normFactor
  .seq (.set .r 0 (.norm [1])) <|
  -- 117: for(int i=0;i<nCombs;i++)
  .seq (.loop 6 0 false (.var 5) 1 (
    -- 118: get_spinor_spins(ds2,ds2a,ds2b,i)
    .seq (.spins [(1, 3, 4)] (.var 6)) <|
    -- 128: amplitude+=normFactor*preZ*(+me*(gL-gR)*(a13a.v(ds1,ds3)+s13s.v(ds1,ds3))*s242a.v(ds2a,ds2b)-2.0*MZ*MZ*(gL*s23s.v(ds2a,ds3)*a12a.v(ds1,ds2b)-gR*s12s.v(ds1,ds2a)*a23a.v(ds2b,ds3)))/pDenT
    .seq (.set .c 0 (.add (.loc .c 0) (.div (.smul (.mul (.loc .r 0) (.mem .r 11)) (.sub (.mul (.smul (.mul (.mem .r 1) (.sub (.mem .r 12) (.mem .r 13))) (.add (.v 5 [.var 0, .var 2]) (.v 4 [.var 0, .var 2]))) (.v 8 [.var 3, .var 4])) (.smul (.mul (.mul (.lit 2) (.mem .r 7)) (.mem .r 7)) (.sub (.mul (.smul (.mem .r 12) (.v 2 [.var 3, .var 2])) (.v 1 [.var 0, .var 4])) (.mul (.smul (.mem .r 13) (.v 0 [.var 0, .var 3])) (.v 3 [.var 4, .var 2])))))) (.mem .c 1)))) <|
    -- 141: amplitude+=-normFactor*preSU*(+gL*a12a.v(ds1,ds2a)*(me*s23s.v(ds2b,ds3)-s213a.v(ds2b,ds3)-MZ*a23a.v(ds2b,ds3))+gR*s12s.v(ds1,ds2a)*(MZ*s23s.v(ds2b,ds3)+s312a.v(ds3,ds2b)-me*a23a.v(ds2b,ds3)))/pDenS
    .seq (.set .c 0 (.add (.loc .c 0) (.div (.smul (.mul (.neg (.loc .r 0)) (.mem .r 10)) (.add (.mul (.smul (.mem .r 12) (.v 1 [.var 0, .var 3])) (.sub (.sub (.smul (.mem .r 1) (.v 2 [.var 4, .var 2])) (.v 7 [.var 4, .var 2])) (.smul (.mem .r 7) (.v 3 [.var 4, .var 2])))) (.mul (.smul (.mem .r 13) (.v 0 [.var 0, .var 3])) (.sub (.add (.smul (.mem .r 7) (.v 2 [.var 4, .var 2])) (.v 6 [.var 2, .var 4])) (.smul (.mem .r 1) (.v 3 [.var 4, .var 2])))))) (.mem .c 0)))) <|
    -- 154: amplitude+=-normFactor*preSU*(+gL*s23s.v(ds2a,ds3)*(-s142a.v(ds1,ds2b)+2.0*me*a12a.v(ds1,ds2b))-gR*a23a.v(ds2a,ds3)*(-s241a.v(ds2b,ds1)+2.0*me*s12s.v(ds1,ds2b)))/pDenU
    .set .c 0 (.add (.loc .c 0) (.div (.smul (.mul (.neg (.loc .r 0)) (.mem .r 10)) (.sub (.mul (.smul (.mem .r 12) (.v 2 [.var 3, .var 2])) (.add (.neg (.v 9 [.var 0, .var 4])) (.smul (.mul (.lit 2) (.mem .r 1)) (.v 1 [.var 0, .var 4])))) (.mul (.smul (.mem .r 13) (.v 3 [.var 3, .var 2])) (.add (.neg (.v 10 [.var 4, .var 0])) (.smul (.mul (.lit 2) (.mem .r 1)) (.v 0 [.var 0, .var 4])))))) (.mem .c 2))))) <|
  -- 161: return amplitude
  .ret .c (.loc .c 0)⟩

/-- `ldouble amp2()` (SM/eZeh.cpp:165-178); variables: r 0 `amp2`, c 0 `M`, i 0 `j1`, i 1 `j2`, i 2 `j3` -/
def m_amp2 : Method := ⟨0, 
  -- 166: ldouble amp2
  .seq (.set .r 0 (.lit 0)) <|
  -- 167: cdouble M
  .seq (.set .c 0 (.ofR (.lit 0))) <|
  -- 170: for(int j1=-1;j1<=1;j1+=2)
  .seq (.loop 0 (-1) true (.lit 1) 2 (
    -- 171: for(int j2=-2;j2<=2;j2+=2)
    .loop 1 (-2) true (.lit 2) 2 (
      -- 172: for(int j3=-1;j3<=1;j3+=2)
      .loop 2 (-1) true (.lit 1) 2 (
        -- 173: M=amp(j1,j2,j3)
        .seq (.set .c 0 (.call 0 [.var 0, .var 1, .var 2])) <|
        -- 174: amp2+=std::pow(std::abs(M),2)
        .set .r 0 (.add (.loc .r 0) (.pow (.abs (.loc .c 0)) 2)))))) <|
  -- 177: return amp2/6.0
  .ret .r (.div (.loc .r 0) (.lit 6))⟩

end eZeh

/-- `class eZeh` (SM/eZeh.cpp, SM/include/eZeh.h:25-36).  Members:
* ldouble: 0 `e`, 1 `me`, 2 `mh`, 3 `wh`, 4 `MW`, 5 `SW`, 6 `CW`, 7 `MZ`, 8 `WZ`, 9 `sqrt2`, 10 `preSU`, 11 `preZ`, 12 `gL`, 13 `gR`
* cdouble: 0 `pDenS`, 1 `pDenT`, 2 `pDenU`
* propagator: 0 `propZ`, 1 `prope`
* sproduct: 0 `s12s`, 1 `a12a`, 2 `s23s`, 3 `a23a`, 4 `s13s`, 5 `a13a`, 6 `s312a`, 7 `s213a`, 8 `s242a`, 9 `s142a`, 10 `s241a` -/
def eZeh : Proc where
  name := "eZeh"
  nPar := 7
  ctor := eZeh.ctor
  setMasses := eZeh.setMasses
  massPar := [1, 2, 4]
  setMomenta := eZeh.setMomenta
  methods := [eZeh.m_amp2, eZeh.m_amp]
  amp2 := 1
  others := []

namespace eeAA

/-- constructor (SM/eeAA.cpp:32-54); parameters: 0 `echarge`, 1 `masse` -/
def ctor : List SInstr := [
  -- 32: e(echarge)
  .set .r 0 (.loc .r 0),
  -- 32: me(masse)
  .set .r 1 (.loc .r 1),
  -- 32: prop(masse,0)
  .prop 0 (.loc .r 1) (.lit 0),
  -- 35: sqrt2=std::sqrt(two)
  .set .r 2 (.sqrt (.lit 2)),
  -- 36: p1=particle(me)
  .part 0 (.mem .r 1),
  -- 37: p2=particle(me)
  .part 1 (.mem .r 1),
  -- 38: p3=particle(0)
  .part 2 (.lit 0),
  -- 39: p4=particle(0)
  .part 3 (.lit 0),
  -- 40: s34s=sproduct(SQUARE,&p3,&p4)
  .sprod 0 ⟨false, 2, true, [], 3, true⟩,
  -- 41: a34a=sproduct(ANGLE,&p3,&p4)
  .sprod 1 ⟨true, 2, true, [], 3, true⟩,
  -- 42: s12s=sproduct(SQUARE,&p1,&p2)
  .sprod 2 ⟨false, 0, true, [], 1, true⟩,
  -- 43: a12a=sproduct(ANGLE,&p1,&p2)
  .sprod 3 ⟨true, 0, true, [], 1, true⟩,
  -- 44: s13s=sproduct(SQUARE,&p1,&p3)
  .sprod 4 ⟨false, 0, true, [], 2, true⟩,
  -- 45: a13a=sproduct(ANGLE,&p1,&p3)
  .sprod 5 ⟨true, 0, true, [], 2, true⟩,
  -- 46: s24s=sproduct(SQUARE,&p2,&p4)
  .sprod 6 ⟨false, 1, true, [], 3, true⟩,
  -- 47: a24a=sproduct(ANGLE,&p2,&p4)
  .sprod 7 ⟨true, 1, true, [], 3, true⟩,
  -- 48: s23s=sproduct(SQUARE,&p2,&p3)
  .sprod 8 ⟨false, 1, true, [], 2, true⟩,
  -- 49: a23a=sproduct(ANGLE,&p2,&p3)
  .sprod 9 ⟨true, 1, true, [], 2, true⟩,
  -- 50: s14s=sproduct(SQUARE,&p1,&p4)
  .sprod 10 ⟨false, 0, true, [], 3, true⟩,
  -- 51: a14a=sproduct(ANGLE,&p1,&p4)
  .sprod 11 ⟨true, 0, true, [], 3, true⟩,
  -- 52: s314a=sproduct(SQUARE,&p3,&p1,&p4)
  .sprod 12 ⟨false, 2, true, [0], 3, true⟩,
  -- 53: s413a=sproduct(SQUARE,&p4,&p1,&p3)
  .sprod 13 ⟨false, 3, true, [0], 2, true⟩]

/-- `set_masses` (SM/eeAA.cpp:55-60); parameters: 0 `masse` -/
def setMasses : List SInstr := [
  -- 56: me=masse
  .set .r 1 (.loc .r 0),
  -- 57: p1.set_mass(me)
  .setMass 0 (.mem .r 1),
  -- 58: p2.set_mass(me)
  .setMass 1 (.mem .r 1),
  -- 59: prop.set_mass(me)
  .propMass 0 (.mem .r 1)]

/-- `set_momenta` (SM/eeAA.cpp:61-90); parameters: 0 `mom1`, 1 `mom2`, 2 `mom3`, 3 `mom4` -/
def setMomenta : List SInstr := [
  -- 63: p1.set_momentum(mom1)
  .setMom 0 0,
  -- 64: p2.set_momentum(mom2)
  .setMom 1 1,
  -- 65: p3.set_momentum(mom3)
  .setMom 2 2,
  -- 66: p4.set_momentum(mom4)
  .setMom 3 3,
  -- 67: s34s.update()
  .update 0,
  -- 68: a34a.update()
  .update 1,
  -- 69: s12s.update()
  .update 2,
  -- 70: a12a.update()
  .update 3,
  -- 71: s13s.update()
  .update 4,
  -- 72: a13a.update()
  .update 5,
  -- 73: s24s.update()
  .update 6,
  -- 74: a24a.update()
  .update 7,
  -- 75: s23s.update()
  .update 8,
  -- 76: a23a.update()
  .update 9,
  -- 77: s14s.update()
  .update 10,
  -- 78: a14a.update()
  .update 11,
  -- 79: s314a.update()
  .update 12,
  -- 80: s413a.update()
  .update 13,
  -- 87: pDenT=prop.denominator(propTP)
  .den .c 0 0 (.sub 0 2),
  -- 88: pDenU=prop.denominator(propUP)
  .den .c 1 0 (.sub 0 3)]

/-- `cdouble amp(ds1,ds2,ds3,ds4)` (SM/eeAA.cpp:97-116); variables: i 0 `ds1`, i 1 `ds2`, i 2 `ds3`, i 3 `ds4` -/
def m_amp : Method := ⟨4, 
  -- 99: if(ds3>0&&ds4>0)
  .seq (.ite (.and (.lt (.lit 0) (.var 2)) (.lt (.lit 0) (.var 3))) (
    -- 101: return 2.0*e*e*me*s34s.v()*s34s.v()*a12a.v(ds1,ds2)/pDenT/pDenU
    .ret .c (.div (.div (.mul (.mul (.smul (.mul (.mul (.mul (.lit 2) (.mem .r 0)) (.mem .r 0)) (.mem .r 1)) (.v 0 [])) (.v 0 [])) (.v 3 [.var 0, .var 1])) (.mem .c 0)) (.mem .c 1))) (
    -- 103: if(ds3<0&&ds4<0)
    .ite (.and (.lt (.var 2) (.lit 0)) (.lt (.var 3) (.lit 0))) (
      -- 105: return 2.0*e*e*me*a34a.v()*a34a.v()*s12s.v(ds1,ds2)/pDenT/pDenU
      .ret .c (.div (.div (.mul (.mul (.smul (.mul (.mul (.mul (.lit 2) (.mem .r 0)) (.mem .r 0)) (.mem .r 1)) (.v 1 [])) (.v 1 [])) (.v 2 [.var 0, .var 1])) (.mem .c 0)) (.mem .c 1))) (
      -- 107: if(ds3>0&&ds4<0)
      .ite (.and (.lt (.lit 0) (.var 2)) (.lt (.var 3) (.lit 0))) (
        -- 109: return 2.0*e*e*(s13s.v(ds1)*a24a.v(ds2)+s23s.v(ds2)*a14a.v(ds1))*s314a.v()/pDenT/pDenU
        .ret .c (.div (.div (.mul (.smul (.mul (.mul (.lit 2) (.mem .r 0)) (.mem .r 0)) (.add (.mul (.v 4 [.var 0]) (.v 7 [.var 1])) (.mul (.v 8 [.var 1]) (.v 11 [.var 0])))) (.v 12 [])) (.mem .c 0)) (.mem .c 1))) (
        -- 111: if(ds3<0&&ds4>0)
        .ite (.and (.lt (.var 2) (.lit 0)) (.lt (.lit 0) (.var 3))) (
          -- 113: return 2.0*e*e*(a13a.v(ds1)*s24s.v(ds2)+a23a.v(ds2)*s14s.v(ds1))*s413a.v()/pDenT/pDenU
          .ret .c (.div (.div (.mul (.smul (.mul (.mul (.lit 2) (.mem .r 0)) (.mem .r 0)) (.add (.mul (.v 5 [.var 0]) (.v 6 [.var 1])) (.mul (.v 9 [.var 1]) (.v 10 [.var 0])))) (.v 13 [])) (.mem .c 0)) (.mem .c 1))) (
          .skip))))) <|
  -- 115: return cdouble(0,0)
  .ret .c (.ofR (.lit 0))⟩

/-- `ldouble amp2()` (SM/eeAA.cpp:118-133); variables: r 0 `amp2`, c 0 `M`, i 0 `j1`, i 1 `j2`, i 2 `j3`, i 3 `j4` -/
def m_amp2 : Method := ⟨0, 
  -- 119: ldouble amp2
  .seq (.set .r 0 (.lit 0)) <|
  -- 120: cdouble M
  .seq (.set .c 0 (.ofR (.lit 0))) <|
  -- 123: for(int j1=-1;j1<=1;j1+=2)
  .seq (.loop 0 (-1) true (.lit 1) 2 (
    -- 124: for(int j2=-1;j2<=1;j2+=2)
    .loop 1 (-1) true (.lit 1) 2 (
      -- 125: for(int j3=-2;j3<=2;j3+=4)
      .loop 2 (-2) true (.lit 2) 4 (
        -- 126: for(int j4=-2;j4<=2;j4+=4)
        .loop 3 (-2) true (.lit 2) 4 (
          -- 127: M=amp(j1,j2,j3,j4)
          .seq (.set .c 0 (.call 0 [.var 0, .var 1, .var 2, .var 3])) <|
          -- 128: amp2+=std::pow(std::abs(M),2)
          .set .r 0 (.add (.loc .r 0) (.pow (.abs (.loc .c 0)) 2))))))) <|
  -- 132: return amp2/8.0
  .ret .r (.div (.loc .r 0) (.lit 8))⟩

end eeAA

/-- `class eeAA` (SM/eeAA.cpp, SM/include/eeAA.h:25-32).  Members:
* ldouble: 0 `e`, 1 `me`, 2 `sqrt2`
* cdouble: 0 `pDenT`, 1 `pDenU`
* propagator: 0 `prop`
* sproduct: 0 `s34s`, 1 `a34a`, 2 `s12s`, 3 `a12a`, 4 `s13s`, 5 `a13a`, 6 `s24s`, 7 `a24a`, 8 `s23s`, 9 `a23a`, 10 `s14s`, 11 `a14a`, 12 `s314a`, 13 `s413a` -/
def eeAA : Proc where
  name := "eeAA"
  nPar := 2
  ctor := eeAA.ctor
  setMasses := eeAA.setMasses
  massPar := [1]
  setMomenta := eeAA.setMomenta
  methods := [eeAA.m_amp2, eeAA.m_amp]
  amp2 := 1
  others := []

namespace eeAZ

/-- constructor (SM/eeAZ.cpp:32-60); parameters: 0 `echarge`, 1 `masse`, 2 `massW`, 3 `sinW` -/
def ctor : List SInstr := [
  -- 32: e(echarge)
  .set .r 0 (.loc .r 0),
  -- 32: me(masse)
  .set .r 1 (.loc .r 1),
  -- 32: MW(massW)
  .set .r 2 (.loc .r 2),
  -- 32: SW(sinW)
  .set .r 3 (.loc .r 3),
  -- 32: CW(std::sqrt(1.0-sinW*sinW))
  .set .r 4 (.sqrt (.sub (.lit 1) (.mul (.loc .r 3) (.loc .r 3)))),
  -- 32: MZ(massW/CW)
  .set .r 5 (.div (.loc .r 2) (.mem .r 4)),
  -- 32: prope(masse,0)
  .prop 0 (.loc .r 1) (.lit 0),
  -- 35: sqrt2=std::sqrt(two)
  .set .r 6 (.sqrt (.lit 2)),
  -- 36: MZ=MW/CW
  .set .r 5 (.div (.mem .r 2) (.mem .r 4)),
  -- 37: p1=particle(me)
  .part 0 (.mem .r 1),
  -- 38: p2=particle(me)
  .part 1 (.mem .r 1),
  -- 39: p3=particle(0)
  .part 2 (.lit 0),
  -- 40: p4=particle(MZ)
  .part 3 (.mem .r 5),
  -- 42: s12s=sproduct(SQUARE,&p1,&p2)
  .sprod 0 ⟨false, 0, true, [], 1, true⟩,
  -- 43: a12a=sproduct(ANGLE,&p1,&p2)
  .sprod 1 ⟨true, 0, true, [], 1, true⟩,
  -- 44: s23s=sproduct(SQUARE,&p2,&p3)
  .sprod 2 ⟨false, 1, true, [], 2, true⟩,
  -- 45: a23a=sproduct(ANGLE,&p2,&p3)
  .sprod 3 ⟨true, 1, true, [], 2, true⟩,
  -- 46: s13s=sproduct(SQUARE,&p1,&p3)
  .sprod 4 ⟨false, 0, true, [], 2, true⟩,
  -- 47: a13a=sproduct(ANGLE,&p1,&p3)
  .sprod 5 ⟨true, 0, true, [], 2, true⟩,
  -- 48: s34s=sproduct(SQUARE,&p3,&p4)
  .sprod 6 ⟨false, 2, true, [], 3, true⟩,
  -- 49: a34a=sproduct(ANGLE,&p3,&p4)
  .sprod 7 ⟨true, 2, true, [], 3, true⟩,
  -- 50: s24s=sproduct(SQUARE,&p2,&p4)
  .sprod 8 ⟨false, 1, true, [], 3, true⟩,
  -- 51: a24a=sproduct(ANGLE,&p2,&p4)
  .sprod 9 ⟨true, 1, true, [], 3, true⟩,
  -- 52: s14s=sproduct(SQUARE,&p1,&p4)
  .sprod 10 ⟨false, 0, true, [], 3, true⟩,
  -- 53: a14a=sproduct(ANGLE,&p1,&p4)
  .sprod 11 ⟨true, 0, true, [], 3, true⟩,
  -- 55: s3123s=sproduct(SQUARE,&p3,&p1,&p2,&p3)
  .sprod 12 ⟨false, 2, true, [0, 1], 2, true⟩,
  -- 57: preTU=sqrt2*e*e/(2.0*MW*me*SW)
  .set .r 7 (.div (.mul (.mul (.mem .r 6) (.mem .r 0)) (.mem .r 0)) (.mul (.mul (.mul (.lit 2) (.mem .r 2)) (.mem .r 1)) (.mem .r 3))),
  -- 58: gL=2.0*SW*SW-1.0
  .set .r 9 (.sub (.mul (.mul (.lit 2) (.mem .r 3)) (.mem .r 3)) (.lit 1)),
  -- 59: gR=2.0*SW*SW
  .set .r 10 (.mul (.mul (.lit 2) (.mem .r 3)) (.mem .r 3))]

/-- `set_masses` (SM/eeAZ.cpp:61-72); parameters: 0 `masse`, 1 `massW` -/
def setMasses : List SInstr := [
  -- 62: me=masse
  .set .r 1 (.loc .r 0),
  -- 63: MW=massW
  .set .r 2 (.loc .r 1),
  -- 64: MZ=MW/CW
  .set .r 5 (.div (.mem .r 2) (.mem .r 4)),
  -- 65: p1.set_mass(me)
  .setMass 0 (.mem .r 1),
  -- 66: p2.set_mass(me)
  .setMass 1 (.mem .r 1),
  -- 67: p3.set_mass(0)
  .setMass 2 (.lit 0),
  -- 68: p4.set_mass(MZ)
  .setMass 3 (.mem .r 5),
  -- 69: prope.set_mass(me)
  .propMass 0 (.mem .r 1),
  -- 71: preTU=sqrt2*e*e/(2.0*MW*me*SW)
  .set .r 7 (.div (.mul (.mul (.mem .r 6) (.mem .r 0)) (.mem .r 0)) (.mul (.mul (.mul (.lit 2) (.mem .r 2)) (.mem .r 1)) (.mem .r 3)))]

/-- `set_momenta` (SM/eeAZ.cpp:73-102); parameters: 0 `mom1`, 1 `mom2`, 2 `mom3`, 3 `mom4` -/
def setMomenta : List SInstr := [
  -- 75: p1.set_momentum(mom1)
  .setMom 0 0,
  -- 76: p2.set_momentum(mom2)
  .setMom 1 1,
  -- 77: p3.set_momentum(mom3)
  .setMom 2 2,
  -- 78: p4.set_momentum(mom4)
  .setMom 3 3,
  -- 80: s12s.update()
  .update 0,
  -- 81: a12a.update()
  .update 1,
  -- 82: s23s.update()
  .update 2,
  -- 83: a23a.update()
  .update 3,
  -- 84: s13s.update()
  .update 4,
  -- 85: a13a.update()
  .update 5,
  -- 86: s34s.update()
  .update 6,
  -- 87: a34a.update()
  .update 7,
  -- 88: s24s.update()
  .update 8,
  -- 89: a24a.update()
  .update 9,
  -- 90: s14s.update()
  .update 10,
  -- 91: a14a.update()
  .update 11,
  -- 93: s3123s.update()
  .update 12,
  -- 100: pDenT=prope.denominator(propTP)
  .den .c 0 0 (.sub 0 2),
  -- 101: pDenU=prope.denominator(propUP)
  .den .c 1 0 (.sub 0 3)]

/-- `cdouble amp(ds1,ds2,ds3,ds4)` (SM/eeAZ.cpp:107-154); variables: i 0 `ds1`, i 1 `ds2`, i 2 `ds3`, i 3 `ds4`, c 0 `amplitude`, i 4 `ds4a`, i 5 `ds4b`, i 6 `nCombs`, r 0 `combFactor`, i 7 `i` -/
def m_amp : Method := ⟨4, 
  -- 108: cdouble amplitude
  .seq (.set .c 0 (.ofR (.lit 0))) <|
  -- 112: int nCombs
  .seq (.seti 6 (.lit 1)) <|
  -- 113: ldouble combFactor
  .seq (.set .r 0 (.lit 1)) <|
  -- 114: if(ds4<0)
  .seq (.ite (.lt (.var 3) (.lit 0)) (
    -- 115: ds4a=-1
    .seq (.seti 4 (.lit (-1))) <|
    -- 116: ds4b=-1
    .seti 5 (.lit (-1))) (
    -- 118: if(ds4>0)
    .ite (.lt (.lit 0) (.var 3)) (
      -- 119: ds4a=1
      .seq (.seti 4 (.lit 1)) <|
      -- 120: ds4b=1
      .seti 5 (.lit 1)) (
      -- 123: nCombs*=2
      .seq (.seti 6 (.mul (.var 6) (.lit 2))) <|
      -- 124: combFactor/=sqrt2
      .set .r 0 (.div (.loc .r 0) (.mem .r 6))))) <|
  -- 127: for(int i=0;i<nCombs;i++)
  .seq (.loop 7 0 false (.var 6) 1 (
    -- 128: if(ds4==0)
    .seq (.ite (.eq (.var 3) (.lit 0)) (
      -- 129: if(i==0||i==1)
      .ite (.or (.eq (.var 7) (.lit 0)) (.eq (.var 7) (.lit 1))) (
        -- 130: ds4a=1
        .seq (.seti 4 (.lit 1)) <|
        -- 131: ds4b=-1
        .seti 5 (.lit (-1))) (
        -- 134: ds4a=-1
        .seq (.seti 4 (.lit (-1))) <|
        -- 135: ds4b=1
        .seti 5 (.lit 1))) (
      .skip)) <|
    -- 139: if(ds3>0)
    .ite (.lt (.lit 0) (.var 2)) (
      .skip) (
      -- 144: if(ds3<0)
      .ite (.lt (.var 2) (.lit 0)) (
        .skip) (
        .skip)))) <|
  -- 153: return amplitude
  .ret .c (.loc .c 0)⟩

/-- `ldouble amp2()` (SM/eeAZ.cpp:157-171); variables: r 0 `amp2`, c 0 `M`, i 0 `j1`, i 1 `j2`, i 2 `j3`, i 3 `j4` -/
def m_amp2 : Method := ⟨0, 
  -- 158: ldouble amp2
  .seq (.set .r 0 (.lit 0)) <|
  -- 159: cdouble M
  .seq (.set .c 0 (.ofR (.lit 0))) <|
  -- 162: for(int j1=-1;j1<=1;j1+=2)
  .seq (.loop 0 (-1) true (.lit 1) 2 (
    -- 163: for(int j2=-1;j2<=1;j2+=2)
    .loop 1 (-1) true (.lit 1) 2 (
      -- 164: for(int j3=-2;j3<=2;j3+=2)
      .loop 2 (-2) true (.lit 2) 2 (
        -- 165: for(int j4=-2;j4<=2;j4+=2)
        .loop 3 (-2) true (.lit 2) 2 (
          -- 166: M=amp(j1,j2,j3,j4)
          .seq (.set .c 0 (.call 0 [.var 0, .var 1, .var 2, .var 3])) <|
          -- 167: amp2+=std::pow(std::abs(M),2)
          .set .r 0 (.add (.loc .r 0) (.pow (.abs (.loc .c 0)) 2))))))) <|
  -- 170: return amp2/4.0
  .ret .r (.div (.loc .r 0) (.lit 4))⟩

end eeAZ

/-- `class eeAZ` (SM/eeAZ.cpp, SM/include/eeAZ.h:25-36).  Members:
* ldouble: 0 `e`, 1 `me`, 2 `MW`, 3 `SW`, 4 `CW`, 5 `MZ`, 6 `sqrt2`, 7 `preTU`, 8 `preh`, 9 `gL`, 10 `gR`
* cdouble: 0 `pDenT`, 1 `pDenU`
* propagator: 0 `prope`
* sproduct: 0 `s12s`, 1 `a12a`, 2 `s23s`, 3 `a23a`, 4 `s13s`, 5 `a13a`, 6 `s34s`, 7 `a34a`, 8 `s24s`, 9 `a24a`, 10 `s14s`, 11 `a14a`, 12 `s3123s` -/
def eeAZ : Proc where
  name := "eeAZ"
  nPar := 4
  ctor := eeAZ.ctor
  setMasses := eeAZ.setMasses
  massPar := [1, 2]
  setMomenta := eeAZ.setMomenta
  methods := [eeAZ.m_amp2, eeAZ.m_amp]
  amp2 := 1
  others := []

namespace eeAh

/-- constructor (SM/eeAh.cpp:32-52); parameters: 0 `echarge`, 1 `masse`, 2 `massh`, 3 `vev` -/
def ctor : List SInstr := [
  -- 32: e(echarge)
  .set .r 0 (.loc .r 0),
  -- 32: me(masse)
  .set .r 1 (.loc .r 1),
  -- 32: mh(massh)
  .set .r 2 (.loc .r 2),
  -- 32: v(vev)
  .set .r 3 (.loc .r 3),
  -- 32: prop(masse,0)
  .prop 0 (.loc .r 1) (.lit 0),
  -- 35: sqrt2=std::sqrt(two)
  .set .r 4 (.sqrt (.lit 2)),
  -- 36: p1=particle(me)
  .part 0 (.mem .r 1),
  -- 37: p2=particle(me)
  .part 1 (.mem .r 1),
  -- 38: p3=particle(0)
  .part 2 (.lit 0),
  -- 39: p4=particle(mh)
  .part 3 (.mem .r 2),
  -- 40: s13s=sproduct(SQUARE,&p1,&p3)
  .sprod 0 ⟨false, 0, true, [], 2, true⟩,
  -- 41: a13a=sproduct(ANGLE,&p1,&p3)
  .sprod 1 ⟨true, 0, true, [], 2, true⟩,
  -- 42: s23s=sproduct(SQUARE,&p2,&p3)
  .sprod 2 ⟨false, 1, true, [], 2, true⟩,
  -- 43: a23a=sproduct(ANGLE,&p2,&p3)
  .sprod 3 ⟨true, 1, true, [], 2, true⟩,
  -- 44: s12s=sproduct(SQUARE,&p1,&p2)
  .sprod 4 ⟨false, 0, true, [], 1, true⟩,
  -- 45: a12a=sproduct(ANGLE,&p1,&p2)
  .sprod 5 ⟨true, 0, true, [], 1, true⟩,
  -- 46: s342a=sproduct(SQUARE,&p3,&p4,&p2)
  .sprod 6 ⟨false, 2, true, [3], 1, true⟩,
  -- 47: a342s=sproduct(ANGLE,&p3,&p4,&p2)
  .sprod 7 ⟨true, 2, true, [3], 1, true⟩,
  -- 48: s341a=sproduct(SQUARE,&p3,&p4,&p1)
  .sprod 8 ⟨false, 2, true, [3], 0, true⟩,
  -- 49: a341s=sproduct(ANGLE,&p3,&p4,&p1)
  .sprod 9 ⟨true, 2, true, [3], 0, true⟩,
  -- 50: s3243s=sproduct(SQUARE,&p3,&p2,&p4,&p3)
  .sprod 10 ⟨false, 2, true, [1, 3], 2, true⟩,
  -- 51: a3243a=sproduct(ANGLE,&p3,&p2,&p4,&p3)
  .sprod 11 ⟨true, 2, true, [1, 3], 2, true⟩]

/-- `set_masses` (SM/eeAh.cpp:53-60); parameters: 0 `masse`, 1 `massh` -/
def setMasses : List SInstr := [
  -- 54: me=masse
  .set .r 1 (.loc .r 0),
  -- 55: mh=massh
  .set .r 2 (.loc .r 1),
  -- 56: p1.set_mass(me)
  .setMass 0 (.mem .r 1),
  -- 57: p2.set_mass(me)
  .setMass 1 (.mem .r 1),
  -- 58: p4.set_mass(mh)
  .setMass 3 (.mem .r 2),
  -- 59: prop.set_mass(me)
  .propMass 0 (.mem .r 1)]

/-- `set_momenta` (SM/eeAh.cpp:64-90); parameters: 0 `mom1`, 1 `mom2`, 2 `mom3`, 3 `mom4` -/
def setMomenta : List SInstr := [
  -- 66: p1.set_momentum(mom1)
  .setMom 0 0,
  -- 67: p2.set_momentum(mom2)
  .setMom 1 1,
  -- 68: p3.set_momentum(mom3)
  .setMom 2 2,
  -- 69: p4.set_momentum(mom4)
  .setMom 3 3,
  -- 70: s13s.update()
  .update 0,
  -- 71: a13a.update()
  .update 1,
  -- 72: s23s.update()
  .update 2,
  -- 73: a23a.update()
  .update 3,
  -- 74: s12s.update()
  .update 4,
  -- 75: a12a.update()
  .update 5,
  -- 76: s342a.update()
  .update 6,
  -- 77: a342s.update()
  .update 7,
  -- 78: s341a.update()
  .update 8,
  -- 79: a341s.update()
  .update 9,
  -- 80: s3243s.update()
  .update 10,
  -- 81: a3243a.update()
  .update 11,
  -- 88: pDenT=prop.denominator(propTP)
  .den .c 0 0 (.sub 0 2),
  -- 89: pDenU=prop.denominator(propUP)
  .den .c 1 0 (.sub 0 3)]

/-- `set_v` (SM/eeAh.cpp:61-63); parameters: 0 `vev` -/
def setV : List SInstr := [
  -- 62: v=vev
  .set .r 3 (.loc .r 0)]

/-- `cdouble amp(ds1,ds2,ds3)` (SM/eeAh.cpp:95-108); variables: i 0 `ds1`, i 1 `ds2`, i 2 `ds3` -/
def m_amp : Method := ⟨3, 
  -- 99: if(ds3>0)
  .seq (.ite (.lt (.lit 0) (.var 2)) (
    -- 101: return sqrt2*e*me/v*(-mh*mh*s13s.v(ds1)*s23s.v(ds2)+me*s13s.v(ds1)*s342a.v(ds2)+me*s23s.v(ds2)*s341a.v(ds1)+a12a.v(ds1,ds2)*s3243s.v())/pDenT/pDenU
    .ret .c (.div (.div (.smul (.div (.mul (.mul (.mem .r 4) (.mem .r 0)) (.mem .r 1)) (.mem .r 3)) (.add (.add (.add (.mul (.smul (.mul (.neg (.mem .r 2)) (.mem .r 2)) (.v 0 [.var 0])) (.v 2 [.var 1])) (.mul (.smul (.mem .r 1) (.v 0 [.var 0])) (.v 6 [.var 1]))) (.mul (.smul (.mem .r 1) (.v 2 [.var 1])) (.v 8 [.var 0]))) (.mul (.v 5 [.var 0, .var 1]) (.v 10 [])))) (.mem .c 0)) (.mem .c 1))) (
    -- 103: if(ds3<0)
    .ite (.lt (.var 2) (.lit 0)) (
      -- 105: return sqrt2*e*me/v*(-mh*mh*a13a.v(ds1)*a23a.v(ds2)+me*a13a.v(ds1)*a342s.v(ds2)+me*a23a.v(ds2)*a341s.v(ds1)+s12s.v(ds1,ds2)*a3243a.v())/pDenT/pDenU
      .ret .c (.div (.div (.smul (.div (.mul (.mul (.mem .r 4) (.mem .r 0)) (.mem .r 1)) (.mem .r 3)) (.add (.add (.add (.mul (.smul (.mul (.neg (.mem .r 2)) (.mem .r 2)) (.v 1 [.var 0])) (.v 3 [.var 1])) (.mul (.smul (.mem .r 1) (.v 1 [.var 0])) (.v 7 [.var 1]))) (.mul (.smul (.mem .r 1) (.v 3 [.var 1])) (.v 9 [.var 0]))) (.mul (.v 4 [.var 0, .var 1]) (.v 11 [])))) (.mem .c 0)) (.mem .c 1))) (
      .skip))) <|
  -- 107: return cdouble(0,0)
  .ret .c (.ofR (.lit 0))⟩

/-- `ldouble amp2()` (SM/eeAh.cpp:111-124); variables: r 0 `amp2`, c 0 `M`, i 0 `j1`, i 1 `j2`, i 2 `j3` -/
def m_amp2 : Method := ⟨0, 
  -- 112: ldouble amp2
  .seq (.set .r 0 (.lit 0)) <|
  -- 113: cdouble M
  .seq (.set .c 0 (.ofR (.lit 0))) <|
  -- 116: for(int j1=-1;j1<=1;j1+=2)
  .seq (.loop 0 (-1) true (.lit 1) 2 (
    -- 117: for(int j2=-1;j2<=1;j2+=2)
    .loop 1 (-1) true (.lit 1) 2 (
      -- 118: for(int j3=-2;j3<=2;j3+=4)
      .loop 2 (-2) true (.lit 2) 4 (
        -- 119: M=amp(j1,j2,j3)
        .seq (.set .c 0 (.call 0 [.var 0, .var 1, .var 2])) <|
        -- 120: amp2+=std::pow(std::abs(M),2)
        .set .r 0 (.add (.loc .r 0) (.pow (.abs (.loc .c 0)) 2)))))) <|
  -- 123: return amp2/4.0
  .ret .r (.div (.loc .r 0) (.lit 4))⟩

end eeAh

/-- `class eeAh` (SM/eeAh.cpp, SM/include/eeAh.h:25-33).  Members:
* ldouble: 0 `e`, 1 `me`, 2 `mh`, 3 `v`, 4 `sqrt2`
* cdouble: 0 `pDenT`, 1 `pDenU`
* propagator: 0 `prop`
* sproduct: 0 `s13s`, 1 `a13a`, 2 `s23s`, 3 `a23a`, 4 `s12s`, 5 `a12a`, 6 `s342a`, 7 `a342s`, 8 `s341a`, 9 `a341s`, 10 `s3243s`, 11 `a3243a` -/
def eeAh : Proc where
  name := "eeAh"
  nPar := 4
  ctor := eeAh.ctor
  setMasses := eeAh.setMasses
  massPar := [1, 2]
  setMomenta := eeAh.setMomenta
  methods := [eeAh.m_amp2, eeAh.m_amp]
  amp2 := 1
  others := []

namespace eeWW

/-- constructor (SM/eeWW.cpp:32-66); parameters: 0 `echarge`, 1 `masse`, 2 `massh`, 3 `widthh`, 4 `massW`, 5 `sinW`, 6 `widthZ` -/
def ctor : List SInstr := [
  -- 32: e(echarge)
  .set .r 0 (.loc .r 0),
  -- 32: me(masse)
  .set .r 1 (.loc .r 1),
  -- 32: mh(massh)
  .set .r 2 (.loc .r 2),
  -- 32: wh(widthh)
  .set .r 3 (.loc .r 3),
  -- 32: MW(massW)
  .set .r 4 (.loc .r 4),
  -- 32: SW(sinW)
  .set .r 5 (.loc .r 5),
  -- 32: CW(std::sqrt(1.0-sinW*sinW))
  .set .r 6 (.sqrt (.sub (.lit 1) (.mul (.loc .r 5) (.loc .r 5)))),
  -- 32: MZ(massW/CW)
  .set .r 7 (.div (.loc .r 4) (.mem .r 6)),
  -- 32: WZ(widthZ)
  .set .r 8 (.loc .r 6),
  -- 32: propne(0,0)
  .prop 1 (.lit 0) (.lit 0),
  -- 32: propA(0,0)
  .prop 3 (.lit 0) (.lit 0),
  -- 35: sqrt2=std::sqrt(two)
  .set .r 9 (.sqrt (.lit 2)),
  -- 36: MZ=MW/CW
  .set .r 7 (.div (.mem .r 4) (.mem .r 6)),
  -- 37: propZ=propagator(MZ,WZ)
  .prop 2 (.mem .r 7) (.mem .r 8),
  -- 38: proph=propagator(mh,wh)
  .prop 0 (.mem .r 2) (.mem .r 3),
  -- 39: p1=particle(me)
  .part 0 (.mem .r 1),
  -- 40: p2=particle(me)
  .part 1 (.mem .r 1),
  -- 41: p3=particle(MW)
  .part 2 (.mem .r 4),
  -- 42: p4=particle(MW)
  .part 3 (.mem .r 4),
  -- 44: s12s=sproduct(SQUARE,&p1,&p2)
  .sprod 0 ⟨false, 0, true, [], 1, true⟩,
  -- 45: a12a=sproduct(ANGLE,&p1,&p2)
  .sprod 1 ⟨true, 0, true, [], 1, true⟩,
  -- 46: s23s=sproduct(SQUARE,&p2,&p3)
  .sprod 2 ⟨false, 1, true, [], 2, true⟩,
  -- 47: a23a=sproduct(ANGLE,&p2,&p3)
  .sprod 3 ⟨true, 1, true, [], 2, true⟩,
  -- 48: s13s=sproduct(SQUARE,&p1,&p3)
  .sprod 4 ⟨false, 0, true, [], 2, true⟩,
  -- 49: a13a=sproduct(ANGLE,&p1,&p3)
  .sprod 5 ⟨true, 0, true, [], 2, true⟩,
  -- 50: s34s=sproduct(SQUARE,&p3,&p4)
  .sprod 6 ⟨false, 2, true, [], 3, true⟩,
  -- 51: a34a=sproduct(ANGLE,&p3,&p4)
  .sprod 7 ⟨true, 2, true, [], 3, true⟩,
  -- 52: s24s=sproduct(SQUARE,&p2,&p4)
  .sprod 8 ⟨false, 1, true, [], 3, true⟩,
  -- 53: a24a=sproduct(ANGLE,&p2,&p4)
  .sprod 9 ⟨true, 1, true, [], 3, true⟩,
  -- 54: s14s=sproduct(SQUARE,&p1,&p4)
  .sprod 10 ⟨false, 0, true, [], 3, true⟩,
  -- 55: a14a=sproduct(ANGLE,&p1,&p4)
  .sprod 11 ⟨true, 0, true, [], 3, true⟩,
  -- 57: s413a=sproduct(SQUARE,&p4,&p1,&p3)
  .sprod 12 ⟨false, 3, true, [0], 2, true⟩,
  -- 58: s231a=sproduct(SQUARE,&p2,&p3,&p1)
  .sprod 13 ⟨false, 1, true, [2], 0, true⟩,
  -- 59: s132a=sproduct(SQUARE,&p1,&p3,&p2)
  .sprod 14 ⟨false, 0, true, [2], 1, true⟩,
  -- 61: prene=e*e/(MW*MW*SW*SW)
  .set .r 10 (.div (.mul (.mem .r 0) (.mem .r 0)) (.mul (.mul (.mul (.mem .r 4) (.mem .r 4)) (.mem .r 5)) (.mem .r 5))),
  -- 62: preh=e*e*me/(2.0*MW*MW*SW*SW)
  .set .r 11 (.div (.mul (.mul (.mem .r 0) (.mem .r 0)) (.mem .r 1)) (.mul (.mul (.mul (.mul (.lit 2) (.mem .r 4)) (.mem .r 4)) (.mem .r 5)) (.mem .r 5))),
  -- 63: preZ=e*e/(2.0*MW*MW*SW*SW)
  .set .r 12 (.div (.mul (.mem .r 0) (.mem .r 0)) (.mul (.mul (.mul (.mul (.lit 2) (.mem .r 4)) (.mem .r 4)) (.mem .r 5)) (.mem .r 5))),
  -- 64: gL=2.0*SW*SW-1.0
  .set .r 13 (.sub (.mul (.mul (.lit 2) (.mem .r 5)) (.mem .r 5)) (.lit 1)),
  -- 65: gR=2.0*SW*SW
  .set .r 14 (.mul (.mul (.lit 2) (.mem .r 5)) (.mem .r 5))]

/-- `set_masses` (SM/eeWW.cpp:67-82); parameters: 0 `masse`, 1 `massh`, 2 `massW` -/
def setMasses : List SInstr := [
  -- 68: me=masse
  .set .r 1 (.loc .r 0),
  -- 69: mh=massh
  .set .r 2 (.loc .r 1),
  -- 70: MW=massW
  .set .r 4 (.loc .r 2),
  -- 71: MZ=MW/CW
  .set .r 7 (.div (.mem .r 4) (.mem .r 6)),
  -- 72: p1.set_mass(me)
  .setMass 0 (.mem .r 1),
  -- 73: p2.set_mass(me)
  .setMass 1 (.mem .r 1),
  -- 74: p3.set_mass(MW)
  .setMass 2 (.mem .r 4),
  -- 75: p4.set_mass(MW)
  .setMass 3 (.mem .r 4),
  -- 76: proph.set_mass(mh)
  .propMass 0 (.mem .r 2),
  -- 77: propZ.set_mass(MZ)
  .propMass 2 (.mem .r 7),
  -- 79: prene=e*e/(MW*MW*SW*SW)
  .set .r 10 (.div (.mul (.mem .r 0) (.mem .r 0)) (.mul (.mul (.mul (.mem .r 4) (.mem .r 4)) (.mem .r 5)) (.mem .r 5))),
  -- 80: preh=e*e*me/(2.0*MW*MW*SW*SW)
  .set .r 11 (.div (.mul (.mul (.mem .r 0) (.mem .r 0)) (.mem .r 1)) (.mul (.mul (.mul (.mul (.lit 2) (.mem .r 4)) (.mem .r 4)) (.mem .r 5)) (.mem .r 5))),
  -- 81: preZ=e*e/(2.0*MW*MW*SW*SW)
  .set .r 12 (.div (.mul (.mem .r 0) (.mem .r 0)) (.mul (.mul (.mul (.mul (.lit 2) (.mem .r 4)) (.mem .r 4)) (.mem .r 5)) (.mem .r 5)))]

/-- `set_momenta` (SM/eeWW.cpp:83-118); parameters: 0 `mom1`, 1 `mom2`, 2 `mom3`, 3 `mom4` -/
def setMomenta : List SInstr := [
  -- 85: p1.set_momentum(mom1)
  .setMom 0 0,
  -- 86: p2.set_momentum(mom2)
  .setMom 1 1,
  -- 87: p3.set_momentum(mom3)
  .setMom 2 2,
  -- 88: p4.set_momentum(mom4)
  .setMom 3 3,
  -- 90: s12s.update()
  .update 0,
  -- 91: a12a.update()
  .update 1,
  -- 92: s23s.update()
  .update 2,
  -- 93: a23a.update()
  .update 3,
  -- 94: s13s.update()
  .update 4,
  -- 95: a13a.update()
  .update 5,
  -- 96: s34s.update()
  .update 6,
  -- 97: a34a.update()
  .update 7,
  -- 98: s24s.update()
  .update 8,
  -- 99: a24a.update()
  .update 9,
  -- 100: s14s.update()
  .update 10,
  -- 101: a14a.update()
  .update 11,
  -- 103: s413a.update()
  .update 12,
  -- 104: s231a.update()
  .update 13,
  -- 105: s132a.update()
  .update 14,
  -- 113: pDenhS=proph.denominator(propSP)
  .den .c 0 0 (.add 0 1),
  -- 114: pDenneT=propne.denominator(propTP)
  .den .c 1 1 (.sub 0 2),
  -- 115: pDenneU=propne.denominator(propUP)
  .den .c 2 1 (.sub 0 3),
  -- 116: pDenZS=propZ.denominator(propSP)
  .den .c 3 2 (.add 0 1),
  -- 117: pDenAS=propA.denominator(propSP)
  .den .c 4 3 (.add 0 1)]

/-- `cdouble amp(ds1,ds2,ds3,ds4)` (SM/eeWW.cpp:123-187); variables: i 0 `ds1`, i 1 `ds2`, i 2 `ds3`, i 3 `ds4`, c 0 `amplitude`, i 4 `ds3a`, i 5 `ds3b`, i 6 `ds4a`, i 7 `ds4b`, i 8 `nCombs`, r 0 `normFactor`, i 9 `i` -/
def m_amp : Method := ⟨4, 
  -- 124: cdouble amplitude
  .seq (.set .c 0 (.ofR (.lit 0))) <|
  -- 129: int nCombs
  .seq (.seti 8 (.loops [2, 3])) <|
  -- 130: ldouble normFactor
  .seq (.set .r 0 (.norm [2, 3])) <|
  -- 132: for(int i=0;i<nCombs;i++)
  .seq (.loop 9 0 false (.var 8) 1 (
    -- 133: get_spinor_spins(ds3,ds3a,ds3b,ds4,ds4a,ds4b,i)
    .seq (.spins [(2, 4, 5), (3, 6, 7)] (.var 9)) <|
    -- 141: amplitude+=normFactor*preh*s34s.v(ds3a,ds4a)*a34a.v(ds3b,ds4b)*(s12s.v(ds1,ds2)+a12a.v(ds1,ds2))/pDenhS
    .seq (.set .c 0 (.add (.loc .c 0) (.div (.mul (.mul (.smul (.mul (.loc .r 0) (.mem .r 11)) (.v 6 [.var 4, .var 6])) (.v 7 [.var 5, .var 7])) (.add (.v 0 [.var 0, .var 1]) (.v 1 [.var 0, .var 1]))) (.mem .c 0)))) <|
    -- 149: amplitude+=-normFactor*prene*s23s.v(ds2,ds3a)*a14a.v(ds1,ds4a)*(MW*a34a.v(ds3b,ds4b)+s413a.v(ds4b,ds3b))/pDenneU
    .seq (.set .c 0 (.add (.loc .c 0) (.div (.mul (.mul (.smul (.mul (.neg (.loc .r 0)) (.mem .r 10)) (.v 2 [.var 1, .var 4])) (.v 11 [.var 0, .var 6])) (.add (.smul (.mem .r 4) (.v 7 [.var 5, .var 7])) (.v 12 [.var 7, .var 5]))) (.mem .c 2)))) <|
    -- 155: amplitude+=-normFactor*e*e*two/MW*(a13a.v(ds1,ds3a)*s24s.v(ds2,ds4a)+s13s.v(ds1,ds3a)*a24a.v(ds2,ds4a)+a14a.v(ds1,ds4a)*s23s.v(ds2,ds3a)+s14s.v(ds1,ds4a)*a23a.v(ds2,ds3a))*(s34s.v(ds3b,ds4b)+a34a.v(ds3b,ds4b))/pDenAS-normFactor*e*e*two/MW/MW*(s34s.v(ds3a,ds4a)*a34a.v(ds3b,ds4b)*(s231a.v(ds2,ds1)+s132a.v(ds1,ds2)))/pDenAS
    .seq (.set .c 0 (.add (.loc .c 0) (.sub (.div (.mul (.smul (.div (.mul (.mul (.mul (.neg (.loc .r 0)) (.mem .r 0)) (.mem .r 0)) (.lit 2)) (.mem .r 4)) (.add (.add (.add (.mul (.v 5 [.var 0, .var 4]) (.v 8 [.var 1, .var 6])) (.mul (.v 4 [.var 0, .var 4]) (.v 9 [.var 1, .var 6]))) (.mul (.v 11 [.var 0, .var 6]) (.v 2 [.var 1, .var 4]))) (.mul (.v 10 [.var 0, .var 6]) (.v 3 [.var 1, .var 4])))) (.add (.v 6 [.var 5, .var 7]) (.v 7 [.var 5, .var 7]))) (.mem .c 4)) (.div (.smul (.div (.div (.mul (.mul (.mul (.loc .r 0) (.mem .r 0)) (.mem .r 0)) (.lit 2)) (.mem .r 4)) (.mem .r 4)) (.mul (.mul (.v 6 [.var 4, .var 6]) (.v 7 [.var 5, .var 7])) (.add (.v 13 [.var 1, .var 0]) (.v 14 [.var 0, .var 1])))) (.mem .c 4))))) <|
    -- 178: amplitude+=-normFactor*preZ*((gL-gR)*me*s34s.v(ds3a,ds4a)*a34a.v(ds3b,ds4b)*(s12s.v(ds1,ds2)-a12a.v(ds1,ds2))-two*s34s.v(ds3a,ds4a)*a34a.v(ds3b,ds4b)*(gL*s231a.v(ds2,ds1)+gR*s132a.v(ds1,ds2))-two*MW*(s34s.v(ds3a,ds4a)+a34a.v(ds3a,ds4a))*(gL*(s23s.v(ds2,ds3b)*a14a.v(ds1,ds4b)+s24s.v(ds2,ds4b)*a13a.v(ds1,ds3b))+gR*(s13s.v(ds1,ds3b)*a24a.v(ds2,ds4b)+s14s.v(ds1,ds4b)*a23a.v(ds2,ds3b))))/pDenZS
    .set .c 0 (.add (.loc .c 0) (.div (.smul (.mul (.neg (.loc .r 0)) (.mem .r 12)) (.sub (.sub (.mul (.mul (.smul (.mul (.sub (.mem .r 13) (.mem .r 14)) (.mem .r 1)) (.v 6 [.var 4, .var 6])) (.v 7 [.var 5, .var 7])) (.sub (.v 0 [.var 0, .var 1]) (.v 1 [.var 0, .var 1]))) (.mul (.mul (.smul (.lit 2) (.v 6 [.var 4, .var 6])) (.v 7 [.var 5, .var 7])) (.add (.smul (.mem .r 13) (.v 13 [.var 1, .var 0])) (.smul (.mem .r 14) (.v 14 [.var 0, .var 1]))))) (.mul (.smul (.mul (.lit 2) (.mem .r 4)) (.add (.v 6 [.var 4, .var 6]) (.v 7 [.var 4, .var 6]))) (.add (.smul (.mem .r 13) (.add (.mul (.v 2 [.var 1, .var 5]) (.v 11 [.var 0, .var 7])) (.mul (.v 8 [.var 1, .var 7]) (.v 5 [.var 0, .var 5])))) (.smul (.mem .r 14) (.add (.mul (.v 4 [.var 0, .var 5]) (.v 9 [.var 1, .var 7])) (.mul (.v 10 [.var 0, .var 7]) (.v 3 [.var 1, .var 5])))))))) (.mem .c 3))))) <|
  -- 186: return amplitude
  .ret .c (.loc .c 0)⟩

/-- `ldouble amp2()` (SM/eeWW.cpp:190-204); variables: r 0 `amp2`, c 0 `M`, i 0 `j1`, i 1 `j2`, i 2 `j3`, i 3 `j4` -/
def m_amp2 : Method := ⟨0, 
  -- 191: ldouble amp2
  .seq (.set .r 0 (.lit 0)) <|
  -- 192: cdouble M
  .seq (.set .c 0 (.ofR (.lit 0))) <|
  -- 195: for(int j1=-1;j1<=1;j1+=2)
  .seq (.loop 0 (-1) true (.lit 1) 2 (
    -- 196: for(int j2=-1;j2<=1;j2+=2)
    .loop 1 (-1) true (.lit 1) 2 (
      -- 197: for(int j3=-2;j3<=2;j3+=2)
      .loop 2 (-2) true (.lit 2) 2 (
        -- 198: for(int j4=-2;j4<=2;j4+=2)
        .loop 3 (-2) true (.lit 2) 2 (
          -- 199: M=amp(j1,j2,j3,j4)
          .seq (.set .c 0 (.call 0 [.var 0, .var 1, .var 2, .var 3])) <|
          -- 200: amp2+=std::pow(std::abs(M),2)
          .set .r 0 (.add (.loc .r 0) (.pow (.abs (.loc .c 0)) 2))))))) <|
  -- 203: return amp2/4.0
  .ret .r (.div (.loc .r 0) (.lit 4))⟩

end eeWW

/-- `class eeWW` (SM/eeWW.cpp, SM/include/eeWW.h:25-36).  Members:
* ldouble: 0 `e`, 1 `me`, 2 `mh`, 3 `wh`, 4 `MW`, 5 `SW`, 6 `CW`, 7 `MZ`, 8 `WZ`, 9 `sqrt2`, 10 `prene`, 11 `preh`, 12 `preZ`, 13 `gL`, 14 `gR`
* cdouble: 0 `pDenhS`, 1 `pDenneT`, 2 `pDenneU`, 3 `pDenZS`, 4 `pDenAS`
* propagator: 0 `proph`, 1 `propne`, 2 `propZ`, 3 `propA`
* sproduct: 0 `s12s`, 1 `a12a`, 2 `s23s`, 3 `a23a`, 4 `s13s`, 5 `a13a`, 6 `s34s`, 7 `a34a`, 8 `s24s`, 9 `a24a`, 10 `s14s`, 11 `a14a`, 12 `s413a`, 13 `s231a`, 14 `s132a` -/
def eeWW : Proc where
  name := "eeWW"
  nPar := 7
  ctor := eeWW.ctor
  setMasses := eeWW.setMasses
  massPar := [1, 2, 4]
  setMomenta := eeWW.setMomenta
  methods := [eeWW.m_amp2, eeWW.m_amp]
  amp2 := 1
  others := []

namespace eeZZ

/-- constructor (SM/eeZZ.cpp:32-63); parameters: 0 `echarge`, 1 `masse`, 2 `massh`, 3 `widthh`, 4 `massW`, 5 `sinW`, 6 `widthZ` -/
def ctor : List SInstr := [
  -- 32: e(echarge)
  .set .r 0 (.loc .r 0),
  -- 32: me(masse)
  .set .r 1 (.loc .r 1),
  -- 32: mh(massh)
  .set .r 2 (.loc .r 2),
  -- 32: wh(widthh)
  .set .r 3 (.loc .r 3),
  -- 32: MW(massW)
  .set .r 4 (.loc .r 4),
  -- 32: SW(sinW)
  .set .r 5 (.loc .r 5),
  -- 32: CW(std::sqrt(1.0-sinW*sinW))
  .set .r 6 (.sqrt (.sub (.lit 1) (.mul (.loc .r 5) (.loc .r 5)))),
  -- 32: MZ(massW/CW)
  .set .r 7 (.div (.loc .r 4) (.mem .r 6)),
  -- 32: WZ(widthZ)
  .set .r 8 (.loc .r 6),
  -- 32: prope(masse,0)
  .prop 1 (.loc .r 1) (.lit 0),
  -- 35: sqrt2=std::sqrt(two)
  .set .r 9 (.sqrt (.lit 2)),
  -- 36: MZ=MW/CW
  .set .r 7 (.div (.mem .r 4) (.mem .r 6)),
  -- 37: proph=propagator(mh,wh)
  .prop 0 (.mem .r 2) (.mem .r 3),
  -- 38: p1=particle(me)
  .part 0 (.mem .r 1),
  -- 39: p2=particle(me)
  .part 1 (.mem .r 1),
  -- 40: p3=particle(MZ)
  .part 2 (.mem .r 7),
  -- 41: p4=particle(MZ)
  .part 3 (.mem .r 7),
  -- 43: s12s=sproduct(SQUARE,&p1,&p2)
  .sprod 0 ⟨false, 0, true, [], 1, true⟩,
  -- 44: a12a=sproduct(ANGLE,&p1,&p2)
  .sprod 1 ⟨true, 0, true, [], 1, true⟩,
  -- 45: s23s=sproduct(SQUARE,&p2,&p3)
  .sprod 2 ⟨false, 1, true, [], 2, true⟩,
  -- 46: a23a=sproduct(ANGLE,&p2,&p3)
  .sprod 3 ⟨true, 1, true, [], 2, true⟩,
  -- 47: s13s=sproduct(SQUARE,&p1,&p3)
  .sprod 4 ⟨false, 0, true, [], 2, true⟩,
  -- 48: a13a=sproduct(ANGLE,&p1,&p3)
  .sprod 5 ⟨true, 0, true, [], 2, true⟩,
  -- 49: s34s=sproduct(SQUARE,&p3,&p4)
  .sprod 6 ⟨false, 2, true, [], 3, true⟩,
  -- 50: a34a=sproduct(ANGLE,&p3,&p4)
  .sprod 7 ⟨true, 2, true, [], 3, true⟩,
  -- 51: s24s=sproduct(SQUARE,&p2,&p4)
  .sprod 8 ⟨false, 1, true, [], 3, true⟩,
  -- 52: a24a=sproduct(ANGLE,&p2,&p4)
  .sprod 9 ⟨true, 1, true, [], 3, true⟩,
  -- 53: s14s=sproduct(SQUARE,&p1,&p4)
  .sprod 10 ⟨false, 0, true, [], 3, true⟩,
  -- 54: a14a=sproduct(ANGLE,&p1,&p4)
  .sprod 11 ⟨true, 0, true, [], 3, true⟩,
  -- 56: s314a=sproduct(SQUARE,&p3,&p1,&p4)
  .sprod 12 ⟨false, 2, true, [0], 3, true⟩,
  -- 57: s413a=sproduct(SQUARE,&p4,&p1,&p3)
  .sprod 13 ⟨false, 3, true, [0], 2, true⟩,
  -- 59: preTU=e*e/(2.0*MW*MW*SW*SW)
  .set .r 10 (.div (.mul (.mem .r 0) (.mem .r 0)) (.mul (.mul (.mul (.mul (.lit 2) (.mem .r 4)) (.mem .r 4)) (.mem .r 5)) (.mem .r 5))),
  -- 60: gL=2.0*SW*SW-1.0
  .set .r 12 (.sub (.mul (.mul (.lit 2) (.mem .r 5)) (.mem .r 5)) (.lit 1)),
  -- 61: gR=2.0*SW*SW
  .set .r 13 (.mul (.mul (.lit 2) (.mem .r 5)) (.mem .r 5)),
  -- 62: preh=e*e*me/(2.0*MW*MW*SW*SW)
  .set .r 11 (.div (.mul (.mul (.mem .r 0) (.mem .r 0)) (.mem .r 1)) (.mul (.mul (.mul (.mul (.lit 2) (.mem .r 4)) (.mem .r 4)) (.mem .r 5)) (.mem .r 5)))]

/-- `set_masses` (SM/eeZZ.cpp:64-78); parameters: 0 `masse`, 1 `massh`, 2 `massW` -/
def setMasses : List SInstr := [
  -- 65: me=masse
  .set .r 1 (.loc .r 0),
  -- 66: mh=massh
  .set .r 2 (.loc .r 1),
  -- 67: MW=massW
  .set .r 4 (.loc .r 2),
  -- 68: MZ=MW/CW
  .set .r 7 (.div (.mem .r 4) (.mem .r 6)),
  -- 69: p1.set_mass(me)
  .setMass 0 (.mem .r 1),
  -- 70: p2.set_mass(me)
  .setMass 1 (.mem .r 1),
  -- 71: p3.set_mass(MZ)
  .setMass 2 (.mem .r 7),
  -- 72: p4.set_mass(MZ)
  .setMass 3 (.mem .r 7),
  -- 73: prope.set_mass(me)
  .propMass 1 (.mem .r 1),
  -- 74: proph.set_mass(mh)
  .propMass 0 (.mem .r 2),
  -- 76: preTU=e*e/(2.0*MW*MW*SW*SW)
  .set .r 10 (.div (.mul (.mem .r 0) (.mem .r 0)) (.mul (.mul (.mul (.mul (.lit 2) (.mem .r 4)) (.mem .r 4)) (.mem .r 5)) (.mem .r 5))),
  -- 77: preh=e*e*me/(2.0*MW*MW*SW*SW)
  .set .r 11 (.div (.mul (.mul (.mem .r 0) (.mem .r 0)) (.mem .r 1)) (.mul (.mul (.mul (.mul (.lit 2) (.mem .r 4)) (.mem .r 4)) (.mem .r 5)) (.mem .r 5)))]

/-- `set_momenta` (SM/eeZZ.cpp:79-111); parameters: 0 `mom1`, 1 `mom2`, 2 `mom3`, 3 `mom4` -/
def setMomenta : List SInstr := [
  -- 81: p1.set_momentum(mom1)
  .setMom 0 0,
  -- 82: p2.set_momentum(mom2)
  .setMom 1 1,
  -- 83: p3.set_momentum(mom3)
  .setMom 2 2,
  -- 84: p4.set_momentum(mom4)
  .setMom 3 3,
  -- 86: s12s.update()
  .update 0,
  -- 87: a12a.update()
  .update 1,
  -- 88: s23s.update()
  .update 2,
  -- 89: a23a.update()
  .update 3,
  -- 90: s13s.update()
  .update 4,
  -- 91: a13a.update()
  .update 5,
  -- 92: s34s.update()
  .update 6,
  -- 93: a34a.update()
  .update 7,
  -- 94: s24s.update()
  .update 8,
  -- 95: a24a.update()
  .update 9,
  -- 96: s14s.update()
  .update 10,
  -- 97: a14a.update()
  .update 11,
  -- 99: s314a.update()
  .update 12,
  -- 100: s413a.update()
  .update 13,
  -- 108: pDenS=proph.denominator(propSP)
  .den .c 0 0 (.add 0 1),
  -- 109: pDenT=prope.denominator(propTP)
  .den .c 1 1 (.sub 0 2),
  -- 110: pDenU=prope.denominator(propUP)
  .den .c 2 1 (.sub 0 3)]

/-- `cdouble amp(ds1,ds2,ds3,ds4)` (SM/eeZZ.cpp:116-166); variables: i 0 `ds1`, i 1 `ds2`, i 2 `ds3`, i 3 `ds4`, c 0 `amplitude`, i 4 `ds3a`, i 5 `ds3b`, i 6 `ds4a`, i 7 `ds4b`, i 8 `nCombs`, r 0 `normFactor`, i 9 `i` -/
def m_amp : Method := ⟨4, 
  -- 117: cdouble amplitude
  .seq (.set .c 0 (.ofR (.lit 0))) <|
  -- 121: int nCombs
  .seq (.seti 8 (.loops [2, 3])) <|
  -- 122: ldouble normFactor
  .seq (.set .r 0 (.norm [2, 3])) <|
  -- 124: for(int i=0;i<nCombs;i++)
  .seq (.loop 9 0 false (.var 8) 1 (
    -- 125: get_spinor_spins(ds3,ds3a,ds3b,ds4,ds4a,ds4b,i)
    .seq (.spins [(2, 4, 5), (3, 6, 7)] (.var 9)) <|
    -- 133: amplitude+=normFactor*preh*s34s.v(ds3a,ds4a)*a34a.v(ds3b,ds4b)*(s12s.v(ds1,ds2)+a12a.v(ds1,ds2))/pDenS
    .seq (.set .c 0 (.add (.loc .c 0) (.div (.mul (.mul (.smul (.mul (.loc .r 0) (.mem .r 11)) (.v 6 [.var 4, .var 6])) (.v 7 [.var 5, .var 7])) (.add (.v 0 [.var 0, .var 1]) (.v 1 [.var 0, .var 1]))) (.mem .c 0)))) <|
    -- 145: amplitude+=normFactor*preTU*gL*gL*s24s.v(ds2,ds4a)*a13a.v(ds1,ds3a)*(MZ*a34a.v(ds3b,ds4b)-s314a.v(ds3b,ds4b))/pDenT+normFactor*preTU*gR*gR*a24a.v(ds2,ds4a)*s13s.v(ds1,ds3a)*(MZ*s34s.v(ds3b,ds4b)-s413a.v(ds4b,ds3b))/pDenT-normFactor*preTU*gL*gR*me*(s13s.v(ds1,ds3a)*s24s.v(ds2,ds4a)*a34a.v(ds3b,ds4b)+a13a.v(ds1,ds3a)*a24a.v(ds2,ds4a)*s34s.v(ds3b,ds4b))/pDenT
    .seq (.set .c 0 (.add (.loc .c 0) (.sub (.add (.div (.mul (.mul (.smul (.mul (.mul (.mul (.loc .r 0) (.mem .r 10)) (.mem .r 12)) (.mem .r 12)) (.v 8 [.var 1, .var 6])) (.v 5 [.var 0, .var 4])) (.sub (.smul (.mem .r 7) (.v 7 [.var 5, .var 7])) (.v 12 [.var 5, .var 7]))) (.mem .c 1)) (.div (.mul (.mul (.smul (.mul (.mul (.mul (.loc .r 0) (.mem .r 10)) (.mem .r 13)) (.mem .r 13)) (.v 9 [.var 1, .var 6])) (.v 4 [.var 0, .var 4])) (.sub (.smul (.mem .r 7) (.v 6 [.var 5, .var 7])) (.v 13 [.var 7, .var 5]))) (.mem .c 1))) (.div (.smul (.mul (.mul (.mul (.mul (.loc .r 0) (.mem .r 10)) (.mem .r 12)) (.mem .r 13)) (.mem .r 1)) (.add (.mul (.mul (.v 4 [.var 0, .var 4]) (.v 8 [.var 1, .var 6])) (.v 7 [.var 5, .var 7])) (.mul (.mul (.v 5 [.var 0, .var 4]) (.v 9 [.var 1, .var 6])) (.v 6 [.var 5, .var 7])))) (.mem .c 1))))) <|
    -- 159: amplitude+=-normFactor*preTU*gL*gL*s23s.v(ds2,ds3a)*a14a.v(ds1,ds4a)*(MZ*a34a.v(ds3b,ds4b)+s413a.v(ds4b,ds3b))/pDenU-normFactor*preTU*gR*gR*s14s.v(ds1,ds4a)*a23a.v(ds2,ds3a)*(MZ*s34s.v(ds3b,ds4b)+s314a.v(ds3b,ds4b))/pDenU+normFactor*preTU*gL*gR*me*(s14s.v(ds1,ds4a)*s23s.v(ds2,ds3a)*a34a.v(ds3b,ds4b)+a14a.v(ds1,ds4a)*a23a.v(ds2,ds3a)*s34s.v(ds3b,ds4b))/pDenU
    .set .c 0 (.add (.loc .c 0) (.add (.sub (.div (.mul (.mul (.smul (.mul (.mul (.mul (.neg (.loc .r 0)) (.mem .r 10)) (.mem .r 12)) (.mem .r 12)) (.v 2 [.var 1, .var 4])) (.v 11 [.var 0, .var 6])) (.add (.smul (.mem .r 7) (.v 7 [.var 5, .var 7])) (.v 13 [.var 7, .var 5]))) (.mem .c 2)) (.div (.mul (.mul (.smul (.mul (.mul (.mul (.loc .r 0) (.mem .r 10)) (.mem .r 13)) (.mem .r 13)) (.v 10 [.var 0, .var 6])) (.v 3 [.var 1, .var 4])) (.add (.smul (.mem .r 7) (.v 6 [.var 5, .var 7])) (.v 12 [.var 5, .var 7]))) (.mem .c 2))) (.div (.smul (.mul (.mul (.mul (.mul (.loc .r 0) (.mem .r 10)) (.mem .r 12)) (.mem .r 13)) (.mem .r 1)) (.add (.mul (.mul (.v 10 [.var 0, .var 6]) (.v 2 [.var 1, .var 4])) (.v 7 [.var 5, .var 7])) (.mul (.mul (.v 11 [.var 0, .var 6]) (.v 3 [.var 1, .var 4])) (.v 6 [.var 5, .var 7])))) (.mem .c 2)))))) <|
  -- 165: return amplitude
  .ret .c (.loc .c 0)⟩

/-- `ldouble amp2()` (SM/eeZZ.cpp:169-184); variables: r 0 `amp2`, c 0 `M`, i 0 `j1`, i 1 `j2`, i 2 `j3`, i 3 `j4` -/
def m_amp2 : Method := ⟨0, 
  -- 170: ldouble amp2
  .seq (.set .r 0 (.lit 0)) <|
  -- 171: cdouble M
  .seq (.set .c 0 (.ofR (.lit 0))) <|
  -- 174: for(int j1=-1;j1<=1;j1+=2)
  .seq (.loop 0 (-1) true (.lit 1) 2 (
    -- 175: for(int j2=-1;j2<=1;j2+=2)
    .loop 1 (-1) true (.lit 1) 2 (
      -- 176: for(int j3=-2;j3<=2;j3+=2)
      .loop 2 (-2) true (.lit 2) 2 (
        -- 177: for(int j4=-2;j4<=2;j4+=2)
        .loop 3 (-2) true (.lit 2) 2 (
          -- 178: M=amp(j1,j2,j3,j4)
          .seq (.set .c 0 (.call 0 [.var 0, .var 1, .var 2, .var 3])) <|
          -- 179: amp2+=std::pow(std::abs(M),2)
          .set .r 0 (.add (.loc .r 0) (.pow (.abs (.loc .c 0)) 2))))))) <|
  -- 183: return amp2/8.0
  .ret .r (.div (.loc .r 0) (.lit 8))⟩

end eeZZ

/-- `class eeZZ` (SM/eeZZ.cpp, SM/include/eeZZ.h:25-36).  Members:
* ldouble: 0 `e`, 1 `me`, 2 `mh`, 3 `wh`, 4 `MW`, 5 `SW`, 6 `CW`, 7 `MZ`, 8 `WZ`, 9 `sqrt2`, 10 `preTU`, 11 `preh`, 12 `gL`, 13 `gR`
* cdouble: 0 `pDenS`, 1 `pDenT`, 2 `pDenU`
* propagator: 0 `proph`, 1 `prope`
* sproduct: 0 `s12s`, 1 `a12a`, 2 `s23s`, 3 `a23a`, 4 `s13s`, 5 `a13a`, 6 `s34s`, 7 `a34a`, 8 `s24s`, 9 `a24a`, 10 `s14s`, 11 `a14a`, 12 `s314a`, 13 `s413a` -/
def eeZZ : Proc where
  name := "eeZZ"
  nPar := 7
  ctor := eeZZ.ctor
  setMasses := eeZZ.setMasses
  massPar := [1, 2, 4]
  setMomenta := eeZZ.setMomenta
  methods := [eeZZ.m_amp2, eeZZ.m_amp]
  amp2 := 1
  others := []

end Spinas.SM.Cls
