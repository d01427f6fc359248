import Verif.SM.Lang

/-! Generated by tools/sm/translate.py from SM/*.cpp: udud, ueeu, uguh, uhWd, uhuh, ulnd, unnu, usus, uuAA, uuAh, uuWW, uuZZ. -/

namespace Spinas.SM.Cls

namespace udud

/-- constructor (SM/udud.cpp:32-61); parameters: 0 `echarge`, 1 `gscharge`, 2 `massu`, 3 `massd`, 4 `massh`, 5 `widthh`, 6 `massW`, 7 `widthW`, 8 `sinW`, 9 `widthZ` -/
def ctor : List SInstr := [
  -- 32: e(echarge)
  .set .r 0 (.loc .r 0),
  -- 32: gs(gscharge)
  .set .r 1 (.loc .r 1),
  -- 32: mu(massu)
  .set .r 2 (.loc .r 2),
  -- 32: md(massd)
  .set .r 3 (.loc .r 3),
  -- 32: mh(massh)
  .set .r 4 (.loc .r 4),
  -- 32: wh(widthh)
  .set .r 5 (.loc .r 5),
  -- 32: WZ(widthZ)
  .set .r 7 (.loc .r 9),
  -- 32: MW(massW)
  .set .r 8 (.loc .r 6),
  -- 32: WW(widthW)
  .set .r 9 (.loc .r 7),
  -- 32: SW(sinW)
  .set .r 10 (.loc .r 8),
  -- 32: CW(std::sqrt(1.0-sinW*sinW))
  .set .r 11 (.sqrt (.sub (.lit 1) (.mul (.loc .r 8) (.loc .r 8)))),
  -- 32: p1(particle(mu))
  .part 0 (.mem .r 2),
  -- 32: p2(particle(md))
  .part 1 (.mem .r 3),
  -- 32: p3(particle(mu))
  .part 2 (.mem .r 2),
  -- 32: p4(particle(md))
  .part 3 (.mem .r 3),
  -- 32: propAG(0,0)
  .prop 0 (.lit 0) (.lit 0),
  -- 32: proph(mh,wh)
  .prop 1 (.mem .r 4) (.mem .r 5),
  -- 32: propW(MW,WW)
  .prop 3 (.mem .r 8) (.mem .r 9),
  -- 32: a13a(sproduct(ANGLE,&p1,&p3))
  .sprod 0 ⟨true, 0, true, [], 2, true⟩,
  -- 32: s13s(sproduct(SQUARE,&p1,&p3))
  .sprod 1 ⟨false, 0, true, [], 2, true⟩,
  -- 32: a14a(sproduct(ANGLE,&p1,&p4))
  .sprod 2 ⟨true, 0, true, [], 3, true⟩,
  -- 32: s14s(sproduct(SQUARE,&p1,&p4))
  .sprod 3 ⟨false, 0, true, [], 3, true⟩,
  -- 32: a23a(sproduct(ANGLE,&p2,&p3))
  .sprod 4 ⟨true, 1, true, [], 2, true⟩,
  -- 32: s23s(sproduct(SQUARE,&p2,&p3))
  .sprod 5 ⟨false, 1, true, [], 2, true⟩,
  -- 32: a24a(sproduct(ANGLE,&p2,&p4))
  .sprod 6 ⟨true, 1, true, [], 3, true⟩,
  -- 32: s24s(sproduct(SQUARE,&p2,&p4))
  .sprod 7 ⟨false, 1, true, [], 3, true⟩,
  -- 32: s12s(sproduct(SQUARE,&p1,&p2))
  .sprod 8 ⟨false, 0, true, [], 1, true⟩,
  -- 32: a12a(sproduct(ANGLE,&p1,&p2))
  .sprod 9 ⟨true, 0, true, [], 1, true⟩,
  -- 32: s34s(sproduct(SQUARE,&p3,&p4))
  .sprod 10 ⟨false, 2, true, [], 3, true⟩,
  -- 32: a34a(sproduct(ANGLE,&p3,&p4))
  .sprod 11 ⟨true, 2, true, [], 3, true⟩,
  -- 51: MZ=MW/CW
  .set .r 6 (.div (.mem .r 8) (.mem .r 11)),
  -- 52: propZ.set_mass(MZ)
  .propMass 2 (.mem .r 6),
  -- 53: preh=e*e*mu*md/(4.0*MW*MW*SW*SW)
  .set .r 12 (.div (.mul (.mul (.mul (.mem .r 0) (.mem .r 0)) (.mem .r 2)) (.mem .r 3)) (.mul (.mul (.mul (.mul (.lit 4) (.mem .r 8)) (.mem .r 8)) (.mem .r 10)) (.mem .r 10))),
  -- 54: gLu=1.0-4.0/3.0*SW*SW
  .set .r 13 (.sub (.lit 1) (.mul (.mul (.div (.lit 4) (.lit 3)) (.mem .r 10)) (.mem .r 10))),
  -- 55: gRu=-4.0/3.0*SW*SW
  .set .r 14 (.mul (.mul (.div (.neg (.lit 4)) (.lit 3)) (.mem .r 10)) (.mem .r 10)),
  -- 56: gLd=-1.0+2.0/3.0*SW*SW
  .set .r 15 (.add (.neg (.lit 1)) (.mul (.mul (.div (.lit 2) (.lit 3)) (.mem .r 10)) (.mem .r 10))),
  -- 57: gRd=2.0/3.0*SW*SW
  .set .r 16 (.mul (.mul (.div (.lit 2) (.lit 3)) (.mem .r 10)) (.mem .r 10)),
  -- 58: preZ=e*e/(4.0*CW*CW*SW*SW)
  .set .r 17 (.div (.mul (.mem .r 0) (.mem .r 0)) (.mul (.mul (.mul (.mul (.lit 4) (.mem .r 11)) (.mem .r 11)) (.mem .r 10)) (.mem .r 10))),
  -- 59: preZ0=preZ*(gLu-gRu)*(gLd-gRd)*mu*md/MZ/MZ
  .set .r 18 (.div (.div (.mul (.mul (.mul (.mul (.mem .r 17) (.sub (.mem .r 13) (.mem .r 14))) (.sub (.mem .r 15) (.mem .r 16))) (.mem .r 2)) (.mem .r 3)) (.mem .r 6)) (.mem .r 6)),
  -- 60: preW=e*e/(2.0*MW*MW*SW*SW)
  .set .r 19 (.div (.mul (.mem .r 0) (.mem .r 0)) (.mul (.mul (.mul (.mul (.lit 2) (.mem .r 8)) (.mem .r 8)) (.mem .r 10)) (.mem .r 10)))]

/-- `set_masses` (SM/udud.cpp:62-78); parameters: 0 `massu`, 1 `massd`, 2 `massh`, 3 `massW` -/
def setMasses : List SInstr := [
  -- 63: mu=massu
  .set .r 2 (.loc .r 0),
  -- 64: md=massd
  .set .r 3 (.loc .r 1),
  -- 65: mh=massh
  .set .r 4 (.loc .r 2),
  -- 66: proph.set_mass(mh)
  .propMass 1 (.mem .r 4),
  -- 67: MW=massW
  .set .r 8 (.loc .r 3),
  -- 68: propW.set_mass(MW)
  .propMass 3 (.mem .r 8),
  -- 69: MZ=MW/CW
  .set .r 6 (.div (.mem .r 8) (.mem .r 11)),
  -- 70: propZ.set_mass(MZ)
  .propMass 2 (.mem .r 6),
  -- 71: p1.set_mass(mu)
  .setMass 0 (.mem .r 2),
  -- 72: p2.set_mass(md)
  .setMass 1 (.mem .r 3),
  -- 73: p3.set_mass(mu)
  .setMass 2 (.mem .r 2),
  -- 74: p4.set_mass(md)
  .setMass 3 (.mem .r 3),
  -- 75: preh=e*e*mu*md/(4*MW*MW*SW*SW)
  .set .r 12 (.div (.mul (.mul (.mul (.mem .r 0) (.mem .r 0)) (.mem .r 2)) (.mem .r 3)) (.mul (.mul (.mul (.mul (.lit 4) (.mem .r 8)) (.mem .r 8)) (.mem .r 10)) (.mem .r 10))),
  -- 76: preZ0=preZ*(gLu-gRu)*(gLd-gRd)*mu*md/MZ/MZ
  .set .r 18 (.div (.div (.mul (.mul (.mul (.mul (.mem .r 17) (.sub (.mem .r 13) (.mem .r 14))) (.sub (.mem .r 15) (.mem .r 16))) (.mem .r 2)) (.mem .r 3)) (.mem .r 6)) (.mem .r 6)),
  -- 77: preW=e*e/(2.0*MW*MW*SW*SW)
  .set .r 19 (.div (.mul (.mem .r 0) (.mem .r 0)) (.mul (.mul (.mul (.mul (.lit 2) (.mem .r 8)) (.mem .r 8)) (.mem .r 10)) (.mem .r 10)))]

/-- `set_momenta` (SM/udud.cpp:79-107); parameters: 0 `mom1`, 1 `mom2`, 2 `mom3`, 3 `mom4` -/
def setMomenta : List SInstr := [
  -- 81: p1.set_momentum(mom1)
  .setMom 0 0,
  -- 82: p2.set_momentum(mom2)
  .setMom 1 1,
  -- 83: p3.set_momentum(mom3)
  .setMom 2 2,
  -- 84: p4.set_momentum(mom4)
  .setMom 3 3,
  -- 85: a13a.update()
  .update 0,
  -- 86: s13s.update()
  .update 1,
  -- 87: a14a.update()
  .update 2,
  -- 88: s14s.update()
  .update 3,
  -- 89: a23a.update()
  .update 4,
  -- 90: s23s.update()
  .update 5,
  -- 91: a24a.update()
  .update 6,
  -- 92: s24s.update()
  .update 7,
  -- 93: s12s.update()
  .update 8,
  -- 94: a12a.update()
  .update 9,
  -- 95: s34s.update()
  .update 10,
  -- 96: a34a.update()
  .update 11,
  -- 103: pDenTAG=propAG.denominator(propPT)
  .den .c 0 0 (.sub 0 2),
  -- 104: pDenTh=proph.denominator(propPT)
  .den .c 1 1 (.sub 0 2),
  -- 105: pDenTZ=propZ.denominator(propPT)
  .den .c 2 2 (.sub 0 2),
  -- 106: pDenUW=propW.denominator(propPU)
  .den .c 3 3 (.sub 0 3)]

/-- `cdouble amp_gluon(ds1,ds2,ds3,ds4)` (SM/udud.cpp:115-133); variables: i 0 `ds1`, i 1 `ds2`, i 2 `ds3`, i 3 `ds4`, c 0 `amplitude` -/
def m_amp_gluon : Method := ⟨4, 
  -- 117: cdouble amplitude
  .seq (.set .c 0 (.ofR (.lit 0))) <|
  -- 127: amplitude=-two*gs*gs*(+a14a.v(ds1,ds4)*s23s.v(ds2,ds3)+a12a.v(ds1,ds2)*s34s.v(ds3,ds4)+s14s.v(ds1,ds4)*a23a.v(ds2,ds3)+s12s.v(ds1,ds2)*a34a.v(ds3,ds4))/pDenTAG
  .seq (.set .c 0 (.div (.smul (.mul (.mul (.neg (.lit 2)) (.mem .r 1)) (.mem .r 1)) (.add (.add (.add (.mul (.v 2 [.var 0, .var 3]) (.v 5 [.var 1, .var 2])) (.mul (.v 9 [.var 0, .var 1]) (.v 10 [.var 2, .var 3]))) (.mul (.v 3 [.var 0, .var 3]) (.v 4 [.var 1, .var 2]))) (.mul (.v 8 [.var 0, .var 1]) (.v 11 [.var 2, .var 3])))) (.mem .c 0))) <|
  -- 132: return amplitude
  .ret .c (.loc .c 0)⟩

/-- `cdouble amp_rest(ds1,ds2,ds3,ds4)` (SM/udud.cpp:134-190); variables: i 0 `ds1`, i 1 `ds2`, i 2 `ds3`, i 3 `ds4`, c 0 `amplitude` -/
def m_amp_rest : Method := ⟨4, 
  -- 136: cdouble amplitude
  .seq (.set .c 0 (.ofR (.lit 0))) <|
  -- 146: amplitude=two*e*e*2.0/9.0*(+a14a.v(ds1,ds4)*s23s.v(ds2,ds3)+a12a.v(ds1,ds2)*s34s.v(ds3,ds4)+s14s.v(ds1,ds4)*a23a.v(ds2,ds3)+s12s.v(ds1,ds2)*a34a.v(ds3,ds4))/pDenTAG
  .seq (.set .c 0 (.div (.smul (.div (.mul (.mul (.mul (.lit 2) (.mem .r 0)) (.mem .r 0)) (.lit 2)) (.lit 9)) (.add (.add (.add (.mul (.v 2 [.var 0, .var 3]) (.v 5 [.var 1, .var 2])) (.mul (.v 9 [.var 0, .var 1]) (.v 10 [.var 2, .var 3]))) (.mul (.v 3 [.var 0, .var 3]) (.v 4 [.var 1, .var 2]))) (.mul (.v 8 [.var 0, .var 1]) (.v 11 [.var 2, .var 3])))) (.mem .c 0))) <|
  -- 160: amplitude+=-preh*(s13s.v(ds1,ds3)-a13a.v(ds1,ds3))*(s24s.v(ds2,ds4)-a24a.v(ds2,ds4))/pDenTh
  .seq (.set .c 0 (.add (.loc .c 0) (.div (.mul (.smul (.neg (.mem .r 12)) (.sub (.v 1 [.var 0, .var 2]) (.v 0 [.var 0, .var 2]))) (.sub (.v 7 [.var 1, .var 3]) (.v 6 [.var 1, .var 3]))) (.mem .c 1)))) <|
  -- 180: amplitude+=+preZ0*(a13a.v(ds1,ds3)+s13s.v(ds1,ds3))*(a24a.v(ds2,ds4)+s24s.v(ds2,ds4))/pDenTZ-two*preZ*(gLu*gLd*s34s.v(ds3,ds4)*a12a.v(ds1,ds2)+gLd*gRu*s14s.v(ds1,ds4)*a23a.v(ds2,ds3)+gLu*gRd*s23s.v(ds2,ds3)*a14a.v(ds1,ds4)+gRu*gRd*s12s.v(ds1,ds2)*a34a.v(ds3,ds4))/pDenTZ
  .seq (.set .c 0 (.add (.loc .c 0) (.sub (.div (.mul (.smul (.mem .r 18) (.add (.v 0 [.var 0, .var 2]) (.v 1 [.var 0, .var 2]))) (.add (.v 6 [.var 1, .var 3]) (.v 7 [.var 1, .var 3]))) (.mem .c 2)) (.div (.smul (.mul (.lit 2) (.mem .r 17)) (.add (.add (.add (.mul (.smul (.mul (.mem .r 13) (.mem .r 15)) (.v 10 [.var 2, .var 3])) (.v 9 [.var 0, .var 1])) (.mul (.smul (.mul (.mem .r 15) (.mem .r 14)) (.v 3 [.var 0, .var 3])) (.v 4 [.var 1, .var 2]))) (.mul (.smul (.mul (.mem .r 13) (.mem .r 16)) (.v 5 [.var 1, .var 2])) (.v 2 [.var 0, .var 3]))) (.mul (.smul (.mul (.mem .r 14) (.mem .r 16)) (.v 8 [.var 0, .var 1])) (.v 11 [.var 2, .var 3])))) (.mem .c 2))))) <|
  -- 189: return amplitude
  .ret .c (.loc .c 0)⟩

/-- `cdouble amp_W(ds1,ds2,ds3,ds4)` (SM/udud.cpp:193-208); variables: i 0 `ds1`, i 1 `ds2`, i 2 `ds3`, i 3 `ds4` -/
def m_amp_W : Method := ⟨4, 
  -- 204: return -preW*(2.0*MW*MW*a12a.v(ds1,ds2)*s34s.v(ds3,ds4)+(mu*s14s.v(ds1,ds4)+md*a14a.v(ds1,ds4))*(mu*a23a.v(ds2,ds3)+md*s23s.v(ds2,ds3)))/pDenUW
  .ret .c (.div (.smul (.neg (.mem .r 19)) (.add (.mul (.smul (.mul (.mul (.lit 2) (.mem .r 8)) (.mem .r 8)) (.v 9 [.var 0, .var 1])) (.v 10 [.var 2, .var 3])) (.mul (.add (.smul (.mem .r 2) (.v 3 [.var 0, .var 3])) (.smul (.mem .r 3) (.v 2 [.var 0, .var 3]))) (.add (.smul (.mem .r 2) (.v 4 [.var 1, .var 2])) (.smul (.mem .r 3) (.v 5 [.var 1, .var 2])))))) (.mem .c 3))⟩

/-- `ldouble amp2()` (SM/udud.cpp:211-234); variables: r 0 `amp2`, c 0 `M_rest`, c 1 `M_W`, c 2 `M_gluon`, i 0 `j1`, i 1 `j2`, i 2 `j3`, i 3 `j4` -/
def m_amp2 : Method := ⟨0, 
  -- 212: ldouble amp2
  .seq (.set .r 0 (.lit 0)) <|
  -- 214: cdouble M_rest
  .seq (.set .c 0 (.ofR (.lit 0))) <|
  -- 214: cdouble M_W
  .seq (.set .c 1 (.ofR (.lit 0))) <|
  -- 214: cdouble M_gluon
  .seq (.set .c 2 (.ofR (.lit 0))) <|
  -- 217: for(int j1=-1;j1<=1;j1+=2)
  .seq (.loop 0 (-1) true (.lit 1) 2 (
    -- 218: for(int j2=-1;j2<=1;j2+=2)
    .loop 1 (-1) true (.lit 1) 2 (
      -- 219: for(int j3=-1;j3<=1;j3+=2)
      .loop 2 (-1) true (.lit 1) 2 (
        -- 220: for(int j4=-1;j4<=1;j4+=2)
        .loop 3 (-1) true (.lit 1) 2 (
          -- 221: M_rest=amp_rest(j1,j2,j3,j4)
          .seq (.set .c 0 (.call 1 [.var 0, .var 1, .var 2, .var 3])) <|
          -- 222: M_W=amp_W(j1,j2,j3,j4)
          .seq (.set .c 1 (.call 2 [.var 0, .var 1, .var 2, .var 3])) <|
          -- 223: M_gluon=amp_gluon(j1,j2,j3,j4)
          .seq (.set .c 2 (.call 0 [.var 0, .var 1, .var 2, .var 3])) <|
          -- 224: amp2+=nine*std::pow(std::abs(M_rest),2)
          .seq (.set .r 0 (.add (.loc .r 0) (.mul (.lit 9) (.pow (.abs (.loc .c 0)) 2)))) <|
          -- 225: amp2+=three*two*std::real(M_rest*std::conj(M_W))
          .seq (.set .r 0 (.add (.loc .r 0) (.mul (.mul (.lit 3) (.lit 2)) (.re (.mul (.loc .c 0) (.conj (.loc .c 1))))))) <|
          -- 226: amp2+=nine*std::pow(std::abs(M_W),2)
          .seq (.set .r 0 (.add (.loc .r 0) (.mul (.lit 9) (.pow (.abs (.loc .c 1)) 2)))) <|
          -- 228: amp2+=four*two*std::real(M_gluon*std::conj(M_W))
          .seq (.set .r 0 (.add (.loc .r 0) (.mul (.mul (.lit 4) (.lit 2)) (.re (.mul (.loc .c 2) (.conj (.loc .c 1))))))) <|
          -- 229: amp2+=two*std::pow(std::abs(M_gluon),2)
          .set .r 0 (.add (.loc .r 0) (.mul (.lit 2) (.pow (.abs (.loc .c 2)) 2)))))))) <|
  -- 233: return amp2/36.0
  .ret .r (.div (.loc .r 0) (.lit 36))⟩

end udud

/-- `class udud` (SM/udud.cpp, SM/include/udud.h:25-33).  Members:
* ldouble: 0 `e`, 1 `gs`, 2 `mu`, 3 `md`, 4 `mh`, 5 `wh`, 6 `MZ`, 7 `WZ`, 8 `MW`, 9 `WW`, 10 `SW`, 11 `CW`, 12 `preh`, 13 `gLu`, 14 `gRu`, 15 `gLd`, 16 `gRd`, 17 `preZ`, 18 `preZ0`, 19 `preW`
* cdouble: 0 `pDenTAG`, 1 `pDenTh`, 2 `pDenTZ`, 3 `pDenUW`
* propagator: 0 `propAG`, 1 `proph`, 2 `propZ`, 3 `propW`
* sproduct: 0 `a13a`, 1 `s13s`, 2 `a14a`, 3 `s14s`, 4 `a23a`, 5 `s23s`, 6 `a24a`, 7 `s24s`, 8 `s12s`, 9 `a12a`, 10 `s34s`, 11 `a34a` -/
def udud : Proc where
  name := "udud"
  nPar := 10
  ctor := udud.ctor
  setMasses := udud.setMasses
  massPar := [2, 3, 4, 6]
  setMomenta := udud.setMomenta
  methods := [udud.m_amp2, udud.m_amp_W, udud.m_amp_rest, udud.m_amp_gluon]
  amp2 := 3
  others := []

namespace ueeu

/-- constructor (SM/ueeu.cpp:32-60); parameters: 0 `echarge`, 1 `massu`, 2 `masse`, 3 `massh`, 4 `widthh`, 5 `massW`, 6 `sinW`, 7 `widthZ` -/
def ctor : List SInstr := [
  -- 32: e(echarge)
  .set .r 0 (.loc .r 0),
  -- 32: mu(massu)
  .set .r 1 (.loc .r 1),
  -- 32: me(masse)
  .set .r 2 (.loc .r 2),
  -- 32: mh(massh)
  .set .r 3 (.loc .r 3),
  -- 32: wh(widthh)
  .set .r 4 (.loc .r 4),
  -- 32: WZ(widthZ)
  .set .r 6 (.loc .r 7),
  -- 32: MW(massW)
  .set .r 7 (.loc .r 5),
  -- 32: SW(sinW)
  .set .r 8 (.loc .r 6),
  -- 32: CW(std::sqrt(1.0-sinW*sinW))
  .set .r 9 (.sqrt (.sub (.lit 1) (.mul (.loc .r 6) (.loc .r 6)))),
  -- 32: p1(particle(mu))
  .part 0 (.mem .r 1),
  -- 32: p2(particle(me))
  .part 1 (.mem .r 2),
  -- 32: p3(particle(me))
  .part 2 (.mem .r 2),
  -- 32: p4(particle(mu))
  .part 3 (.mem .r 1),
  -- 32: propA(0,0)
  .prop 0 (.lit 0) (.lit 0),
  -- 32: proph(mh,wh)
  .prop 1 (.mem .r 3) (.mem .r 4),
  -- 32: a13a(sproduct(ANGLE,&p1,&p3))
  .sprod 0 ⟨true, 0, true, [], 2, true⟩,
  -- 32: s13s(sproduct(SQUARE,&p1,&p3))
  .sprod 1 ⟨false, 0, true, [], 2, true⟩,
  -- 32: a14a(sproduct(ANGLE,&p1,&p4))
  .sprod 2 ⟨true, 0, true, [], 3, true⟩,
  -- 32: s14s(sproduct(SQUARE,&p1,&p4))
  .sprod 3 ⟨false, 0, true, [], 3, true⟩,
  -- 32: a23a(sproduct(ANGLE,&p2,&p3))
  .sprod 4 ⟨true, 1, true, [], 2, true⟩,
  -- 32: s23s(sproduct(SQUARE,&p2,&p3))
  .sprod 5 ⟨false, 1, true, [], 2, true⟩,
  -- 32: a24a(sproduct(ANGLE,&p2,&p4))
  .sprod 6 ⟨true, 1, true, [], 3, true⟩,
  -- 32: s24s(sproduct(SQUARE,&p2,&p4))
  .sprod 7 ⟨false, 1, true, [], 3, true⟩,
  -- 32: s12s(sproduct(SQUARE,&p1,&p2))
  .sprod 8 ⟨false, 0, true, [], 1, true⟩,
  -- 32: a12a(sproduct(ANGLE,&p1,&p2))
  .sprod 9 ⟨true, 0, true, [], 1, true⟩,
  -- 32: s34s(sproduct(SQUARE,&p3,&p4))
  .sprod 10 ⟨false, 2, true, [], 3, true⟩,
  -- 32: a34a(sproduct(ANGLE,&p3,&p4))
  .sprod 11 ⟨true, 2, true, [], 3, true⟩,
  -- 51: MZ=MW/CW
  .set .r 5 (.div (.mem .r 7) (.mem .r 9)),
  -- 52: propZ.set_mass(MZ)
  .propMass 2 (.mem .r 5),
  -- 53: preh=e*e*mu*me/(4.0*MW*MW*SW*SW)
  .set .r 10 (.div (.mul (.mul (.mul (.mem .r 0) (.mem .r 0)) (.mem .r 1)) (.mem .r 2)) (.mul (.mul (.mul (.mul (.lit 4) (.mem .r 7)) (.mem .r 7)) (.mem .r 8)) (.mem .r 8))),
  -- 54: gLu=1.0-4.0/3.0*SW*SW
  .set .r 11 (.sub (.lit 1) (.mul (.mul (.div (.lit 4) (.lit 3)) (.mem .r 8)) (.mem .r 8))),
  -- 55: gRu=-4.0/3.0*SW*SW
  .set .r 12 (.mul (.mul (.div (.neg (.lit 4)) (.lit 3)) (.mem .r 8)) (.mem .r 8)),
  -- 56: gLe=-1.0+2.0*SW*SW
  .set .r 13 (.add (.neg (.lit 1)) (.mul (.mul (.lit 2) (.mem .r 8)) (.mem .r 8))),
  -- 57: gRe=2.0*SW*SW
  .set .r 14 (.mul (.mul (.lit 2) (.mem .r 8)) (.mem .r 8)),
  -- 58: preZ=e*e/(4.0*CW*CW*SW*SW)
  .set .r 15 (.div (.mul (.mem .r 0) (.mem .r 0)) (.mul (.mul (.mul (.mul (.lit 4) (.mem .r 9)) (.mem .r 9)) (.mem .r 8)) (.mem .r 8))),
  -- 59: preZ0=preZ*(gLu-gRu)*(gLe-gRe)*mu*me/MZ/MZ
  .set .r 16 (.div (.div (.mul (.mul (.mul (.mul (.mem .r 15) (.sub (.mem .r 11) (.mem .r 12))) (.sub (.mem .r 13) (.mem .r 14))) (.mem .r 1)) (.mem .r 2)) (.mem .r 5)) (.mem .r 5))]

/-- `set_masses` (SM/ueeu.cpp:61-75); parameters: 0 `massu`, 1 `masse`, 2 `massh`, 3 `massW` -/
def setMasses : List SInstr := [
  -- 62: mu=massu
  .set .r 1 (.loc .r 0),
  -- 63: me=masse
  .set .r 2 (.loc .r 1),
  -- 64: mh=massh
  .set .r 3 (.loc .r 2),
  -- 65: proph.set_mass(mh)
  .propMass 1 (.mem .r 3),
  -- 66: MW=massW
  .set .r 7 (.loc .r 3),
  -- 67: MZ=MW/CW
  .set .r 5 (.div (.mem .r 7) (.mem .r 9)),
  -- 68: propZ.set_mass(MZ)
  .propMass 2 (.mem .r 5),
  -- 69: p1.set_mass(mu)
  .setMass 0 (.mem .r 1),
  -- 70: p2.set_mass(me)
  .setMass 1 (.mem .r 2),
  -- 71: p3.set_mass(me)
  .setMass 2 (.mem .r 2),
  -- 72: p4.set_mass(mu)
  .setMass 3 (.mem .r 1),
  -- 73: preh=e*e*mu*me/(4*MW*MW*SW*SW)
  .set .r 10 (.div (.mul (.mul (.mul (.mem .r 0) (.mem .r 0)) (.mem .r 1)) (.mem .r 2)) (.mul (.mul (.mul (.mul (.lit 4) (.mem .r 7)) (.mem .r 7)) (.mem .r 8)) (.mem .r 8))),
  -- 74: preZ0=preZ*(gLu-gRu)*(gLe-gRe)*mu*me/MZ/MZ
  .set .r 16 (.div (.div (.mul (.mul (.mul (.mul (.mem .r 15) (.sub (.mem .r 11) (.mem .r 12))) (.sub (.mem .r 13) (.mem .r 14))) (.mem .r 1)) (.mem .r 2)) (.mem .r 5)) (.mem .r 5))]

/-- `set_momenta` (SM/ueeu.cpp:76-101); parameters: 0 `mom1`, 1 `mom2`, 2 `mom3`, 3 `mom4` -/
def setMomenta : List SInstr := [
  -- 78: p1.set_momentum(mom1)
  .setMom 0 0,
  -- 79: p2.set_momentum(mom2)
  .setMom 1 1,
  -- 80: p3.set_momentum(mom3)
  .setMom 2 2,
  -- 81: p4.set_momentum(mom4)
  .setMom 3 3,
  -- 82: a13a.update()
  .update 0,
  -- 83: s13s.update()
  .update 1,
  -- 84: a14a.update()
  .update 2,
  -- 85: s14s.update()
  .update 3,
  -- 86: a23a.update()
  .update 4,
  -- 87: s23s.update()
  .update 5,
  -- 88: a24a.update()
  .update 6,
  -- 89: s24s.update()
  .update 7,
  -- 90: s12s.update()
  .update 8,
  -- 91: a12a.update()
  .update 9,
  -- 92: s34s.update()
  .update 10,
  -- 93: a34a.update()
  .update 11,
  -- 98: pDenUA=propA.denominator(propP)
  .den .c 0 0 (.sub 0 3),
  -- 99: pDenUh=proph.denominator(propP)
  .den .c 1 1 (.sub 0 3),
  -- 100: pDenUZ=propZ.denominator(propP)
  .den .c 2 2 (.sub 0 3)]

/-- `cdouble amp(ds1,ds2,ds3,ds4)` (SM/ueeu.cpp:106-161); variables: i 0 `ds1`, i 1 `ds2`, i 2 `ds3`, i 3 `ds4`, c 0 `amplitude` -/
def m_amp : Method := ⟨4, 
  -- 108: cdouble amplitude
  .seq (.set .c 0 (.ofR (.lit 0))) <|
  -- 118: amplitude=-two*e*e*2.0/3.0*(-a13a.v(ds1,ds3)*s24s.v(ds2,ds4)+a12a.v(ds1,ds2)*s34s.v(ds3,ds4)-s13s.v(ds1,ds3)*a24a.v(ds2,ds4)+s12s.v(ds1,ds2)*a34a.v(ds3,ds4))/pDenUA
  .seq (.set .c 0 (.div (.smul (.div (.mul (.mul (.mul (.neg (.lit 2)) (.mem .r 0)) (.mem .r 0)) (.lit 2)) (.lit 3)) (.add (.sub (.add (.mul (.neg (.v 0 [.var 0, .var 2])) (.v 7 [.var 1, .var 3])) (.mul (.v 9 [.var 0, .var 1]) (.v 10 [.var 2, .var 3]))) (.mul (.v 1 [.var 0, .var 2]) (.v 6 [.var 1, .var 3]))) (.mul (.v 8 [.var 0, .var 1]) (.v 11 [.var 2, .var 3])))) (.mem .c 0))) <|
  -- 131: amplitude+=-preh*(s14s.v(ds1,ds4)-a14a.v(ds1,ds4))*(s23s.v(ds2,ds3)-a23a.v(ds2,ds3))/pDenUh
  .seq (.set .c 0 (.add (.loc .c 0) (.div (.mul (.smul (.neg (.mem .r 10)) (.sub (.v 3 [.var 0, .var 3]) (.v 2 [.var 0, .var 3]))) (.sub (.v 5 [.var 1, .var 2]) (.v 4 [.var 1, .var 2]))) (.mem .c 1)))) <|
  -- 151: amplitude+=+preZ0*(a14a.v(ds1,ds4)+s14s.v(ds1,ds4))*(a23a.v(ds2,ds3)+s23s.v(ds2,ds3))/pDenUZ+two*preZ*(gLu*gLe*s34s.v(ds3,ds4)*a12a.v(ds1,ds2)-gLe*gRu*s13s.v(ds1,ds3)*a24a.v(ds2,ds4)-gLu*gRe*s24s.v(ds2,ds4)*a13a.v(ds1,ds3)+gRu*gRe*s12s.v(ds1,ds2)*a34a.v(ds3,ds4))/pDenUZ
  .seq (.set .c 0 (.add (.loc .c 0) (.add (.div (.mul (.smul (.mem .r 16) (.add (.v 2 [.var 0, .var 3]) (.v 3 [.var 0, .var 3]))) (.add (.v 4 [.var 1, .var 2]) (.v 5 [.var 1, .var 2]))) (.mem .c 2)) (.div (.smul (.mul (.lit 2) (.mem .r 15)) (.add (.sub (.sub (.mul (.smul (.mul (.mem .r 11) (.mem .r 13)) (.v 10 [.var 2, .var 3])) (.v 9 [.var 0, .var 1])) (.mul (.smul (.mul (.mem .r 13) (.mem .r 12)) (.v 1 [.var 0, .var 2])) (.v 6 [.var 1, .var 3]))) (.mul (.smul (.mul (.mem .r 11) (.mem .r 14)) (.v 7 [.var 1, .var 3])) (.v 0 [.var 0, .var 2]))) (.mul (.smul (.mul (.mem .r 12) (.mem .r 14)) (.v 8 [.var 0, .var 1])) (.v 11 [.var 2, .var 3])))) (.mem .c 2))))) <|
  -- 160: return amplitude
  .ret .c (.loc .c 0)⟩

/-- `ldouble amp2()` (SM/ueeu.cpp:164-180); variables: r 0 `amp2`, c 0 `M`, i 0 `j1`, i 1 `j2`, i 2 `j3`, i 3 `j4` -/
def m_amp2 : Method := ⟨0, 
  -- 165: ldouble amp2
  .seq (.set .r 0 (.lit 0)) <|
  -- 167: cdouble M
  .seq (.set .c 0 (.ofR (.lit 0))) <|
  -- 170: for(int j1=-1;j1<=1;j1+=2)
  .seq (.loop 0 (-1) true (.lit 1) 2 (
    -- 171: for(int j2=-1;j2<=1;j2+=2)
    .loop 1 (-1) true (.lit 1) 2 (
      -- 172: for(int j3=-1;j3<=1;j3+=2)
      .loop 2 (-1) true (.lit 1) 2 (
        -- 173: for(int j4=-1;j4<=1;j4+=2)
        .loop 3 (-1) true (.lit 1) 2 (
          -- 174: M=amp(j1,j2,j3,j4)
          .seq (.set .c 0 (.call 0 [.var 0, .var 1, .var 2, .var 3])) <|
          -- 175: amp2+=three*std::pow(std::abs(M),2)
          .set .r 0 (.add (.loc .r 0) (.mul (.lit 3) (.pow (.abs (.loc .c 0)) 2)))))))) <|
  -- 179: return amp2/12.0
  .ret .r (.div (.loc .r 0) (.lit 12))⟩

end ueeu

/-- `class ueeu` (SM/ueeu.cpp, SM/include/ueeu.h:25-33).  Members:
* ldouble: 0 `e`, 1 `mu`, 2 `me`, 3 `mh`, 4 `wh`, 5 `MZ`, 6 `WZ`, 7 `MW`, 8 `SW`, 9 `CW`, 10 `preh`, 11 `gLu`, 12 `gRu`, 13 `gLe`, 14 `gRe`, 15 `preZ`, 16 `preZ0`
* cdouble: 0 `pDenUA`, 1 `pDenUh`, 2 `pDenUZ`
* propagator: 0 `propA`, 1 `proph`, 2 `propZ`
* sproduct: 0 `a13a`, 1 `s13s`, 2 `a14a`, 3 `s14s`, 4 `a23a`, 5 `s23s`, 6 `a24a`, 7 `s24s`, 8 `s12s`, 9 `a12a`, 10 `s34s`, 11 `a34a` -/
def ueeu : Proc where
  name := "ueeu"
  nPar := 8
  ctor := ueeu.ctor
  setMasses := ueeu.setMasses
  massPar := [1, 2, 3, 5]
  setMomenta := ueeu.setMomenta
  methods := [ueeu.m_amp2, ueeu.m_amp]
  amp2 := 1
  others := []

namespace uguh

/-- constructor (SM/uguh.cpp:32-53); parameters: 0 `echarge`, 1 `gscharge`, 2 `massu`, 3 `massh`, 4 `massW`, 5 `sinW` -/
def ctor : List SInstr := [
  -- 32: e(echarge)
  .set .r 0 (.loc .r 0),
  -- 32: gs(gscharge)
  .set .r 1 (.loc .r 1),
  -- 32: mu(massu)
  .set .r 2 (.loc .r 2),
  -- 32: mh(massh)
  .set .r 3 (.loc .r 3),
  -- 32: MW(massW)
  .set .r 4 (.loc .r 4),
  -- 32: SW(sinW)
  .set .r 5 (.loc .r 5),
  -- 32: prop(massu,0)
  .prop 0 (.loc .r 2) (.lit 0),
  -- 35: sqrt2=std::sqrt(two)
  .set .r 7 (.sqrt (.lit 2)),
  -- 36: p1=particle(mu)
  .part 0 (.mem .r 2),
  -- 37: p2=particle(0)
  .part 1 (.lit 0),
  -- 38: p3=particle(mu)
  .part 2 (.mem .r 2),
  -- 39: p4=particle(mh)
  .part 3 (.mem .r 3),
  -- 40: s12s=sproduct(SQUARE,&p1,&p2)
  .sprod 0 ⟨false, 0, true, [], 1, true⟩,
  -- 41: a12a=sproduct(ANGLE,&p1,&p2)
  .sprod 1 ⟨true, 0, true, [], 1, true⟩,
  -- 42: s23s=sproduct(SQUARE,&p2,&p3)
  .sprod 2 ⟨false, 1, true, [], 2, true⟩,
  -- 43: a23a=sproduct(ANGLE,&p2,&p3)
  .sprod 3 ⟨true, 1, true, [], 2, true⟩,
  -- 44: s13s=sproduct(SQUARE,&p1,&p3)
  .sprod 4 ⟨false, 0, true, [], 2, true⟩,
  -- 45: a13a=sproduct(ANGLE,&p1,&p3)
  .sprod 5 ⟨true, 0, true, [], 2, true⟩,
  -- 46: s243a=sproduct(SQUARE,&p2,&p4,&p3)
  .sprod 6 ⟨false, 1, true, [3], 2, true⟩,
  -- 47: a243s=sproduct(ANGLE,&p2,&p4,&p3)
  .sprod 7 ⟨true, 1, true, [3], 2, true⟩,
  -- 48: s241a=sproduct(SQUARE,&p2,&p4,&p1)
  .sprod 8 ⟨false, 1, true, [3], 0, true⟩,
  -- 49: a241s=sproduct(ANGLE,&p2,&p4,&p1)
  .sprod 9 ⟨true, 1, true, [3], 0, true⟩,
  -- 50: s2342s=sproduct(SQUARE,&p2,&p3,&p4,&p2)
  .sprod 10 ⟨false, 1, true, [2, 3], 1, true⟩,
  -- 51: a2342a=sproduct(ANGLE,&p2,&p3,&p4,&p2)
  .sprod 11 ⟨true, 1, true, [2, 3], 1, true⟩,
  -- 52: pre=sqrt2*e*gs*mu/(2.0*MW*SW)
  .set .r 6 (.div (.mul (.mul (.mul (.mem .r 7) (.mem .r 0)) (.mem .r 1)) (.mem .r 2)) (.mul (.mul (.lit 2) (.mem .r 4)) (.mem .r 5)))]

/-- `set_masses` (SM/uguh.cpp:54-62); parameters: 0 `massu`, 1 `massh`, 2 `massW` -/
def setMasses : List SInstr := [
  -- 55: mu=massu
  .set .r 2 (.loc .r 0),
  -- 56: mh=massh
  .set .r 3 (.loc .r 1),
  -- 57: p1.set_mass(mu)
  .setMass 0 (.mem .r 2),
  -- 58: p3.set_mass(mu)
  .setMass 2 (.mem .r 2),
  -- 59: p4.set_mass(mh)
  .setMass 3 (.mem .r 3),
  -- 60: prop.set_mass(mu)
  .propMass 0 (.mem .r 2),
  -- 61: pre=sqrt2*e*gs*mu/(2.0*MW*SW)
  .set .r 6 (.div (.mul (.mul (.mul (.mem .r 7) (.mem .r 0)) (.mem .r 1)) (.mem .r 2)) (.mul (.mul (.lit 2) (.mem .r 4)) (.mem .r 5)))]

/-- `set_momenta` (SM/uguh.cpp:63-89); parameters: 0 `mom1`, 1 `mom2`, 2 `mom3`, 3 `mom4` -/
def setMomenta : List SInstr := [
  -- 65: p1.set_momentum(mom1)
  .setMom 0 0,
  -- 66: p2.set_momentum(mom2)
  .setMom 1 1,
  -- 67: p3.set_momentum(mom3)
  .setMom 2 2,
  -- 68: p4.set_momentum(mom4)
  .setMom 3 3,
  -- 69: s12s.update()
  .update 0,
  -- 70: a12a.update()
  .update 1,
  -- 71: s23s.update()
  .update 2,
  -- 72: a23a.update()
  .update 3,
  -- 73: s13s.update()
  .update 4,
  -- 74: a13a.update()
  .update 5,
  -- 75: s243a.update()
  .update 6,
  -- 76: a243s.update()
  .update 7,
  -- 77: s241a.update()
  .update 8,
  -- 78: a241s.update()
  .update 9,
  -- 79: s2342s.update()
  .update 10,
  -- 80: a2342a.update()
  .update 11,
  -- 87: pDenS=prop.denominator(propSP)
  .den .c 0 0 (.add 0 1),
  -- 88: pDenU=prop.denominator(propUP)
  .den .c 1 0 (.sub 0 3)]

/-- `cdouble amp(ds1,ds2,ds3)` (SM/uguh.cpp:94-108); variables: i 0 `ds1`, i 1 `ds2`, i 2 `ds3` -/
def m_amp : Method := ⟨3, 
  -- 99: if(ds2>0)
  .seq (.ite (.lt (.lit 0) (.var 1)) (
    -- 101: return pre*(mh*mh*s12s.v(ds1)*s23s.v(ds3)-mu*s12s.v(ds1)*s243a.v(ds3)-mu*s23s.v(ds3)*s241a.v(ds1)+a13a.v(ds1,ds3)*s2342s.v())/pDenS/pDenU
    .ret .c (.div (.div (.smul (.mem .r 6) (.add (.sub (.sub (.mul (.smul (.mul (.mem .r 3) (.mem .r 3)) (.v 0 [.var 0])) (.v 2 [.var 2])) (.mul (.smul (.mem .r 2) (.v 0 [.var 0])) (.v 6 [.var 2]))) (.mul (.smul (.mem .r 2) (.v 2 [.var 2])) (.v 8 [.var 0]))) (.mul (.v 5 [.var 0, .var 2]) (.v 10 [])))) (.mem .c 0)) (.mem .c 1))) (
    -- 103: if(ds2<0)
    .ite (.lt (.var 1) (.lit 0)) (
      -- 105: return pre*(-mh*mh*a12a.v(ds1)*a23a.v(ds3)+mu*a12a.v(ds1)*a243s.v(ds3)+mu*a23a.v(ds3)*a241s.v(ds1)-s13s.v(ds1,ds3)*a2342a.v())/pDenS/pDenU
      .ret .c (.div (.div (.smul (.mem .r 6) (.sub (.add (.add (.mul (.smul (.mul (.neg (.mem .r 3)) (.mem .r 3)) (.v 1 [.var 0])) (.v 3 [.var 2])) (.mul (.smul (.mem .r 2) (.v 1 [.var 0])) (.v 7 [.var 2]))) (.mul (.smul (.mem .r 2) (.v 3 [.var 2])) (.v 9 [.var 0]))) (.mul (.v 4 [.var 0, .var 2]) (.v 11 [])))) (.mem .c 0)) (.mem .c 1))) (
      .skip))) <|
  -- 107: return cdouble(0,0)
  .ret .c (.ofR (.lit 0))⟩

/-- `ldouble amp2()` (SM/uguh.cpp:111-125); variables: r 0 `amp2`, c 0 `M`, i 0 `j1`, i 1 `j2`, i 2 `j3` -/
def m_amp2 : Method := ⟨0, 
  -- 112: ldouble amp2
  .seq (.set .r 0 (.lit 0)) <|
  -- 113: cdouble M
  .seq (.set .c 0 (.ofR (.lit 0))) <|
  -- 116: for(int j1=-1;j1<=1;j1+=2)
  .seq (.loop 0 (-1) true (.lit 1) 2 (
    -- 117: for(int j2=-2;j2<=2;j2+=4)
    .loop 1 (-2) true (.lit 2) 4 (
      -- 118: for(int j3=-1;j3<=1;j3+=2)
      .loop 2 (-1) true (.lit 1) 2 (
        -- 119: M=amp(j1,j2,j3)
        .seq (.set .c 0 (.call 0 [.var 0, .var 1, .var 2])) <|
        -- 120: amp2+=4.0*std::pow(std::abs(M),2)
        .set .r 0 (.add (.loc .r 0) (.mul (.lit 4) (.pow (.abs (.loc .c 0)) 2))))))) <|
  -- 124: return amp2/96.0
  .ret .r (.div (.loc .r 0) (.lit 96))⟩

/-- `ldouble amp2_gplus()` (SM/uguh.cpp:129-142); variables: r 0 `amp2`, c 0 `M`, i 0 `j1`, i 1 `j3` -/
def m_amp2_gplus : Method := ⟨0, 
  -- 130: ldouble amp2
  .seq (.set .r 0 (.lit 0)) <|
  -- 131: cdouble M
  .seq (.set .c 0 (.ofR (.lit 0))) <|
  -- 134: for(int j1=-1;j1<=1;j1+=2)
  .seq (.loop 0 (-1) true (.lit 1) 2 (
    -- 135: for(int j3=-1;j3<=1;j3+=2)
    .loop 1 (-1) true (.lit 1) 2 (
      -- 136: M=amp(j1,2,j3)
      .seq (.set .c 0 (.call 0 [.var 0, .lit 2, .var 1])) <|
      -- 137: amp2+=4.0*std::pow(std::abs(M),2)
      .set .r 0 (.add (.loc .r 0) (.mul (.lit 4) (.pow (.abs (.loc .c 0)) 2)))))) <|
  -- 141: return amp2/48.0
  .ret .r (.div (.loc .r 0) (.lit 48))⟩

end uguh

/-- `class uguh` (SM/uguh.cpp, SM/include/uguh.h:25-33).  Members:
* ldouble: 0 `e`, 1 `gs`, 2 `mu`, 3 `mh`, 4 `MW`, 5 `SW`, 6 `pre`, 7 `sqrt2`
* cdouble: 0 `pDenS`, 1 `pDenU`
* propagator: 0 `prop`
* sproduct: 0 `s12s`, 1 `a12a`, 2 `s23s`, 3 `a23a`, 4 `s13s`, 5 `a13a`, 6 `s243a`, 7 `a243s`, 8 `s241a`, 9 `a241s`, 10 `s2342s`, 11 `a2342a` -/
def uguh : Proc where
  name := "uguh"
  nPar := 6
  ctor := uguh.ctor
  setMasses := uguh.setMasses
  massPar := [2, 3, 4]
  setMomenta := uguh.setMomenta
  methods := [uguh.m_amp2_gplus, uguh.m_amp2, uguh.m_amp]
  amp2 := 1
  others := [("amp2_gplus", 2)]

namespace uhWd

/-- constructor (SM/uhWd.cpp:32-52); parameters: 0 `echarge`, 1 `massu`, 2 `massd`, 3 `massh`, 4 `massW`, 5 `widthW`, 6 `sinW` -/
def ctor : List SInstr := [
  -- 32: e(echarge)
  .set .r 0 (.loc .r 0),
  -- 32: mu(massu)
  .set .r 1 (.loc .r 1),
  -- 32: md(massd)
  .set .r 2 (.loc .r 2),
  -- 32: mh(massh)
  .set .r 3 (.loc .r 3),
  -- 32: MW(massW)
  .set .r 4 (.loc .r 4),
  -- 32: WW(widthW)
  .set .r 5 (.loc .r 5),
  -- 32: SW(sinW)
  .set .r 6 (.loc .r 6),
  -- 32: propu(massu,0)
  .prop 0 (.loc .r 1) (.lit 0),
  -- 32: propd(massd,0)
  .prop 1 (.loc .r 2) (.lit 0),
  -- 32: propW(massW,widthW)
  .prop 2 (.loc .r 4) (.loc .r 5),
  -- 34: p1=particle(mu)
  .part 0 (.mem .r 1),
  -- 35: p2=particle(mh)
  .part 1 (.mem .r 3),
  -- 36: p3=particle(MW)
  .part 2 (.mem .r 4),
  -- 37: p4=particle(md)
  .part 3 (.mem .r 2),
  -- 39: a13a=sproduct(ANGLE,&p1,&p3)
  .sprod 0 ⟨true, 0, true, [], 2, true⟩,
  -- 40: s43s=sproduct(SQUARE,&p4,&p3)
  .sprod 1 ⟨false, 3, true, [], 2, true⟩,
  -- 41: a14a=sproduct(ANGLE,&p1,&p4)
  .sprod 2 ⟨true, 0, true, [], 3, true⟩,
  -- 42: s14s=sproduct(SQUARE,&p1,&p4)
  .sprod 3 ⟨false, 0, true, [], 3, true⟩,
  -- 43: s323a=sproduct(SQUARE,&p3,&p2,&p3)
  .sprod 4 ⟨false, 2, true, [1], 2, true⟩,
  -- 45: s324a=sproduct(SQUARE,&p3,&p2,&p4)
  .sprod 5 ⟨false, 2, true, [1], 3, true⟩,
  -- 47: s123a=sproduct(SQUARE,&p1,&p2,&p3)
  .sprod 6 ⟨false, 0, true, [1], 2, true⟩,
  -- 49: preW=e*e/(2.0*MW*MW*SW*SW)
  .set .r 9 (.div (.mul (.mem .r 0) (.mem .r 0)) (.mul (.mul (.mul (.mul (.lit 2) (.mem .r 4)) (.mem .r 4)) (.mem .r 6)) (.mem .r 6))),
  -- 50: preu=mu*preW
  .set .r 7 (.mul (.mem .r 1) (.mem .r 9)),
  -- 51: pred=md*preW
  .set .r 8 (.mul (.mem .r 2) (.mem .r 9))]

/-- `set_masses` (SM/uhWd.cpp:53-69); parameters: 0 `massu`, 1 `massd`, 2 `massh`, 3 `massW` -/
def setMasses : List SInstr := [
  -- 54: mu=massu
  .set .r 1 (.loc .r 0),
  -- 55: md=massd
  .set .r 2 (.loc .r 1),
  -- 56: mh=massh
  .set .r 3 (.loc .r 2),
  -- 57: MW=massW
  .set .r 4 (.loc .r 3),
  -- 58: p1.set_mass(mu)
  .setMass 0 (.mem .r 1),
  -- 59: p2.set_mass(mh)
  .setMass 1 (.mem .r 3),
  -- 60: p3.set_mass(MW)
  .setMass 2 (.mem .r 4),
  -- 61: p4.set_mass(md)
  .setMass 3 (.mem .r 2),
  -- 62: propu.set_mass(mu)
  .propMass 0 (.mem .r 1),
  -- 63: propd.set_mass(md)
  .propMass 1 (.mem .r 2),
  -- 64: propW.set_mass(MW)
  .propMass 2 (.mem .r 4),
  -- 66: preW=e*e/(2.0*MW*MW*SW*SW)
  .set .r 9 (.div (.mul (.mem .r 0) (.mem .r 0)) (.mul (.mul (.mul (.mul (.lit 2) (.mem .r 4)) (.mem .r 4)) (.mem .r 6)) (.mem .r 6))),
  -- 67: preu=mu*preW
  .set .r 7 (.mul (.mem .r 1) (.mem .r 9)),
  -- 68: pred=md*preW
  .set .r 8 (.mul (.mem .r 2) (.mem .r 9))]

/-- `set_momenta` (SM/uhWd.cpp:70-96); parameters: 0 `mom1`, 1 `mom2`, 2 `mom3`, 3 `mom4` -/
def setMomenta : List SInstr := [
  -- 72: p1.set_momentum(mom1)
  .setMom 0 0,
  -- 73: p2.set_momentum(mom2)
  .setMom 1 1,
  -- 74: p3.set_momentum(mom3)
  .setMom 2 2,
  -- 75: p4.set_momentum(mom4)
  .setMom 3 3,
  -- 77: a13a.update()
  .update 0,
  -- 78: s43s.update()
  .update 1,
  -- 79: a14a.update()
  .update 2,
  -- 80: s14s.update()
  .update 3,
  -- 81: s323a.update()
  .update 4,
  -- 83: s324a.update()
  .update 5,
  -- 85: s123a.update()
  .update 6,
  -- 93: pDenU=propW.denominator(propUP)
  .den .c 1 2 (.sub 0 3),
  -- 94: pDenS=propu.denominator(propSP)
  .den .c 0 0 (.add 0 1),
  -- 95: pDenT=propd.denominator(propTP)
  .den .c 2 1 (.sub 0 2)]

/-- `cdouble amp(ds1,ds3,ds4)` (SM/uhWd.cpp:101-146); variables: i 0 `ds1`, i 1 `ds3`, i 2 `ds4`, c 0 `amplitude`, i 3 `ds3a`, i 4 `ds3b`, i 5 `nCombs`, r 0 `normFactor`, i 6 `i` -/
def m_amp : Method := ⟨3, 
  -- 102: cdouble amplitude
  .seq (.set .c 0 (.ofR (.lit 0))) <|
  -- 107: int nCombs
  .seq (.seti 5 (.loops [1])) <|
  -- 108: ldouble normFactor
  .seq (.set .r 0 (.norm [1])) <|
  -- 110: for(int i=0;i<nCombs;i++)
  .seq (.loop 6 0 false (.var 5) 1 (
    -- 111: get_spinor_spins(ds3,ds3a,ds3b,i)
    .seq (.spins [(1, 3, 4)] (.var 6)) <|
    -- 121: amplitude+=normFactor*preW*(two*MW*MW*a13a.v(ds1,ds3a)*s43s.v(ds4,ds3b)-(md*a14a.v(ds1,ds4)+mu*s14s.v(ds1,ds4))*s323a.v(ds3a,ds3b))/pDenU
    .seq (.set .c 0 (.add (.loc .c 0) (.div (.smul (.mul (.loc .r 0) (.mem .r 9)) (.sub (.mul (.smul (.mul (.mul (.lit 2) (.mem .r 4)) (.mem .r 4)) (.v 0 [.var 0, .var 3])) (.v 1 [.var 2, .var 4])) (.mul (.add (.smul (.mem .r 2) (.v 2 [.var 0, .var 2])) (.smul (.mem .r 1) (.v 3 [.var 0, .var 2]))) (.v 4 [.var 3, .var 4])))) (.mem .c 1)))) <|
    -- 131: amplitude+=normFactor*pred*a13a.v(ds1,ds3a)*(two*md*s43s.v(ds4,ds3b)-s324a.v(ds3b,ds4))/pDenT
    .seq (.set .c 0 (.add (.loc .c 0) (.div (.mul (.smul (.mul (.loc .r 0) (.mem .r 8)) (.v 0 [.var 0, .var 3])) (.sub (.smul (.mul (.lit 2) (.mem .r 2)) (.v 1 [.var 2, .var 4])) (.v 5 [.var 4, .var 2]))) (.mem .c 2)))) <|
    -- 141: amplitude+=normFactor*preu*s43s.v(ds4,ds3a)*(two*mu*a13a.v(ds1,ds3b)+s123a.v(ds1,ds3b))/pDenS
    .set .c 0 (.add (.loc .c 0) (.div (.mul (.smul (.mul (.loc .r 0) (.mem .r 7)) (.v 1 [.var 2, .var 3])) (.add (.smul (.mul (.lit 2) (.mem .r 1)) (.v 0 [.var 0, .var 4])) (.v 6 [.var 0, .var 4]))) (.mem .c 0))))) <|
  -- 145: return amplitude
  .ret .c (.loc .c 0)⟩

/-- `ldouble amp2()` (SM/uhWd.cpp:149-165); variables: r 0 `amp2`, c 0 `M`, i 0 `j1`, i 1 `j3`, i 2 `j4` -/
def m_amp2 : Method := ⟨0, 
  -- 151: ldouble amp2
  .seq (.set .r 0 (.lit 0)) <|
  -- 152: cdouble M
  .seq (.set .c 0 (.ofR (.lit 0))) <|
  -- 155: for(int j1=-1;j1<=1;j1+=2)
  .seq (.loop 0 (-1) true (.lit 1) 2 (
    -- 156: for(int j3=-2;j3<=2;j3+=2)
    .loop 1 (-2) true (.lit 2) 2 (
      -- 157: for(int j4=-1;j4<=1;j4+=2)
      .loop 2 (-1) true (.lit 1) 2 (
        -- 158: M=amp(j1,j3,j4)
        .seq (.set .c 0 (.call 0 [.var 0, .var 1, .var 2])) <|
        -- 160: amp2+=three*std::pow(std::abs(M),2)
        .set .r 0 (.add (.loc .r 0) (.mul (.lit 3) (.pow (.abs (.loc .c 0)) 2))))))) <|
  -- 164: return amp2/6.0
  .ret .r (.div (.loc .r 0) (.lit 6))⟩

end uhWd

/-- `class uhWd` (SM/uhWd.cpp, SM/include/uhWd.h:25-37).  Members:
* ldouble: 0 `e`, 1 `mu`, 2 `md`, 3 `mh`, 4 `MW`, 5 `WW`, 6 `SW`, 7 `preu`, 8 `pred`, 9 `preW`
* cdouble: 0 `pDenS`, 1 `pDenU`, 2 `pDenT`
* propagator: 0 `propu`, 1 `propd`, 2 `propW`
* sproduct: 0 `a13a`, 1 `s43s`, 2 `a14a`, 3 `s14s`, 4 `s323a`, 5 `s324a`, 6 `s123a` -/
def uhWd : Proc where
  name := "uhWd"
  nPar := 7
  ctor := uhWd.ctor
  setMasses := uhWd.setMasses
  massPar := [1, 2, 3, 4]
  setMomenta := uhWd.setMomenta
  methods := [uhWd.m_amp2, uhWd.m_amp]
  amp2 := 1
  others := []

namespace uhuh

/-- constructor (SM/uhuh.cpp:32-45); parameters: 0 `echarge`, 1 `massu`, 2 `massh`, 3 `widthh`, 4 `massW`, 5 `sinW` -/
def ctor : List SInstr := [
  -- 32: e(echarge)
  .set .r 0 (.loc .r 0),
  -- 32: mu(massu)
  .set .r 1 (.loc .r 1),
  -- 32: mh(massh)
  .set .r 2 (.loc .r 2),
  -- 32: wh(widthh)
  .set .r 3 (.loc .r 3),
  -- 32: MW(massW)
  .set .r 4 (.loc .r 4),
  -- 32: SW(sinW)
  .set .r 5 (.loc .r 5),
  -- 32: p1(particle(mu))
  .part 0 (.mem .r 1),
  -- 32: p2(particle(mh))
  .part 1 (.mem .r 2),
  -- 32: p3(particle(mu))
  .part 2 (.mem .r 1),
  -- 32: p4(particle(mh))
  .part 3 (.mem .r 2),
  -- 32: proph(mh,wh)
  .prop 0 (.mem .r 2) (.mem .r 3),
  -- 32: propu(mu,0)
  .prop 1 (.mem .r 1) (.lit 0),
  -- 32: s13s(sproduct(SQUARE,&p1,&p3))
  .sprod 0 ⟨false, 0, true, [], 2, true⟩,
  -- 32: a13a(sproduct(ANGLE,&p1,&p3))
  .sprod 1 ⟨true, 0, true, [], 2, true⟩,
  -- 32: s123a(sproduct(SQUARE,&p1,&p2,&p3))
  .sprod 2 ⟨false, 0, true, [1], 2, true⟩,
  -- 32: s321a(sproduct(SQUARE,&p3,&p2,&p1))
  .sprod 3 ⟨false, 2, true, [1], 0, true⟩,
  -- 43: prehS=3.0*e*e*mu*mh*mh/(4.0*MW*MW*SW*SW)
  .set .r 6 (.div (.mul (.mul (.mul (.mul (.mul (.lit 3) (.mem .r 0)) (.mem .r 0)) (.mem .r 1)) (.mem .r 2)) (.mem .r 2)) (.mul (.mul (.mul (.mul (.lit 4) (.mem .r 4)) (.mem .r 4)) (.mem .r 5)) (.mem .r 5))),
  -- 44: prehTU=e*e*mu*mu/(4.0*MW*MW*SW*SW)
  .set .r 7 (.div (.mul (.mul (.mul (.mem .r 0) (.mem .r 0)) (.mem .r 1)) (.mem .r 1)) (.mul (.mul (.mul (.mul (.lit 4) (.mem .r 4)) (.mem .r 4)) (.mem .r 5)) (.mem .r 5)))]

/-- `set_masses` (SM/uhuh.cpp:46-59); parameters: 0 `massu`, 1 `massh`, 2 `massW` -/
def setMasses : List SInstr := [
  -- 48: mu=massu
  .set .r 1 (.loc .r 0),
  -- 49: propu.set_mass(mu)
  .propMass 1 (.mem .r 1),
  -- 50: mh=massh
  .set .r 2 (.loc .r 1),
  -- 51: proph.set_mass(mh)
  .propMass 0 (.mem .r 2),
  -- 52: MW=massW
  .set .r 4 (.loc .r 2),
  -- 53: p1.set_mass(mu)
  .setMass 0 (.mem .r 1),
  -- 54: p2.set_mass(mh)
  .setMass 1 (.mem .r 2),
  -- 55: p3.set_mass(mu)
  .setMass 2 (.mem .r 1),
  -- 56: p4.set_mass(mh)
  .setMass 3 (.mem .r 2),
  -- 57: prehS=3.0*e*e*mu*mh*mh/(4.0*MW*MW*SW*SW)
  .set .r 6 (.div (.mul (.mul (.mul (.mul (.mul (.lit 3) (.mem .r 0)) (.mem .r 0)) (.mem .r 1)) (.mem .r 2)) (.mem .r 2)) (.mul (.mul (.mul (.mul (.lit 4) (.mem .r 4)) (.mem .r 4)) (.mem .r 5)) (.mem .r 5))),
  -- 58: prehTU=e*e*mu*mu/(4.0*MW*MW*SW*SW)
  .set .r 7 (.div (.mul (.mul (.mul (.mem .r 0) (.mem .r 0)) (.mem .r 1)) (.mem .r 1)) (.mul (.mul (.mul (.mul (.lit 4) (.mem .r 4)) (.mem .r 4)) (.mem .r 5)) (.mem .r 5)))]

/-- `set_momenta` (SM/uhuh.cpp:60-80); parameters: 0 `mom1`, 1 `mom2`, 2 `mom3`, 3 `mom4` -/
def setMomenta : List SInstr := [
  -- 62: p1.set_momentum(mom1)
  .setMom 0 0,
  -- 63: p2.set_momentum(mom2)
  .setMom 1 1,
  -- 64: p3.set_momentum(mom3)
  .setMom 2 2,
  -- 65: p4.set_momentum(mom4)
  .setMom 3 3,
  -- 66: s13s.update()
  .update 0,
  -- 67: a13a.update()
  .update 1,
  -- 68: s123a.update()
  .update 2,
  -- 69: s321a.update()
  .update 3,
  -- 77: pDenTh=proph.denominator(propPT)
  .den .c 0 0 (.sub 0 2),
  -- 78: pDenSu=propu.denominator(propPS)
  .den .c 1 1 (.add 0 1),
  -- 79: pDenUu=propu.denominator(propPU)
  .den .c 2 1 (.sub 0 3)]

/-- `cdouble amp(ds1,ds3)` (SM/uhuh.cpp:85-120); variables: i 0 `ds1`, i 1 `ds3`, c 0 `amplitude` -/
def m_amp : Method := ⟨2, 
  -- 87: cdouble amplitude
  .seq (.set .c 0 (.ofR (.lit 0))) <|
  -- 98: amplitude+=prehS*(s13s.v(ds1,ds3)-a13a.v(ds1,ds3))/pDenTh
  .seq (.set .c 0 (.add (.loc .c 0) (.div (.smul (.mem .r 6) (.sub (.v 0 [.var 0, .var 1]) (.v 1 [.var 0, .var 1]))) (.mem .c 0)))) <|
  -- 108: amplitude+=prehTU*(two*mu*(s13s.v(ds1,ds3)-a13a.v(ds1,ds3))-s123a.v(ds1,ds3)+s321a.v(ds3,ds1))/pDenSu
  .seq (.set .c 0 (.add (.loc .c 0) (.div (.smul (.mem .r 7) (.add (.sub (.smul (.mul (.lit 2) (.mem .r 1)) (.sub (.v 0 [.var 0, .var 1]) (.v 1 [.var 0, .var 1]))) (.v 2 [.var 0, .var 1])) (.v 3 [.var 1, .var 0]))) (.mem .c 1)))) <|
  -- 117: amplitude+=prehTU*(two*mu*(s13s.v(ds1,ds3)-a13a.v(ds1,ds3))+s123a.v(ds1,ds3)-s321a.v(ds3,ds1))/pDenUu
  .seq (.set .c 0 (.add (.loc .c 0) (.div (.smul (.mem .r 7) (.sub (.add (.smul (.mul (.lit 2) (.mem .r 1)) (.sub (.v 0 [.var 0, .var 1]) (.v 1 [.var 0, .var 1]))) (.v 2 [.var 0, .var 1])) (.v 3 [.var 1, .var 0]))) (.mem .c 2)))) <|
  -- 119: return amplitude
  .ret .c (.loc .c 0)⟩

/-- `ldouble amp2()` (SM/uhuh.cpp:123-136); variables: r 0 `amp2`, c 0 `M`, i 0 `j1`, i 1 `j3` -/
def m_amp2 : Method := ⟨0, 
  -- 124: ldouble amp2
  .seq (.set .r 0 (.lit 0)) <|
  -- 125: cdouble M
  .seq (.set .c 0 (.ofR (.lit 0))) <|
  -- 128: for(int j1=-1;j1<=1;j1+=2)
  .seq (.loop 0 (-1) true (.lit 1) 2 (
    -- 129: for(int j3=-1;j3<=1;j3+=2)
    .loop 1 (-1) true (.lit 1) 2 (
      -- 130: M=amp(j1,j3)
      .seq (.set .c 0 (.call 0 [.var 0, .var 1])) <|
      -- 131: amp2+=3.0*std::pow(std::abs(M),2)
      .set .r 0 (.add (.loc .r 0) (.mul (.lit 3) (.pow (.abs (.loc .c 0)) 2)))))) <|
  -- 135: return amp2/6.0
  .ret .r (.div (.loc .r 0) (.lit 6))⟩

end uhuh

/-- `class uhuh` (SM/uhuh.cpp, SM/include/uhuh.h:25-32).  Members:
* ldouble: 0 `e`, 1 `mu`, 2 `mh`, 3 `wh`, 4 `MW`, 5 `SW`, 6 `prehS`, 7 `prehTU`
* cdouble: 0 `pDenTh`, 1 `pDenSu`, 2 `pDenUu`
* propagator: 0 `proph`, 1 `propu`
* sproduct: 0 `s13s`, 1 `a13a`, 2 `s123a`, 3 `s321a` -/
def uhuh : Proc where
  name := "uhuh"
  nPar := 6
  ctor := uhuh.ctor
  setMasses := uhuh.setMasses
  massPar := [1, 2, 4]
  setMomenta := uhuh.setMomenta
  methods := [uhuh.m_amp2, uhuh.m_amp]
  amp2 := 1
  others := []

namespace ulnd

/-- constructor (SM/ulnd.cpp:32-45); parameters: 0 `echarge`, 1 `massu`, 2 `massd`, 3 `masstau`, 4 `massW`, 5 `widthW`, 6 `sinW` -/
def ctor : List SInstr := [
  -- 32: e(echarge)
  .set .r 0 (.loc .r 0),
  -- 32: mu(massu)
  .set .r 1 (.loc .r 1),
  -- 32: md(massd)
  .set .r 2 (.loc .r 2),
  -- 32: ml(masstau)
  .set .r 3 (.loc .r 3),
  -- 32: MW(massW)
  .set .r 4 (.loc .r 4),
  -- 32: WW(widthW)
  .set .r 5 (.loc .r 5),
  -- 32: SW(sinW)
  .set .r 6 (.loc .r 6),
  -- 32: p1(particle(mu))
  .part 0 (.mem .r 1),
  -- 32: p2(particle(ml))
  .part 1 (.mem .r 3),
  -- 32: p3(particle(0))
  .part 2 (.lit 0),
  -- 32: p4(particle(md))
  .part 3 (.mem .r 2),
  -- 32: prop(massW,widthW)
  .prop 0 (.loc .r 4) (.loc .r 5),
  -- 32: a14a(sproduct(ANGLE,&p1,&p4))
  .sprod 0 ⟨true, 0, true, [], 3, true⟩,
  -- 32: s14s(sproduct(SQUARE,&p1,&p4))
  .sprod 1 ⟨false, 0, true, [], 3, true⟩,
  -- 32: a23a(sproduct(ANGLE,&p2,&p3))
  .sprod 2 ⟨true, 1, true, [], 2, true⟩,
  -- 32: a34a(sproduct(ANGLE,&p3,&p4))
  .sprod 3 ⟨true, 2, true, [], 3, true⟩,
  -- 32: s12s(sproduct(SQUARE,&p1,&p2))
  .sprod 4 ⟨false, 0, true, [], 1, true⟩,
  -- 32: a12a(sproduct(ANGLE,&p1,&p2))
  .sprod 5 ⟨true, 0, true, [], 1, true⟩,
  -- 44: preW=e*e/(4.0*MW*MW*SW*SW)
  .set .r 7 (.div (.mul (.mem .r 0) (.mem .r 0)) (.mul (.mul (.mul (.mul (.lit 4) (.mem .r 4)) (.mem .r 4)) (.mem .r 6)) (.mem .r 6)))]

/-- `set_masses` (SM/ulnd.cpp:46-56); parameters: 0 `massu`, 1 `massd`, 2 `masstau`, 3 `massW` -/
def setMasses : List SInstr := [
  -- 47: mu=massu
  .set .r 1 (.loc .r 0),
  -- 48: md=massd
  .set .r 2 (.loc .r 1),
  -- 49: ml=masstau
  .set .r 3 (.loc .r 2),
  -- 50: MW=massW
  .set .r 4 (.loc .r 3),
  -- 51: p1.set_mass(mu)
  .setMass 0 (.mem .r 1),
  -- 52: p2.set_mass(ml)
  .setMass 1 (.mem .r 3),
  -- 53: p4.set_mass(md)
  .setMass 3 (.mem .r 2),
  -- 54: prop.set_mass(massW)
  .propMass 0 (.loc .r 3),
  -- 55: preW=e*e/(4.0*MW*MW*SW*SW)
  .set .r 7 (.div (.mul (.mem .r 0) (.mem .r 0)) (.mul (.mul (.mul (.mul (.lit 4) (.mem .r 4)) (.mem .r 4)) (.mem .r 6)) (.mem .r 6)))]

/-- `set_momenta` (SM/ulnd.cpp:57-75); parameters: 0 `mom1`, 1 `mom2`, 2 `mom3`, 3 `mom4` -/
def setMomenta : List SInstr := [
  -- 59: p1.set_momentum(mom1)
  .setMom 0 0,
  -- 60: p2.set_momentum(mom2)
  .setMom 1 1,
  -- 61: p3.set_momentum(mom3)
  .setMom 2 2,
  -- 62: p4.set_momentum(mom4)
  .setMom 3 3,
  -- 63: a14a.update()
  .update 0,
  -- 64: s14s.update()
  .update 1,
  -- 65: a23a.update()
  .update 2,
  -- 66: s12s.update()
  .update 4,
  -- 67: a12a.update()
  .update 5,
  -- 68: a34a.update()
  .update 3,
  -- 74: pDenU=prop.denominator(propP)
  .den .c 0 0 (.sub 0 3)]

/-- `cdouble amp(ds1,ds2,ds4)` (SM/ulnd.cpp:80-93); variables: i 0 `ds1`, i 1 `ds2`, i 2 `ds4` -/
def m_amp : Method := ⟨3, 
  -- 88: return -preW*2.0*(+2.0*MW*MW*s12s.v(ds1,ds2)*a34a.v(ds4)+mu*ml*a23a.v(ds2)*a14a.v(ds1,ds4)+ml*md*a23a.v(ds2)*s14s.v(ds1,ds4))/pDenU
  .ret .c (.div (.smul (.mul (.neg (.mem .r 7)) (.lit 2)) (.add (.add (.mul (.smul (.mul (.mul (.lit 2) (.mem .r 4)) (.mem .r 4)) (.v 4 [.var 0, .var 1])) (.v 3 [.var 2])) (.mul (.smul (.mul (.mem .r 1) (.mem .r 3)) (.v 2 [.var 1])) (.v 0 [.var 0, .var 2]))) (.mul (.smul (.mul (.mem .r 3) (.mem .r 2)) (.v 2 [.var 1])) (.v 1 [.var 0, .var 2])))) (.mem .c 0))⟩

/-- `ldouble amp2()` (SM/ulnd.cpp:96-111); variables: r 0 `amp2`, c 0 `M`, i 0 `j1`, i 1 `j2`, i 2 `j4` -/
def m_amp2 : Method := ⟨0, 
  -- 97: ldouble amp2
  .seq (.set .r 0 (.lit 0)) <|
  -- 99: cdouble M
  .seq (.set .c 0 (.ofR (.lit 0))) <|
  -- 102: for(int j1=-1;j1<=1;j1+=2)
  .seq (.loop 0 (-1) true (.lit 1) 2 (
    -- 103: for(int j2=-1;j2<=1;j2+=2)
    .loop 1 (-1) true (.lit 1) 2 (
      -- 104: for(int j4=-1;j4<=1;j4+=2)
      .loop 2 (-1) true (.lit 1) 2 (
        -- 105: M=amp(j1,j2,j4)
        .seq (.set .c 0 (.call 0 [.var 0, .var 1, .var 2])) <|
        -- 106: amp2+=three*std::pow(std::abs(M),2)
        .set .r 0 (.add (.loc .r 0) (.mul (.lit 3) (.pow (.abs (.loc .c 0)) 2))))))) <|
  -- 110: return amp2/12.0
  .ret .r (.div (.loc .r 0) (.lit 12))⟩

end ulnd

/-- `class ulnd` (SM/ulnd.cpp, SM/include/ulnd.h:25-33).  Members:
* ldouble: 0 `e`, 1 `mu`, 2 `md`, 3 `ml`, 4 `MW`, 5 `WW`, 6 `SW`, 7 `preW`
* cdouble: 0 `pDenU`
* propagator: 0 `prop`
* sproduct: 0 `a14a`, 1 `s14s`, 2 `a23a`, 3 `a34a`, 4 `s12s`, 5 `a12a` -/
def ulnd : Proc where
  name := "ulnd"
  nPar := 7
  ctor := ulnd.ctor
  setMasses := ulnd.setMasses
  massPar := [1, 2, 3, 4]
  setMomenta := ulnd.setMomenta
  methods := [ulnd.m_amp2, ulnd.m_amp]
  amp2 := 1
  others := []

namespace unnu

/-- constructor (SM/unnu.cpp:32-57); parameters: 0 `echarge`, 1 `massu`, 2 `massW`, 3 `sinW`, 4 `widthZ` -/
def ctor : List SInstr := [
  -- 32: e(echarge)
  .set .r 0 (.loc .r 0),
  -- 32: mu(massu)
  .set .r 1 (.loc .r 1),
  -- 32: WZ(widthZ)
  .set .r 3 (.loc .r 4),
  -- 32: MW(massW)
  .set .r 4 (.loc .r 2),
  -- 32: SW(sinW)
  .set .r 5 (.loc .r 3),
  -- 32: CW(std::sqrt(1.0-sinW*sinW))
  .set .r 6 (.sqrt (.sub (.lit 1) (.mul (.loc .r 3) (.loc .r 3)))),
  -- 32: p1(particle(mu))
  .part 0 (.mem .r 1),
  -- 32: p2(particle(0))
  .part 1 (.lit 0),
  -- 32: p3(particle(0))
  .part 2 (.lit 0),
  -- 32: p4(particle(mu))
  .part 3 (.mem .r 1),
  -- 32: a13a(sproduct(ANGLE,&p1,&p3))
  .sprod 0 ⟨true, 0, true, [], 2, true⟩,
  -- 32: s13s(sproduct(SQUARE,&p1,&p3))
  .sprod 1 ⟨false, 0, true, [], 2, true⟩,
  -- 32: a14a(sproduct(ANGLE,&p1,&p4))
  .sprod 2 ⟨true, 0, true, [], 3, true⟩,
  -- 32: s14s(sproduct(SQUARE,&p1,&p4))
  .sprod 3 ⟨false, 0, true, [], 3, true⟩,
  -- 32: a23a(sproduct(ANGLE,&p2,&p3))
  .sprod 4 ⟨true, 1, true, [], 2, true⟩,
  -- 32: s23s(sproduct(SQUARE,&p2,&p3))
  .sprod 5 ⟨false, 1, true, [], 2, true⟩,
  -- 32: a24a(sproduct(ANGLE,&p2,&p4))
  .sprod 6 ⟨true, 1, true, [], 3, true⟩,
  -- 32: s24s(sproduct(SQUARE,&p2,&p4))
  .sprod 7 ⟨false, 1, true, [], 3, true⟩,
  -- 32: s12s(sproduct(SQUARE,&p1,&p2))
  .sprod 8 ⟨false, 0, true, [], 1, true⟩,
  -- 32: a12a(sproduct(ANGLE,&p1,&p2))
  .sprod 9 ⟨true, 0, true, [], 1, true⟩,
  -- 32: s34s(sproduct(SQUARE,&p3,&p4))
  .sprod 10 ⟨false, 2, true, [], 3, true⟩,
  -- 32: a34a(sproduct(ANGLE,&p3,&p4))
  .sprod 11 ⟨true, 2, true, [], 3, true⟩,
  -- 50: MZ=MW/CW
  .set .r 2 (.div (.mem .r 4) (.mem .r 6)),
  -- 51: propZ.set_mass(MZ)
  .propMass 0 (.mem .r 2),
  -- 52: gLu=1.0-4.0/3.0*SW*SW
  .set .r 8 (.sub (.lit 1) (.mul (.mul (.div (.lit 4) (.lit 3)) (.mem .r 5)) (.mem .r 5))),
  -- 53: gRu=-4.0/3.0*SW*SW
  .set .r 9 (.mul (.mul (.div (.neg (.lit 4)) (.lit 3)) (.mem .r 5)) (.mem .r 5)),
  -- 54: gLn=1.0
  .set .r 10 (.lit 1),
  -- 55: gRn=0
  .set .r 11 (.lit 0),
  -- 56: preZ=e*e/(4.0*CW*CW*SW*SW)
  .set .r 12 (.div (.mul (.mem .r 0) (.mem .r 0)) (.mul (.mul (.mul (.mul (.lit 4) (.mem .r 6)) (.mem .r 6)) (.mem .r 5)) (.mem .r 5)))]

/-- `set_masses` (SM/unnu.cpp:58-65); parameters: 0 `massu`, 1 `massW` -/
def setMasses : List SInstr := [
  -- 59: mu=massu
  .set .r 1 (.loc .r 0),
  -- 60: MW=massW
  .set .r 4 (.loc .r 1),
  -- 61: MZ=MW/CW
  .set .r 2 (.div (.mem .r 4) (.mem .r 6)),
  -- 62: propZ.set_mass(MZ)
  .propMass 0 (.mem .r 2),
  -- 63: p1.set_mass(mu)
  .setMass 0 (.mem .r 1),
  -- 64: p4.set_mass(mu)
  .setMass 3 (.mem .r 1)]

/-- `set_momenta` (SM/unnu.cpp:66-89); parameters: 0 `mom1`, 1 `mom2`, 2 `mom3`, 3 `mom4` -/
def setMomenta : List SInstr := [
  -- 68: p1.set_momentum(mom1)
  .setMom 0 0,
  -- 69: p2.set_momentum(mom2)
  .setMom 1 1,
  -- 70: p3.set_momentum(mom3)
  .setMom 2 2,
  -- 71: p4.set_momentum(mom4)
  .setMom 3 3,
  -- 72: a13a.update()
  .update 0,
  -- 73: s13s.update()
  .update 1,
  -- 74: a14a.update()
  .update 2,
  -- 75: s14s.update()
  .update 3,
  -- 76: a23a.update()
  .update 4,
  -- 77: s23s.update()
  .update 5,
  -- 78: a24a.update()
  .update 6,
  -- 79: s24s.update()
  .update 7,
  -- 80: s12s.update()
  .update 8,
  -- 81: a12a.update()
  .update 9,
  -- 82: s34s.update()
  .update 10,
  -- 83: a34a.update()
  .update 11,
  -- 88: pDenUZ=propZ.denominator(propP)
  .den .c 0 0 (.sub 0 3)]

/-- `cdouble amp(ds1,ds4)` (SM/unnu.cpp:94-119); variables: i 0 `ds1`, i 1 `ds4`, c 0 `amplitude` -/
def m_amp : Method := ⟨2, 
  -- 96: cdouble amplitude
  .seq (.set .c 0 (.ofR (.lit 0))) <|
  -- 112: amplitude+=+two*preZ*(gLu*gLn*s34s.v(ds4)*a12a.v(ds1)-gLn*gRu*s13s.v(ds1)*a24a.v(ds4))/pDenUZ
  .seq (.set .c 0 (.add (.loc .c 0) (.div (.smul (.mul (.lit 2) (.mem .r 12)) (.sub (.mul (.smul (.mul (.mem .r 8) (.mem .r 10)) (.v 10 [.var 1])) (.v 9 [.var 0])) (.mul (.smul (.mul (.mem .r 10) (.mem .r 9)) (.v 1 [.var 0])) (.v 6 [.var 1])))) (.mem .c 0)))) <|
  -- 118: return amplitude
  .ret .c (.loc .c 0)⟩

/-- `ldouble amp2()` (SM/unnu.cpp:122-136); variables: r 0 `amp2`, c 0 `M`, i 0 `j1`, i 1 `j2` -/
def m_amp2 : Method := ⟨0, 
  -- 123: ldouble amp2
  .seq (.set .r 0 (.lit 0)) <|
  -- 125: cdouble M
  .seq (.set .c 0 (.ofR (.lit 0))) <|
  -- 128: for(int j1=-1;j1<=1;j1+=2)
  .seq (.loop 0 (-1) true (.lit 1) 2 (
    -- 129: for(int j2=-1;j2<=1;j2+=2)
    .loop 1 (-1) true (.lit 1) 2 (
      -- 130: M=amp(j1,j2)
      .seq (.set .c 0 (.call 0 [.var 0, .var 1])) <|
      -- 131: amp2+=three*std::pow(std::abs(M),2)
      .set .r 0 (.add (.loc .r 0) (.mul (.lit 3) (.pow (.abs (.loc .c 0)) 2)))))) <|
  -- 135: return amp2/6.0
  .ret .r (.div (.loc .r 0) (.lit 6))⟩

end unnu

/-- `class unnu` (SM/unnu.cpp, SM/include/unnu.h:25-33).  Members:
* ldouble: 0 `e`, 1 `mu`, 2 `MZ`, 3 `WZ`, 4 `MW`, 5 `SW`, 6 `CW`, 7 `preh`, 8 `gLu`, 9 `gRu`, 10 `gLn`, 11 `gRn`, 12 `preZ`, 13 `preZ0`
* cdouble: 0 `pDenUZ`
* propagator: 0 `propZ`
* sproduct: 0 `a13a`, 1 `s13s`, 2 `a14a`, 3 `s14s`, 4 `a23a`, 5 `s23s`, 6 `a24a`, 7 `s24s`, 8 `s12s`, 9 `a12a`, 10 `s34s`, 11 `a34a` -/
def unnu : Proc where
  name := "unnu"
  nPar := 5
  ctor := unnu.ctor
  setMasses := unnu.setMasses
  massPar := [1, 2]
  setMomenta := unnu.setMomenta
  methods := [unnu.m_amp2, unnu.m_amp]
  amp2 := 1
  others := []

namespace usus

/-- constructor (SM/usus.cpp:32-60); parameters: 0 `echarge`, 1 `gscharge`, 2 `massu`, 3 `masss`, 4 `massh`, 5 `widthh`, 6 `massW`, 7 `sinW`, 8 `widthZ` -/
def ctor : List SInstr := [
  -- 32: e(echarge)
  .set .r 0 (.loc .r 0),
  -- 32: gs(gscharge)
  .set .r 1 (.loc .r 1),
  -- 32: mu(massu)
  .set .r 2 (.loc .r 2),
  -- 32: ms(masss)
  .set .r 3 (.loc .r 3),
  -- 32: mh(massh)
  .set .r 4 (.loc .r 4),
  -- 32: wh(widthh)
  .set .r 5 (.loc .r 5),
  -- 32: WZ(widthZ)
  .set .r 7 (.loc .r 8),
  -- 32: MW(massW)
  .set .r 8 (.loc .r 6),
  -- 32: SW(sinW)
  .set .r 9 (.loc .r 7),
  -- 32: CW(std::sqrt(1.0-sinW*sinW))
  .set .r 10 (.sqrt (.sub (.lit 1) (.mul (.loc .r 7) (.loc .r 7)))),
  -- 32: p1(particle(mu))
  .part 0 (.mem .r 2),
  -- 32: p2(particle(ms))
  .part 1 (.mem .r 3),
  -- 32: p3(particle(mu))
  .part 2 (.mem .r 2),
  -- 32: p4(particle(ms))
  .part 3 (.mem .r 3),
  -- 32: propAG(0,0)
  .prop 0 (.lit 0) (.lit 0),
  -- 32: proph(mh,wh)
  .prop 1 (.mem .r 4) (.mem .r 5),
  -- 32: a13a(sproduct(ANGLE,&p1,&p3))
  .sprod 0 ⟨true, 0, true, [], 2, true⟩,
  -- 32: s13s(sproduct(SQUARE,&p1,&p3))
  .sprod 1 ⟨false, 0, true, [], 2, true⟩,
  -- 32: a14a(sproduct(ANGLE,&p1,&p4))
  .sprod 2 ⟨true, 0, true, [], 3, true⟩,
  -- 32: s14s(sproduct(SQUARE,&p1,&p4))
  .sprod 3 ⟨false, 0, true, [], 3, true⟩,
  -- 32: a23a(sproduct(ANGLE,&p2,&p3))
  .sprod 4 ⟨true, 1, true, [], 2, true⟩,
  -- 32: s23s(sproduct(SQUARE,&p2,&p3))
  .sprod 5 ⟨false, 1, true, [], 2, true⟩,
  -- 32: a24a(sproduct(ANGLE,&p2,&p4))
  .sprod 6 ⟨true, 1, true, [], 3, true⟩,
  -- 32: s24s(sproduct(SQUARE,&p2,&p4))
  .sprod 7 ⟨false, 1, true, [], 3, true⟩,
  -- 32: s12s(sproduct(SQUARE,&p1,&p2))
  .sprod 8 ⟨false, 0, true, [], 1, true⟩,
  -- 32: a12a(sproduct(ANGLE,&p1,&p2))
  .sprod 9 ⟨true, 0, true, [], 1, true⟩,
  -- 32: s34s(sproduct(SQUARE,&p3,&p4))
  .sprod 10 ⟨false, 2, true, [], 3, true⟩,
  -- 32: a34a(sproduct(ANGLE,&p3,&p4))
  .sprod 11 ⟨true, 2, true, [], 3, true⟩,
  -- 51: MZ=MW/CW
  .set .r 6 (.div (.mem .r 8) (.mem .r 10)),
  -- 52: propZ.set_mass(MZ)
  .propMass 2 (.mem .r 6),
  -- 53: preh=e*e*mu*ms/(4.0*MW*MW*SW*SW)
  .set .r 11 (.div (.mul (.mul (.mul (.mem .r 0) (.mem .r 0)) (.mem .r 2)) (.mem .r 3)) (.mul (.mul (.mul (.mul (.lit 4) (.mem .r 8)) (.mem .r 8)) (.mem .r 9)) (.mem .r 9))),
  -- 54: gLu=1.0-4.0/3.0*SW*SW
  .set .r 12 (.sub (.lit 1) (.mul (.mul (.div (.lit 4) (.lit 3)) (.mem .r 9)) (.mem .r 9))),
  -- 55: gRu=-4.0/3.0*SW*SW
  .set .r 13 (.mul (.mul (.div (.neg (.lit 4)) (.lit 3)) (.mem .r 9)) (.mem .r 9)),
  -- 56: gLd=-1.0+2.0/3.0*SW*SW
  .set .r 14 (.add (.neg (.lit 1)) (.mul (.mul (.div (.lit 2) (.lit 3)) (.mem .r 9)) (.mem .r 9))),
  -- 57: gRd=2.0/3.0*SW*SW
  .set .r 15 (.mul (.mul (.div (.lit 2) (.lit 3)) (.mem .r 9)) (.mem .r 9)),
  -- 58: preZ=e*e/(4.0*CW*CW*SW*SW)
  .set .r 16 (.div (.mul (.mem .r 0) (.mem .r 0)) (.mul (.mul (.mul (.mul (.lit 4) (.mem .r 10)) (.mem .r 10)) (.mem .r 9)) (.mem .r 9))),
  -- 59: preZ0=preZ*(gLu-gRu)*(gLd-gRd)*mu*ms/MZ/MZ
  .set .r 17 (.div (.div (.mul (.mul (.mul (.mul (.mem .r 16) (.sub (.mem .r 12) (.mem .r 13))) (.sub (.mem .r 14) (.mem .r 15))) (.mem .r 2)) (.mem .r 3)) (.mem .r 6)) (.mem .r 6))]

/-- `set_masses` (SM/usus.cpp:61-75); parameters: 0 `massu`, 1 `masss`, 2 `massh`, 3 `massW` -/
def setMasses : List SInstr := [
  -- 62: mu=massu
  .set .r 2 (.loc .r 0),
  -- 63: ms=masss
  .set .r 3 (.loc .r 1),
  -- 64: mh=massh
  .set .r 4 (.loc .r 2),
  -- 65: proph.set_mass(mh)
  .propMass 1 (.mem .r 4),
  -- 66: MW=massW
  .set .r 8 (.loc .r 3),
  -- 67: MZ=MW/CW
  .set .r 6 (.div (.mem .r 8) (.mem .r 10)),
  -- 68: propZ.set_mass(MZ)
  .propMass 2 (.mem .r 6),
  -- 69: p1.set_mass(mu)
  .setMass 0 (.mem .r 2),
  -- 70: p2.set_mass(ms)
  .setMass 1 (.mem .r 3),
  -- 71: p3.set_mass(mu)
  .setMass 2 (.mem .r 2),
  -- 72: p4.set_mass(ms)
  .setMass 3 (.mem .r 3),
  -- 73: preh=e*e*mu*ms/(4*MW*MW*SW*SW)
  .set .r 11 (.div (.mul (.mul (.mul (.mem .r 0) (.mem .r 0)) (.mem .r 2)) (.mem .r 3)) (.mul (.mul (.mul (.mul (.lit 4) (.mem .r 8)) (.mem .r 8)) (.mem .r 9)) (.mem .r 9))),
  -- 74: preZ0=preZ*(gLu-gRu)*(gLd-gRd)*mu*ms/MZ/MZ
  .set .r 17 (.div (.div (.mul (.mul (.mul (.mul (.mem .r 16) (.sub (.mem .r 12) (.mem .r 13))) (.sub (.mem .r 14) (.mem .r 15))) (.mem .r 2)) (.mem .r 3)) (.mem .r 6)) (.mem .r 6))]

/-- `set_momenta` (SM/usus.cpp:76-101); parameters: 0 `mom1`, 1 `mom2`, 2 `mom3`, 3 `mom4` -/
def setMomenta : List SInstr := [
  -- 78: p1.set_momentum(mom1)
  .setMom 0 0,
  -- 79: p2.set_momentum(mom2)
  .setMom 1 1,
  -- 80: p3.set_momentum(mom3)
  .setMom 2 2,
  -- 81: p4.set_momentum(mom4)
  .setMom 3 3,
  -- 82: a13a.update()
  .update 0,
  -- 83: s13s.update()
  .update 1,
  -- 84: a14a.update()
  .update 2,
  -- 85: s14s.update()
  .update 3,
  -- 86: a23a.update()
  .update 4,
  -- 87: s23s.update()
  .update 5,
  -- 88: a24a.update()
  .update 6,
  -- 89: s24s.update()
  .update 7,
  -- 90: s12s.update()
  .update 8,
  -- 91: a12a.update()
  .update 9,
  -- 92: s34s.update()
  .update 10,
  -- 93: a34a.update()
  .update 11,
  -- 98: pDenTAG=propAG.denominator(propP)
  .den .c 0 0 (.sub 0 2),
  -- 99: pDenTh=proph.denominator(propP)
  .den .c 1 1 (.sub 0 2),
  -- 100: pDenTZ=propZ.denominator(propP)
  .den .c 2 2 (.sub 0 2)]

/-- `cdouble amp_gluon(ds1,ds2,ds3,ds4)` (SM/usus.cpp:109-127); variables: i 0 `ds1`, i 1 `ds2`, i 2 `ds3`, i 3 `ds4`, c 0 `amplitude` -/
def m_amp_gluon : Method := ⟨4, 
  -- 111: cdouble amplitude
  .seq (.set .c 0 (.ofR (.lit 0))) <|
  -- 121: amplitude=-two*gs*gs*(+a14a.v(ds1,ds4)*s23s.v(ds2,ds3)+a12a.v(ds1,ds2)*s34s.v(ds3,ds4)+s14s.v(ds1,ds4)*a23a.v(ds2,ds3)+s12s.v(ds1,ds2)*a34a.v(ds3,ds4))/pDenTAG
  .seq (.set .c 0 (.div (.smul (.mul (.mul (.neg (.lit 2)) (.mem .r 1)) (.mem .r 1)) (.add (.add (.add (.mul (.v 2 [.var 0, .var 3]) (.v 5 [.var 1, .var 2])) (.mul (.v 9 [.var 0, .var 1]) (.v 10 [.var 2, .var 3]))) (.mul (.v 3 [.var 0, .var 3]) (.v 4 [.var 1, .var 2]))) (.mul (.v 8 [.var 0, .var 1]) (.v 11 [.var 2, .var 3])))) (.mem .c 0))) <|
  -- 126: return amplitude
  .ret .c (.loc .c 0)⟩

/-- `cdouble amp_rest(ds1,ds2,ds3,ds4)` (SM/usus.cpp:128-184); variables: i 0 `ds1`, i 1 `ds2`, i 2 `ds3`, i 3 `ds4`, c 0 `amplitude` -/
def m_amp_rest : Method := ⟨4, 
  -- 130: cdouble amplitude
  .seq (.set .c 0 (.ofR (.lit 0))) <|
  -- 140: amplitude=two*e*e*2.0/9.0*(+a14a.v(ds1,ds4)*s23s.v(ds2,ds3)+a12a.v(ds1,ds2)*s34s.v(ds3,ds4)+s14s.v(ds1,ds4)*a23a.v(ds2,ds3)+s12s.v(ds1,ds2)*a34a.v(ds3,ds4))/pDenTAG
  .seq (.set .c 0 (.div (.smul (.div (.mul (.mul (.mul (.lit 2) (.mem .r 0)) (.mem .r 0)) (.lit 2)) (.lit 9)) (.add (.add (.add (.mul (.v 2 [.var 0, .var 3]) (.v 5 [.var 1, .var 2])) (.mul (.v 9 [.var 0, .var 1]) (.v 10 [.var 2, .var 3]))) (.mul (.v 3 [.var 0, .var 3]) (.v 4 [.var 1, .var 2]))) (.mul (.v 8 [.var 0, .var 1]) (.v 11 [.var 2, .var 3])))) (.mem .c 0))) <|
  -- 154: amplitude+=-preh*(s13s.v(ds1,ds3)-a13a.v(ds1,ds3))*(s24s.v(ds2,ds4)-a24a.v(ds2,ds4))/pDenTh
  .seq (.set .c 0 (.add (.loc .c 0) (.div (.mul (.smul (.neg (.mem .r 11)) (.sub (.v 1 [.var 0, .var 2]) (.v 0 [.var 0, .var 2]))) (.sub (.v 7 [.var 1, .var 3]) (.v 6 [.var 1, .var 3]))) (.mem .c 1)))) <|
  -- 174: amplitude+=+preZ0*(a13a.v(ds1,ds3)+s13s.v(ds1,ds3))*(a24a.v(ds2,ds4)+s24s.v(ds2,ds4))/pDenTZ-two*preZ*(gLu*gLd*s34s.v(ds3,ds4)*a12a.v(ds1,ds2)+gLd*gRu*s14s.v(ds1,ds4)*a23a.v(ds2,ds3)+gLu*gRd*s23s.v(ds2,ds3)*a14a.v(ds1,ds4)+gRu*gRd*s12s.v(ds1,ds2)*a34a.v(ds3,ds4))/pDenTZ
  .seq (.set .c 0 (.add (.loc .c 0) (.sub (.div (.mul (.smul (.mem .r 17) (.add (.v 0 [.var 0, .var 2]) (.v 1 [.var 0, .var 2]))) (.add (.v 6 [.var 1, .var 3]) (.v 7 [.var 1, .var 3]))) (.mem .c 2)) (.div (.smul (.mul (.lit 2) (.mem .r 16)) (.add (.add (.add (.mul (.smul (.mul (.mem .r 12) (.mem .r 14)) (.v 10 [.var 2, .var 3])) (.v 9 [.var 0, .var 1])) (.mul (.smul (.mul (.mem .r 14) (.mem .r 13)) (.v 3 [.var 0, .var 3])) (.v 4 [.var 1, .var 2]))) (.mul (.smul (.mul (.mem .r 12) (.mem .r 15)) (.v 5 [.var 1, .var 2])) (.v 2 [.var 0, .var 3]))) (.mul (.smul (.mul (.mem .r 13) (.mem .r 15)) (.v 8 [.var 0, .var 1])) (.v 11 [.var 2, .var 3])))) (.mem .c 2))))) <|
  -- 183: return amplitude
  .ret .c (.loc .c 0)⟩

/-- `ldouble amp2()` (SM/usus.cpp:187-206); variables: r 0 `amp2`, c 0 `M_rest`, c 1 `M_gluon`, i 0 `j1`, i 1 `j2`, i 2 `j3`, i 3 `j4` -/
def m_amp2 : Method := ⟨0, 
  -- 188: ldouble amp2
  .seq (.set .r 0 (.lit 0)) <|
  -- 190: cdouble M_rest
  .seq (.set .c 0 (.ofR (.lit 0))) <|
  -- 190: cdouble M_gluon
  .seq (.set .c 1 (.ofR (.lit 0))) <|
  -- 193: for(int j1=-1;j1<=1;j1+=2)
  .seq (.loop 0 (-1) true (.lit 1) 2 (
    -- 194: for(int j2=-1;j2<=1;j2+=2)
    .loop 1 (-1) true (.lit 1) 2 (
      -- 195: for(int j3=-1;j3<=1;j3+=2)
      .loop 2 (-1) true (.lit 1) 2 (
        -- 196: for(int j4=-1;j4<=1;j4+=2)
        .loop 3 (-1) true (.lit 1) 2 (
          -- 197: M_rest=amp_rest(j1,j2,j3,j4)
          .seq (.set .c 0 (.call 1 [.var 0, .var 1, .var 2, .var 3])) <|
          -- 198: M_gluon=amp_gluon(j1,j2,j3,j4)
          .seq (.set .c 1 (.call 0 [.var 0, .var 1, .var 2, .var 3])) <|
          -- 199: amp2+=nine*std::pow(std::abs(M_rest),2)
          .seq (.set .r 0 (.add (.loc .r 0) (.mul (.lit 9) (.pow (.abs (.loc .c 0)) 2)))) <|
          -- 201: amp2+=two*std::pow(std::abs(M_gluon),2)
          .set .r 0 (.add (.loc .r 0) (.mul (.lit 2) (.pow (.abs (.loc .c 1)) 2)))))))) <|
  -- 205: return amp2/36.0
  .ret .r (.div (.loc .r 0) (.lit 36))⟩

end usus

/-- `class usus` (SM/usus.cpp, SM/include/usus.h:25-33).  Members:
* ldouble: 0 `e`, 1 `gs`, 2 `mu`, 3 `ms`, 4 `mh`, 5 `wh`, 6 `MZ`, 7 `WZ`, 8 `MW`, 9 `SW`, 10 `CW`, 11 `preh`, 12 `gLu`, 13 `gRu`, 14 `gLd`, 15 `gRd`, 16 `preZ`, 17 `preZ0`
* cdouble: 0 `pDenTAG`, 1 `pDenTh`, 2 `pDenTZ`
* propagator: 0 `propAG`, 1 `proph`, 2 `propZ`
* sproduct: 0 `a13a`, 1 `s13s`, 2 `a14a`, 3 `s14s`, 4 `a23a`, 5 `s23s`, 6 `a24a`, 7 `s24s`, 8 `s12s`, 9 `a12a`, 10 `s34s`, 11 `a34a` -/
def usus : Proc where
  name := "usus"
  nPar := 9
  ctor := usus.ctor
  setMasses := usus.setMasses
  massPar := [2, 3, 4, 6]
  setMomenta := usus.setMomenta
  methods := [usus.m_amp2, usus.m_amp_rest, usus.m_amp_gluon]
  amp2 := 2
  others := []

namespace uuAA

/-- constructor (SM/uuAA.cpp:32-54); parameters: 0 `echarge`, 1 `massu` -/
def ctor : List SInstr := [
  -- 32: e(echarge)
  .set .r 0 (.loc .r 0),
  -- 32: Qu(2.0/3.0)
  .set .r 1 (.div (.lit 2) (.lit 3)),
  -- 32: mu(massu)
  .set .r 2 (.loc .r 1),
  -- 32: prop(massu,0)
  .prop 0 (.loc .r 1) (.lit 0),
  -- 35: sqrt2=std::sqrt(two)
  .set .r 3 (.sqrt (.lit 2)),
  -- 36: p1=particle(mu)
  .part 0 (.mem .r 2),
  -- 37: p2=particle(mu)
  .part 1 (.mem .r 2),
  -- 38: p3=particle(0)
  .part 2 (.lit 0),
  -- 39: p4=particle(0)
  .part 3 (.lit 0),
  -- 40: s34s=sproduct(SQUARE,&p3,&p4)
  .sprod 0 ⟨false, 2, true, [], 3, true⟩,
  -- 41: a34a=sproduct(ANGLE,&p3,&p4)
  .sprod 1 ⟨true, 2, true, [], 3, true⟩,
  -- 42: s12s=sproduct(SQUARE,&p1,&p2)
  .sprod 2 ⟨false, 0, true, [], 1, true⟩,
  -- 43: a12a=sproduct(ANGLE,&p1,&p2)
  .sprod 3 ⟨true, 0, true, [], 1, true⟩,
  -- 44: s13s=sproduct(SQUARE,&p1,&p3)
  .sprod 4 ⟨false, 0, true, [], 2, true⟩,
  -- 45: a13a=sproduct(ANGLE,&p1,&p3)
  .sprod 5 ⟨true, 0, true, [], 2, true⟩,
  -- 46: s24s=sproduct(SQUARE,&p2,&p4)
  .sprod 6 ⟨false, 1, true, [], 3, true⟩,
  -- 47: a24a=sproduct(ANGLE,&p2,&p4)
  .sprod 7 ⟨true, 1, true, [], 3, true⟩,
  -- 48: s23s=sproduct(SQUARE,&p2,&p3)
  .sprod 8 ⟨false, 1, true, [], 2, true⟩,
  -- 49: a23a=sproduct(ANGLE,&p2,&p3)
  .sprod 9 ⟨true, 1, true, [], 2, true⟩,
  -- 50: s14s=sproduct(SQUARE,&p1,&p4)
  .sprod 10 ⟨false, 0, true, [], 3, true⟩,
  -- 51: a14a=sproduct(ANGLE,&p1,&p4)
  .sprod 11 ⟨true, 0, true, [], 3, true⟩,
  -- 52: s314a=sproduct(SQUARE,&p3,&p1,&p4)
  .sprod 12 ⟨false, 2, true, [0], 3, true⟩,
  -- 53: s413a=sproduct(SQUARE,&p4,&p1,&p3)
  .sprod 13 ⟨false, 3, true, [0], 2, true⟩]

/-- `set_masses` (SM/uuAA.cpp:55-60); parameters: 0 `massu` -/
def setMasses : List SInstr := [
  -- 56: mu=massu
  .set .r 2 (.loc .r 0),
  -- 57: p1.set_mass(mu)
  .setMass 0 (.mem .r 2),
  -- 58: p2.set_mass(mu)
  .setMass 1 (.mem .r 2),
  -- 59: prop.set_mass(mu)
  .propMass 0 (.mem .r 2)]

/-- `set_momenta` (SM/uuAA.cpp:61-90); parameters: 0 `mom1`, 1 `mom2`, 2 `mom3`, 3 `mom4` -/
def setMomenta : List SInstr := [
  -- 63: p1.set_momentum(mom1)
  .setMom 0 0,
  -- 64: p2.set_momentum(mom2)
  .setMom 1 1,
  -- 65: p3.set_momentum(mom3)
  .setMom 2 2,
  -- 66: p4.set_momentum(mom4)
  .setMom 3 3,
  -- 67: s34s.update()
  .update 0,
  -- 68: a34a.update()
  .update 1,
  -- 69: s12s.update()
  .update 2,
  -- 70: a12a.update()
  .update 3,
  -- 71: s13s.update()
  .update 4,
  -- 72: a13a.update()
  .update 5,
  -- 73: s24s.update()
  .update 6,
  -- 74: a24a.update()
  .update 7,
  -- 75: s23s.update()
  .update 8,
  -- 76: a23a.update()
  .update 9,
  -- 77: s14s.update()
  .update 10,
  -- 78: a14a.update()
  .update 11,
  -- 79: s314a.update()
  .update 12,
  -- 80: s413a.update()
  .update 13,
  -- 87: pDenT=prop.denominator(propTP)
  .den .c 0 0 (.sub 0 2),
  -- 88: pDenU=prop.denominator(propUP)
  .den .c 1 0 (.sub 0 3)]

/-- `cdouble amp(ds1,ds2,ds3,ds4)` (SM/uuAA.cpp:97-116); variables: i 0 `ds1`, i 1 `ds2`, i 2 `ds3`, i 3 `ds4` -/
def m_amp : Method := ⟨4, 
  -- 99: if(ds3>0&&ds4>0)
  .seq (.ite (.and (.lt (.lit 0) (.var 2)) (.lt (.lit 0) (.var 3))) (
    -- 101: return 2.0*e*e*Qu*Qu*mu*s34s.v()*s34s.v()*a12a.v(ds1,ds2)/pDenT/pDenU
    .ret .c (.div (.div (.mul (.mul (.smul (.mul (.mul (.mul (.mul (.mul (.lit 2) (.mem .r 0)) (.mem .r 0)) (.mem .r 1)) (.mem .r 1)) (.mem .r 2)) (.v 0 [])) (.v 0 [])) (.v 3 [.var 0, .var 1])) (.mem .c 0)) (.mem .c 1))) (
    -- 103: if(ds3<0&&ds4<0)
    .ite (.and (.lt (.var 2) (.lit 0)) (.lt (.var 3) (.lit 0))) (
      -- 105: return 2.0*e*e*Qu*Qu*mu*a34a.v()*a34a.v()*s12s.v(ds1,ds2)/pDenT/pDenU
      .ret .c (.div (.div (.mul (.mul (.smul (.mul (.mul (.mul (.mul (.mul (.lit 2) (.mem .r 0)) (.mem .r 0)) (.mem .r 1)) (.mem .r 1)) (.mem .r 2)) (.v 1 [])) (.v 1 [])) (.v 2 [.var 0, .var 1])) (.mem .c 0)) (.mem .c 1))) (
      -- 107: if(ds3>0&&ds4<0)
      .ite (.and (.lt (.lit 0) (.var 2)) (.lt (.var 3) (.lit 0))) (
        -- 109: return 2.0*e*e*Qu*Qu*(s13s.v(ds1)*a24a.v(ds2)+s23s.v(ds2)*a14a.v(ds1))*s314a.v()/pDenT/pDenU
        .ret .c (.div (.div (.mul (.smul (.mul (.mul (.mul (.mul (.lit 2) (.mem .r 0)) (.mem .r 0)) (.mem .r 1)) (.mem .r 1)) (.add (.mul (.v 4 [.var 0]) (.v 7 [.var 1])) (.mul (.v 8 [.var 1]) (.v 11 [.var 0])))) (.v 12 [])) (.mem .c 0)) (.mem .c 1))) (
        -- 111: if(ds3<0&&ds4>0)
        .ite (.and (.lt (.var 2) (.lit 0)) (.lt (.lit 0) (.var 3))) (
          -- 113: return 2.0*e*e*Qu*Qu*(a13a.v(ds1)*s24s.v(ds2)+a23a.v(ds2)*s14s.v(ds1))*s413a.v()/pDenT/pDenU
          .ret .c (.div (.div (.mul (.smul (.mul (.mul (.mul (.mul (.lit 2) (.mem .r 0)) (.mem .r 0)) (.mem .r 1)) (.mem .r 1)) (.add (.mul (.v 5 [.var 0]) (.v 6 [.var 1])) (.mul (.v 9 [.var 1]) (.v 10 [.var 0])))) (.v 13 [])) (.mem .c 0)) (.mem .c 1))) (
          .skip))))) <|
  -- 115: return cdouble(0,0)
  .ret .c (.ofR (.lit 0))⟩

/-- `ldouble amp2()` (SM/uuAA.cpp:118-134); variables: r 0 `amp2`, c 0 `M`, i 0 `j1`, i 1 `j2`, i 2 `j3`, i 3 `j4` -/
def m_amp2 : Method := ⟨0, 
  -- 119: ldouble amp2
  .seq (.set .r 0 (.lit 0)) <|
  -- 120: cdouble M
  .seq (.set .c 0 (.ofR (.lit 0))) <|
  -- 123: for(int j1=-1;j1<=1;j1+=2)
  .seq (.loop 0 (-1) true (.lit 1) 2 (
    -- 124: for(int j2=-1;j2<=1;j2+=2)
    .loop 1 (-1) true (.lit 1) 2 (
      -- 125: for(int j3=-2;j3<=2;j3+=4)
      .loop 2 (-2) true (.lit 2) 4 (
        -- 126: for(int j4=-2;j4<=2;j4+=4)
        .loop 3 (-2) true (.lit 2) 4 (
          -- 127: M=amp(j1,j2,j3,j4)
          .seq (.set .c 0 (.call 0 [.var 0, .var 1, .var 2, .var 3])) <|
          -- 128: amp2+=3.0*std::pow(std::abs(M),2)
          .set .r 0 (.add (.loc .r 0) (.mul (.lit 3) (.pow (.abs (.loc .c 0)) 2)))))))) <|
  -- 133: return amp2/72.0
  .ret .r (.div (.loc .r 0) (.lit 72))⟩

end uuAA

/-- `class uuAA` (SM/uuAA.cpp, SM/include/uuAA.h:25-32).  Members:
* ldouble: 0 `e`, 1 `Qu`, 2 `mu`, 3 `sqrt2`
* cdouble: 0 `pDenT`, 1 `pDenU`
* propagator: 0 `prop`
* sproduct: 0 `s34s`, 1 `a34a`, 2 `s12s`, 3 `a12a`, 4 `s13s`, 5 `a13a`, 6 `s24s`, 7 `a24a`, 8 `s23s`, 9 `a23a`, 10 `s14s`, 11 `a14a`, 12 `s314a`, 13 `s413a` -/
def uuAA : Proc where
  name := "uuAA"
  nPar := 2
  ctor := uuAA.ctor
  setMasses := uuAA.setMasses
  massPar := [1]
  setMomenta := uuAA.setMomenta
  methods := [uuAA.m_amp2, uuAA.m_amp]
  amp2 := 1
  others := []

namespace uuAh

/-- constructor (SM/uuAh.cpp:32-54); parameters: 0 `echarge`, 1 `massu`, 2 `massh`, 3 `massW`, 4 `sinW` -/
def ctor : List SInstr := [
  -- 32: e(echarge)
  .set .r 0 (.loc .r 0),
  -- 32: Qu(2.0/3.0)
  .set .r 1 (.div (.lit 2) (.lit 3)),
  -- 32: mu(massu)
  .set .r 2 (.loc .r 1),
  -- 32: mh(massh)
  .set .r 3 (.loc .r 2),
  -- 32: MW(massW)
  .set .r 4 (.loc .r 3),
  -- 32: SW(sinW)
  .set .r 5 (.loc .r 4),
  -- 32: prop(massu,0)
  .prop 0 (.loc .r 1) (.lit 0),
  -- 35: sqrt2=std::sqrt(two)
  .set .r 7 (.sqrt (.lit 2)),
  -- 36: p1=particle(mu)
  .part 0 (.mem .r 2),
  -- 37: p2=particle(mu)
  .part 1 (.mem .r 2),
  -- 38: p3=particle(0)
  .part 2 (.lit 0),
  -- 39: p4=particle(mh)
  .part 3 (.mem .r 3),
  -- 40: s13s=sproduct(SQUARE,&p1,&p3)
  .sprod 0 ⟨false, 0, true, [], 2, true⟩,
  -- 41: a13a=sproduct(ANGLE,&p1,&p3)
  .sprod 1 ⟨true, 0, true, [], 2, true⟩,
  -- 42: s23s=sproduct(SQUARE,&p2,&p3)
  .sprod 2 ⟨false, 1, true, [], 2, true⟩,
  -- 43: a23a=sproduct(ANGLE,&p2,&p3)
  .sprod 3 ⟨true, 1, true, [], 2, true⟩,
  -- 44: s12s=sproduct(SQUARE,&p1,&p2)
  .sprod 4 ⟨false, 0, true, [], 1, true⟩,
  -- 45: a12a=sproduct(ANGLE,&p1,&p2)
  .sprod 5 ⟨true, 0, true, [], 1, true⟩,
  -- 46: s342a=sproduct(SQUARE,&p3,&p4,&p2)
  .sprod 6 ⟨false, 2, true, [3], 1, true⟩,
  -- 47: a342s=sproduct(ANGLE,&p3,&p4,&p2)
  .sprod 7 ⟨true, 2, true, [3], 1, true⟩,
  -- 48: s341a=sproduct(SQUARE,&p3,&p4,&p1)
  .sprod 8 ⟨false, 2, true, [3], 0, true⟩,
  -- 49: a341s=sproduct(ANGLE,&p3,&p4,&p1)
  .sprod 9 ⟨true, 2, true, [3], 0, true⟩,
  -- 50: s3243s=sproduct(SQUARE,&p3,&p2,&p4,&p3)
  .sprod 10 ⟨false, 2, true, [1, 3], 2, true⟩,
  -- 51: a3243a=sproduct(ANGLE,&p3,&p2,&p4,&p3)
  .sprod 11 ⟨true, 2, true, [1, 3], 2, true⟩,
  -- 53: pre=e*e*Qu*mu/(sqrt2*MW*SW)
  .set .r 6 (.div (.mul (.mul (.mul (.mem .r 0) (.mem .r 0)) (.mem .r 1)) (.mem .r 2)) (.mul (.mul (.mem .r 7) (.mem .r 4)) (.mem .r 5)))]

/-- `set_masses` (SM/uuAh.cpp:55-64); parameters: 0 `massu`, 1 `massh`, 2 `massW` -/
def setMasses : List SInstr := [
  -- 56: mu=massu
  .set .r 2 (.loc .r 0),
  -- 57: mh=massh
  .set .r 3 (.loc .r 1),
  -- 58: MW=massW
  .set .r 4 (.loc .r 2),
  -- 59: p1.set_mass(mu)
  .setMass 0 (.mem .r 2),
  -- 60: p2.set_mass(mu)
  .setMass 1 (.mem .r 2),
  -- 61: p4.set_mass(mh)
  .setMass 3 (.mem .r 3),
  -- 62: prop.set_mass(mu)
  .propMass 0 (.mem .r 2),
  -- 63: pre=sqrt2*e*e*Qu*mu/(2.0*MW*SW)
  .set .r 6 (.div (.mul (.mul (.mul (.mul (.mem .r 7) (.mem .r 0)) (.mem .r 0)) (.mem .r 1)) (.mem .r 2)) (.mul (.mul (.lit 2) (.mem .r 4)) (.mem .r 5)))]

/-- `set_momenta` (SM/uuAh.cpp:65-91); parameters: 0 `mom1`, 1 `mom2`, 2 `mom3`, 3 `mom4` -/
def setMomenta : List SInstr := [
  -- 67: p1.set_momentum(mom1)
  .setMom 0 0,
  -- 68: p2.set_momentum(mom2)
  .setMom 1 1,
  -- 69: p3.set_momentum(mom3)
  .setMom 2 2,
  -- 70: p4.set_momentum(mom4)
  .setMom 3 3,
  -- 71: s13s.update()
  .update 0,
  -- 72: a13a.update()
  .update 1,
  -- 73: s23s.update()
  .update 2,
  -- 74: a23a.update()
  .update 3,
  -- 75: s12s.update()
  .update 4,
  -- 76: a12a.update()
  .update 5,
  -- 77: s342a.update()
  .update 6,
  -- 78: a342s.update()
  .update 7,
  -- 79: s341a.update()
  .update 8,
  -- 80: a341s.update()
  .update 9,
  -- 81: s3243s.update()
  .update 10,
  -- 82: a3243a.update()
  .update 11,
  -- 89: pDenT=prop.denominator(propTP)
  .den .c 0 0 (.sub 0 2),
  -- 90: pDenU=prop.denominator(propUP)
  .den .c 1 0 (.sub 0 3)]

/-- `cdouble amp(ds1,ds2,ds3)` (SM/uuAh.cpp:96-110); variables: i 0 `ds1`, i 1 `ds2`, i 2 `ds3` -/
def m_amp : Method := ⟨3, 
  -- 101: if(ds3>0)
  .seq (.ite (.lt (.lit 0) (.var 2)) (
    -- 103: return pre*(-mh*mh*s13s.v(ds1)*s23s.v(ds2)+mu*s13s.v(ds1)*s342a.v(ds2)+mu*s23s.v(ds2)*s341a.v(ds1)+a12a.v(ds1,ds2)*s3243s.v())/pDenT/pDenU
    .ret .c (.div (.div (.smul (.mem .r 6) (.add (.add (.add (.mul (.smul (.mul (.neg (.mem .r 3)) (.mem .r 3)) (.v 0 [.var 0])) (.v 2 [.var 1])) (.mul (.smul (.mem .r 2) (.v 0 [.var 0])) (.v 6 [.var 1]))) (.mul (.smul (.mem .r 2) (.v 2 [.var 1])) (.v 8 [.var 0]))) (.mul (.v 5 [.var 0, .var 1]) (.v 10 [])))) (.mem .c 0)) (.mem .c 1))) (
    -- 105: if(ds3<0)
    .ite (.lt (.var 2) (.lit 0)) (
      -- 107: return pre*(-mh*mh*a13a.v(ds1)*a23a.v(ds2)+mu*a13a.v(ds1)*a342s.v(ds2)+mu*a23a.v(ds2)*a341s.v(ds1)+s12s.v(ds1,ds2)*a3243a.v())/pDenT/pDenU
      .ret .c (.div (.div (.smul (.mem .r 6) (.add (.add (.add (.mul (.smul (.mul (.neg (.mem .r 3)) (.mem .r 3)) (.v 1 [.var 0])) (.v 3 [.var 1])) (.mul (.smul (.mem .r 2) (.v 1 [.var 0])) (.v 7 [.var 1]))) (.mul (.smul (.mem .r 2) (.v 3 [.var 1])) (.v 9 [.var 0]))) (.mul (.v 4 [.var 0, .var 1]) (.v 11 [])))) (.mem .c 0)) (.mem .c 1))) (
      .skip))) <|
  -- 109: return cdouble(0,0)
  .ret .c (.ofR (.lit 0))⟩

/-- `ldouble amp2()` (SM/uuAh.cpp:113-127); variables: r 0 `amp2`, c 0 `M`, i 0 `j1`, i 1 `j2`, i 2 `j3` -/
def m_amp2 : Method := ⟨0, 
  -- 114: ldouble amp2
  .seq (.set .r 0 (.lit 0)) <|
  -- 115: cdouble M
  .seq (.set .c 0 (.ofR (.lit 0))) <|
  -- 118: for(int j1=-1;j1<=1;j1+=2)
  .seq (.loop 0 (-1) true (.lit 1) 2 (
    -- 119: for(int j2=-1;j2<=1;j2+=2)
    .loop 1 (-1) true (.lit 1) 2 (
      -- 120: for(int j3=-2;j3<=2;j3+=4)
      .loop 2 (-2) true (.lit 2) 4 (
        -- 121: M=amp(j1,j2,j3)
        .seq (.set .c 0 (.call 0 [.var 0, .var 1, .var 2])) <|
        -- 122: amp2+=3.0*std::pow(std::abs(M),2)
        .set .r 0 (.add (.loc .r 0) (.mul (.lit 3) (.pow (.abs (.loc .c 0)) 2))))))) <|
  -- 126: return amp2/36.0
  .ret .r (.div (.loc .r 0) (.lit 36))⟩

end uuAh

/-- `class uuAh` (SM/uuAh.cpp, SM/include/uuAh.h:25-33).  Members:
* ldouble: 0 `e`, 1 `Qu`, 2 `mu`, 3 `mh`, 4 `MW`, 5 `SW`, 6 `pre`, 7 `sqrt2`
* cdouble: 0 `pDenT`, 1 `pDenU`
* propagator: 0 `prop`
* sproduct: 0 `s13s`, 1 `a13a`, 2 `s23s`, 3 `a23a`, 4 `s12s`, 5 `a12a`, 6 `s342a`, 7 `a342s`, 8 `s341a`, 9 `a341s`, 10 `s3243s`, 11 `a3243a` -/
def uuAh : Proc where
  name := "uuAh"
  nPar := 5
  ctor := uuAh.ctor
  setMasses := uuAh.setMasses
  massPar := [1, 2, 3]
  setMomenta := uuAh.setMomenta
  methods := [uuAh.m_amp2, uuAh.m_amp]
  amp2 := 1
  others := []

namespace uuWW

/-- constructor (SM/uuWW.cpp:32-67); parameters: 0 `echarge`, 1 `massu`, 2 `massd`, 3 `massh`, 4 `widthh`, 5 `massW`, 6 `sinW`, 7 `widthZ` -/
def ctor : List SInstr := [
  -- 32: e(echarge)
  .set .r 0 (.loc .r 0),
  -- 32: Qf(2.0/3.0)
  .set .r 1 (.div (.lit 2) (.lit 3)),
  -- 32: mu(massu)
  .set .r 2 (.loc .r 1),
  -- 32: md(massd)
  .set .r 3 (.loc .r 2),
  -- 32: mh(massh)
  .set .r 4 (.loc .r 3),
  -- 32: wh(widthh)
  .set .r 5 (.loc .r 4),
  -- 32: MW(massW)
  .set .r 6 (.loc .r 5),
  -- 32: SW(sinW)
  .set .r 7 (.loc .r 6),
  -- 32: CW(std::sqrt(1.0-sinW*sinW))
  .set .r 8 (.sqrt (.sub (.lit 1) (.mul (.loc .r 6) (.loc .r 6)))),
  -- 32: MZ(massW/CW)
  .set .r 9 (.div (.loc .r 5) (.mem .r 8)),
  -- 32: WZ(widthZ)
  .set .r 10 (.loc .r 7),
  -- 32: propd(md,0)
  .prop 1 (.mem .r 3) (.lit 0),
  -- 32: propA(0,0)
  .prop 3 (.lit 0) (.lit 0),
  -- 35: sqrt2=std::sqrt(two)
  .set .r 11 (.sqrt (.lit 2)),
  -- 36: MZ=MW/CW
  .set .r 9 (.div (.mem .r 6) (.mem .r 8)),
  -- 37: propZ=propagator(MZ,WZ)
  .prop 2 (.mem .r 9) (.mem .r 10),
  -- 38: proph=propagator(mh,wh)
  .prop 0 (.mem .r 4) (.mem .r 5),
  -- 39: p1=particle(mu)
  .part 0 (.mem .r 2),
  -- 40: p2=particle(mu)
  .part 1 (.mem .r 2),
  -- 41: p3=particle(MW)
  .part 2 (.mem .r 6),
  -- 42: p4=particle(MW)
  .part 3 (.mem .r 6),
  -- 44: s12s=sproduct(SQUARE,&p1,&p2)
  .sprod 0 ⟨false, 0, true, [], 1, true⟩,
  -- 45: a12a=sproduct(ANGLE,&p1,&p2)
  .sprod 1 ⟨true, 0, true, [], 1, true⟩,
  -- 46: s23s=sproduct(SQUARE,&p2,&p3)
  .sprod 2 ⟨false, 1, true, [], 2, true⟩,
  -- 47: a23a=sproduct(ANGLE,&p2,&p3)
  .sprod 3 ⟨true, 1, true, [], 2, true⟩,
  -- 48: s13s=sproduct(SQUARE,&p1,&p3)
  .sprod 4 ⟨false, 0, true, [], 2, true⟩,
  -- 49: a13a=sproduct(ANGLE,&p1,&p3)
  .sprod 5 ⟨true, 0, true, [], 2, true⟩,
  -- 50: s34s=sproduct(SQUARE,&p3,&p4)
  .sprod 6 ⟨false, 2, true, [], 3, true⟩,
  -- 51: a34a=sproduct(ANGLE,&p3,&p4)
  .sprod 7 ⟨true, 2, true, [], 3, true⟩,
  -- 52: s24s=sproduct(SQUARE,&p2,&p4)
  .sprod 8 ⟨false, 1, true, [], 3, true⟩,
  -- 53: a24a=sproduct(ANGLE,&p2,&p4)
  .sprod 9 ⟨true, 1, true, [], 3, true⟩,
  -- 54: s14s=sproduct(SQUARE,&p1,&p4)
  .sprod 10 ⟨false, 0, true, [], 3, true⟩,
  -- 55: a14a=sproduct(ANGLE,&p1,&p4)
  .sprod 11 ⟨true, 0, true, [], 3, true⟩,
  -- 57: s413a=sproduct(SQUARE,&p4,&p1,&p3)
  .sprod 12 ⟨false, 3, true, [0], 2, true⟩,
  -- 58: s314a=sproduct(SQUARE,&p3,&p1,&p4)
  .sprod 13 ⟨false, 2, true, [0], 3, true⟩,
  -- 59: s231a=sproduct(SQUARE,&p2,&p3,&p1)
  .sprod 14 ⟨false, 1, true, [2], 0, true⟩,
  -- 60: s132a=sproduct(SQUARE,&p1,&p3,&p2)
  .sprod 15 ⟨false, 0, true, [2], 1, true⟩,
  -- 62: pred=e*e/(MW*MW*SW*SW)
  .set .r 12 (.div (.mul (.mem .r 0) (.mem .r 0)) (.mul (.mul (.mul (.mem .r 6) (.mem .r 6)) (.mem .r 7)) (.mem .r 7))),
  -- 63: preh=e*e*mu/(2.0*MW*MW*SW*SW)
  .set .r 13 (.div (.mul (.mul (.mem .r 0) (.mem .r 0)) (.mem .r 2)) (.mul (.mul (.mul (.mul (.lit 2) (.mem .r 6)) (.mem .r 6)) (.mem .r 7)) (.mem .r 7))),
  -- 64: preZ=e*e/(2.0*MW*MW*SW*SW)
  .set .r 14 (.div (.mul (.mem .r 0) (.mem .r 0)) (.mul (.mul (.mul (.mul (.lit 2) (.mem .r 6)) (.mem .r 6)) (.mem .r 7)) (.mem .r 7))),
  -- 65: gL=-2.0*Qf*SW*SW+1.0
  .set .r 15 (.add (.mul (.mul (.mul (.neg (.lit 2)) (.mem .r 1)) (.mem .r 7)) (.mem .r 7)) (.lit 1)),
  -- 66: gR=-2.0*Qf*SW*SW
  .set .r 16 (.mul (.mul (.mul (.neg (.lit 2)) (.mem .r 1)) (.mem .r 7)) (.mem .r 7))]

/-- `set_masses` (SM/uuWW.cpp:68-85); parameters: 0 `massu`, 1 `massd`, 2 `massh`, 3 `massW` -/
def setMasses : List SInstr := [
  -- 69: mu=massu
  .set .r 2 (.loc .r 0),
  -- 70: md=massd
  .set .r 3 (.loc .r 1),
  -- 71: mh=massh
  .set .r 4 (.loc .r 2),
  -- 72: MW=massW
  .set .r 6 (.loc .r 3),
  -- 73: MZ=MW/CW
  .set .r 9 (.div (.mem .r 6) (.mem .r 8)),
  -- 74: p1.set_mass(mu)
  .setMass 0 (.mem .r 2),
  -- 75: p2.set_mass(mu)
  .setMass 1 (.mem .r 2),
  -- 76: p3.set_mass(MW)
  .setMass 2 (.mem .r 6),
  -- 77: p4.set_mass(MW)
  .setMass 3 (.mem .r 6),
  -- 78: propd.set_mass(md)
  .propMass 1 (.mem .r 3),
  -- 79: proph.set_mass(mh)
  .propMass 0 (.mem .r 4),
  -- 80: propZ.set_mass(MZ)
  .propMass 2 (.mem .r 9),
  -- 82: pred=e*e/(MW*MW*SW*SW)
  .set .r 12 (.div (.mul (.mem .r 0) (.mem .r 0)) (.mul (.mul (.mul (.mem .r 6) (.mem .r 6)) (.mem .r 7)) (.mem .r 7))),
  -- 83: preh=e*e*mu/(2.0*MW*MW*SW*SW)
  .set .r 13 (.div (.mul (.mul (.mem .r 0) (.mem .r 0)) (.mem .r 2)) (.mul (.mul (.mul (.mul (.lit 2) (.mem .r 6)) (.mem .r 6)) (.mem .r 7)) (.mem .r 7))),
  -- 84: preZ=e*e/(2.0*MW*MW*SW*SW)
  .set .r 14 (.div (.mul (.mem .r 0) (.mem .r 0)) (.mul (.mul (.mul (.mul (.lit 2) (.mem .r 6)) (.mem .r 6)) (.mem .r 7)) (.mem .r 7)))]

/-- `set_momenta` (SM/uuWW.cpp:86-122); parameters: 0 `mom1`, 1 `mom2`, 2 `mom3`, 3 `mom4` -/
def setMomenta : List SInstr := [
  -- 88: p1.set_momentum(mom1)
  .setMom 0 0,
  -- 89: p2.set_momentum(mom2)
  .setMom 1 1,
  -- 90: p3.set_momentum(mom3)
  .setMom 2 2,
  -- 91: p4.set_momentum(mom4)
  .setMom 3 3,
  -- 93: s12s.update()
  .update 0,
  -- 94: a12a.update()
  .update 1,
  -- 95: s23s.update()
  .update 2,
  -- 96: a23a.update()
  .update 3,
  -- 97: s13s.update()
  .update 4,
  -- 98: a13a.update()
  .update 5,
  -- 99: s34s.update()
  .update 6,
  -- 100: a34a.update()
  .update 7,
  -- 101: s24s.update()
  .update 8,
  -- 102: a24a.update()
  .update 9,
  -- 103: s14s.update()
  .update 10,
  -- 104: a14a.update()
  .update 11,
  -- 106: s413a.update()
  .update 12,
  -- 107: s314a.update()
  .update 13,
  -- 108: s231a.update()
  .update 14,
  -- 109: s132a.update()
  .update 15,
  -- 117: pDenhS=proph.denominator(propSP)
  .den .c 0 0 (.add 0 1),
  -- 118: pDendT=propd.denominator(propTP)
  .den .c 1 1 (.sub 0 2),
  -- 119: pDendU=propd.denominator(propUP)
  .den .c 2 1 (.sub 0 3),
  -- 120: pDenZS=propZ.denominator(propSP)
  .den .c 3 2 (.add 0 1),
  -- 121: pDenAS=propA.denominator(propSP)
  .den .c 4 3 (.add 0 1)]

/-- `cdouble amp(ds1,ds2,ds3,ds4)` (SM/uuWW.cpp:127-192); variables: i 0 `ds1`, i 1 `ds2`, i 2 `ds3`, i 3 `ds4`, c 0 `amplitude`, i 4 `ds3a`, i 5 `ds3b`, i 6 `ds4a`, i 7 `ds4b`, i 8 `nCombs`, r 0 `normFactor`, i 9 `i` -/
def m_amp : Method := ⟨4, 
  -- 128: cdouble amplitude
  .seq (.set .c 0 (.ofR (.lit 0))) <|
  -- 133: int nCombs
  .seq (.seti 8 (.loops [2, 3])) <|
  -- 134: ldouble normFactor
  .seq (.set .r 0 (.norm [2, 3])) <|
  -- 136: for(int i=0;i<nCombs;i++)
  .seq (.loop 9 0 false (.var 8) 1 (
    -- 137: get_spinor_spins(ds3,ds3a,ds3b,ds4,ds4a,ds4b,i)
    .seq (.spins [(2, 4, 5), (3, 6, 7)] (.var 9)) <|
    -- 145: amplitude+=normFactor*preh*s34s.v(ds3a,ds4a)*a34a.v(ds3b,ds4b)*(s12s.v(ds1,ds2)+a12a.v(ds1,ds2))/pDenhS
    .seq (.set .c 0 (.add (.loc .c 0) (.div (.mul (.mul (.smul (.mul (.loc .r 0) (.mem .r 13)) (.v 6 [.var 4, .var 6])) (.v 7 [.var 5, .var 7])) (.add (.v 0 [.var 0, .var 1]) (.v 1 [.var 0, .var 1]))) (.mem .c 0)))) <|
    -- 153: amplitude+=-normFactor*pred*s24s.v(ds2,ds4a)*a13a.v(ds1,ds3a)*(-MW*a34a.v(ds3b,ds4b)+s314a.v(ds3b,ds4b))/pDendT
    .seq (.set .c 0 (.add (.loc .c 0) (.div (.mul (.mul (.smul (.mul (.neg (.loc .r 0)) (.mem .r 12)) (.v 8 [.var 1, .var 6])) (.v 5 [.var 0, .var 4])) (.add (.smul (.neg (.mem .r 6)) (.v 7 [.var 5, .var 7])) (.v 13 [.var 5, .var 7]))) (.mem .c 1)))) <|
    -- 160: amplitude+=normFactor*e*e*Qf*two/MW*(a13a.v(ds1,ds3a)*s24s.v(ds2,ds4a)+s13s.v(ds1,ds3a)*a24a.v(ds2,ds4a)+a14a.v(ds1,ds4a)*s23s.v(ds2,ds3a)+s14s.v(ds1,ds4a)*a23a.v(ds2,ds3a))*(s34s.v(ds3b,ds4b)+a34a.v(ds3b,ds4b))/pDenAS+normFactor*e*e*Qf*two/MW/MW*(s34s.v(ds3a,ds4a)*a34a.v(ds3b,ds4b)*(s231a.v(ds2,ds1)+s132a.v(ds1,ds2)))/pDenAS
    .seq (.set .c 0 (.add (.loc .c 0) (.add (.div (.mul (.smul (.div (.mul (.mul (.mul (.mul (.loc .r 0) (.mem .r 0)) (.mem .r 0)) (.mem .r 1)) (.lit 2)) (.mem .r 6)) (.add (.add (.add (.mul (.v 5 [.var 0, .var 4]) (.v 8 [.var 1, .var 6])) (.mul (.v 4 [.var 0, .var 4]) (.v 9 [.var 1, .var 6]))) (.mul (.v 11 [.var 0, .var 6]) (.v 2 [.var 1, .var 4]))) (.mul (.v 10 [.var 0, .var 6]) (.v 3 [.var 1, .var 4])))) (.add (.v 6 [.var 5, .var 7]) (.v 7 [.var 5, .var 7]))) (.mem .c 4)) (.div (.smul (.div (.div (.mul (.mul (.mul (.mul (.loc .r 0) (.mem .r 0)) (.mem .r 0)) (.mem .r 1)) (.lit 2)) (.mem .r 6)) (.mem .r 6)) (.mul (.mul (.v 6 [.var 4, .var 6]) (.v 7 [.var 5, .var 7])) (.add (.v 14 [.var 1, .var 0]) (.v 15 [.var 0, .var 1])))) (.mem .c 4))))) <|
    -- 183: amplitude+=-normFactor*preZ*((gL-gR)*mu*s34s.v(ds3a,ds4a)*a34a.v(ds3b,ds4b)*(s12s.v(ds1,ds2)-a12a.v(ds1,ds2))-two*s34s.v(ds3a,ds4a)*a34a.v(ds3b,ds4b)*(gL*s231a.v(ds2,ds1)+gR*s132a.v(ds1,ds2))-two*MW*(s34s.v(ds3a,ds4a)+a34a.v(ds3a,ds4a))*(gL*(s23s.v(ds2,ds3b)*a14a.v(ds1,ds4b)+s24s.v(ds2,ds4b)*a13a.v(ds1,ds3b))+gR*(s13s.v(ds1,ds3b)*a24a.v(ds2,ds4b)+s14s.v(ds1,ds4b)*a23a.v(ds2,ds3b))))/pDenZS
    .set .c 0 (.add (.loc .c 0) (.div (.smul (.mul (.neg (.loc .r 0)) (.mem .r 14)) (.sub (.sub (.mul (.mul (.smul (.mul (.sub (.mem .r 15) (.mem .r 16)) (.mem .r 2)) (.v 6 [.var 4, .var 6])) (.v 7 [.var 5, .var 7])) (.sub (.v 0 [.var 0, .var 1]) (.v 1 [.var 0, .var 1]))) (.mul (.mul (.smul (.lit 2) (.v 6 [.var 4, .var 6])) (.v 7 [.var 5, .var 7])) (.add (.smul (.mem .r 15) (.v 14 [.var 1, .var 0])) (.smul (.mem .r 16) (.v 15 [.var 0, .var 1]))))) (.mul (.smul (.mul (.lit 2) (.mem .r 6)) (.add (.v 6 [.var 4, .var 6]) (.v 7 [.var 4, .var 6]))) (.add (.smul (.mem .r 15) (.add (.mul (.v 2 [.var 1, .var 5]) (.v 11 [.var 0, .var 7])) (.mul (.v 8 [.var 1, .var 7]) (.v 5 [.var 0, .var 5])))) (.smul (.mem .r 16) (.add (.mul (.v 4 [.var 0, .var 5]) (.v 9 [.var 1, .var 7])) (.mul (.v 10 [.var 0, .var 7]) (.v 3 [.var 1, .var 5])))))))) (.mem .c 3))))) <|
  -- 191: return amplitude
  .ret .c (.loc .c 0)⟩

/-- `ldouble amp2()` (SM/uuWW.cpp:195-210); variables: r 0 `amp2`, c 0 `M`, i 0 `j1`, i 1 `j2`, i 2 `j3`, i 3 `j4` -/
def m_amp2 : Method := ⟨0, 
  -- 196: ldouble amp2
  .seq (.set .r 0 (.lit 0)) <|
  -- 197: cdouble M
  .seq (.set .c 0 (.ofR (.lit 0))) <|
  -- 200: for(int j1=-1;j1<=1;j1+=2)
  .seq (.loop 0 (-1) true (.lit 1) 2 (
    -- 201: for(int j2=-1;j2<=1;j2+=2)
    .loop 1 (-1) true (.lit 1) 2 (
      -- 202: for(int j3=-2;j3<=2;j3+=2)
      .loop 2 (-2) true (.lit 2) 2 (
        -- 203: for(int j4=-2;j4<=2;j4+=2)
        .loop 3 (-2) true (.lit 2) 2 (
          -- 204: M=amp(j1,j2,j3,j4)
          .seq (.set .c 0 (.call 0 [.var 0, .var 1, .var 2, .var 3])) <|
          -- 205: amp2+=3.0*std::pow(std::abs(M),2)
          .set .r 0 (.add (.loc .r 0) (.mul (.lit 3) (.pow (.abs (.loc .c 0)) 2)))))))) <|
  -- 209: return amp2/36.0
  .ret .r (.div (.loc .r 0) (.lit 36))⟩

end uuWW

/-- `class uuWW` (SM/uuWW.cpp, SM/include/uuWW.h:25-36).  Members:
* ldouble: 0 `e`, 1 `Qf`, 2 `mu`, 3 `md`, 4 `mh`, 5 `wh`, 6 `MW`, 7 `SW`, 8 `CW`, 9 `MZ`, 10 `WZ`, 11 `sqrt2`, 12 `pred`, 13 `preh`, 14 `preZ`, 15 `gL`, 16 `gR`
* cdouble: 0 `pDenhS`, 1 `pDendT`, 2 `pDendU`, 3 `pDenZS`, 4 `pDenAS`
* propagator: 0 `proph`, 1 `propd`, 2 `propZ`, 3 `propA`
* sproduct: 0 `s12s`, 1 `a12a`, 2 `s23s`, 3 `a23a`, 4 `s13s`, 5 `a13a`, 6 `s34s`, 7 `a34a`, 8 `s24s`, 9 `a24a`, 10 `s14s`, 11 `a14a`, 12 `s413a`, 13 `s314a`, 14 `s231a`, 15 `s132a` -/
def uuWW : Proc where
  name := "uuWW"
  nPar := 8
  ctor := uuWW.ctor
  setMasses := uuWW.setMasses
  massPar := [1, 2, 3, 5]
  setMomenta := uuWW.setMomenta
  methods := [uuWW.m_amp2, uuWW.m_amp]
  amp2 := 1
  others := []

namespace uuZZ

/-- constructor (SM/uuZZ.cpp:32-63); parameters: 0 `echarge`, 1 `massf`, 2 `massh`, 3 `widthh`, 4 `massW`, 5 `sinW`, 6 `widthZ` -/
def ctor : List SInstr := [
  -- 32: e(echarge)
  .set .r 0 (.loc .r 0),
  -- 32: Qf(2.0/3.0)
  .set .r 1 (.div (.lit 2) (.lit 3)),
  -- 32: mf(massf)
  .set .r 2 (.loc .r 1),
  -- 32: mh(massh)
  .set .r 3 (.loc .r 2),
  -- 32: wh(widthh)
  .set .r 4 (.loc .r 3),
  -- 32: MW(massW)
  .set .r 5 (.loc .r 4),
  -- 32: SW(sinW)
  .set .r 6 (.loc .r 5),
  -- 32: CW(std::sqrt(1.0-sinW*sinW))
  .set .r 7 (.sqrt (.sub (.lit 1) (.mul (.loc .r 5) (.loc .r 5)))),
  -- 32: MZ(massW/CW)
  .set .r 8 (.div (.loc .r 4) (.mem .r 7)),
  -- 32: WZ(widthZ)
  .set .r 9 (.loc .r 6),
  -- 32: propf(massf,0)
  .prop 1 (.loc .r 1) (.lit 0),
  -- 35: sqrt2=std::sqrt(two)
  .set .r 10 (.sqrt (.lit 2)),
  -- 36: MZ=MW/CW
  .set .r 8 (.div (.mem .r 5) (.mem .r 7)),
  -- 37: proph=propagator(mh,wh)
  .prop 0 (.mem .r 3) (.mem .r 4),
  -- 38: p1=particle(mf)
  .part 0 (.mem .r 2),
  -- 39: p2=particle(mf)
  .part 1 (.mem .r 2),
  -- 40: p3=particle(MZ)
  .part 2 (.mem .r 8),
  -- 41: p4=particle(MZ)
  .part 3 (.mem .r 8),
  -- 43: s12s=sproduct(SQUARE,&p1,&p2)
  .sprod 0 ⟨false, 0, true, [], 1, true⟩,
  -- 44: a12a=sproduct(ANGLE,&p1,&p2)
  .sprod 1 ⟨true, 0, true, [], 1, true⟩,
  -- 45: s23s=sproduct(SQUARE,&p2,&p3)
  .sprod 2 ⟨false, 1, true, [], 2, true⟩,
  -- 46: a23a=sproduct(ANGLE,&p2,&p3)
  .sprod 3 ⟨true, 1, true, [], 2, true⟩,
  -- 47: s13s=sproduct(SQUARE,&p1,&p3)
  .sprod 4 ⟨false, 0, true, [], 2, true⟩,
  -- 48: a13a=sproduct(ANGLE,&p1,&p3)
  .sprod 5 ⟨true, 0, true, [], 2, true⟩,
  -- 49: s34s=sproduct(SQUARE,&p3,&p4)
  .sprod 6 ⟨false, 2, true, [], 3, true⟩,
  -- 50: a34a=sproduct(ANGLE,&p3,&p4)
  .sprod 7 ⟨true, 2, true, [], 3, true⟩,
  -- 51: s24s=sproduct(SQUARE,&p2,&p4)
  .sprod 8 ⟨false, 1, true, [], 3, true⟩,
  -- 52: a24a=sproduct(ANGLE,&p2,&p4)
  .sprod 9 ⟨true, 1, true, [], 3, true⟩,
  -- 53: s14s=sproduct(SQUARE,&p1,&p4)
  .sprod 10 ⟨false, 0, true, [], 3, true⟩,
  -- 54: a14a=sproduct(ANGLE,&p1,&p4)
  .sprod 11 ⟨true, 0, true, [], 3, true⟩,
  -- 56: s314a=sproduct(SQUARE,&p3,&p1,&p4)
  .sprod 12 ⟨false, 2, true, [0], 3, true⟩,
  -- 57: s413a=sproduct(SQUARE,&p4,&p1,&p3)
  .sprod 13 ⟨false, 3, true, [0], 2, true⟩,
  -- 59: preTU=e*e/(2.0*MW*MW*SW*SW)
  .set .r 11 (.div (.mul (.mem .r 0) (.mem .r 0)) (.mul (.mul (.mul (.mul (.lit 2) (.mem .r 5)) (.mem .r 5)) (.mem .r 6)) (.mem .r 6))),
  -- 60: gL=-2.0*Qf*SW*SW+1.0
  .set .r 13 (.add (.mul (.mul (.mul (.neg (.lit 2)) (.mem .r 1)) (.mem .r 6)) (.mem .r 6)) (.lit 1)),
  -- 61: gR=-2.0*Qf*SW*SW
  .set .r 14 (.mul (.mul (.mul (.neg (.lit 2)) (.mem .r 1)) (.mem .r 6)) (.mem .r 6)),
  -- 62: preh=e*e*mf/(2.0*MW*MW*SW*SW)
  .set .r 12 (.div (.mul (.mul (.mem .r 0) (.mem .r 0)) (.mem .r 2)) (.mul (.mul (.mul (.mul (.lit 2) (.mem .r 5)) (.mem .r 5)) (.mem .r 6)) (.mem .r 6)))]

/-- `set_masses` (SM/uuZZ.cpp:64-78); parameters: 0 `massf`, 1 `massh`, 2 `massW` -/
def setMasses : List SInstr := [
  -- 65: mf=massf
  .set .r 2 (.loc .r 0),
  -- 66: mh=massh
  .set .r 3 (.loc .r 1),
  -- 67: MW=massW
  .set .r 5 (.loc .r 2),
  -- 68: MZ=MW/CW
  .set .r 8 (.div (.mem .r 5) (.mem .r 7)),
  -- 69: p1.set_mass(mf)
  .setMass 0 (.mem .r 2),
  -- 70: p2.set_mass(mf)
  .setMass 1 (.mem .r 2),
  -- 71: p3.set_mass(MZ)
  .setMass 2 (.mem .r 8),
  -- 72: p4.set_mass(MZ)
  .setMass 3 (.mem .r 8),
  -- 73: propf.set_mass(mf)
  .propMass 1 (.mem .r 2),
  -- 74: proph.set_mass(mh)
  .propMass 0 (.mem .r 3),
  -- 76: preTU=e*e/(2.0*MW*MW*SW*SW)
  .set .r 11 (.div (.mul (.mem .r 0) (.mem .r 0)) (.mul (.mul (.mul (.mul (.lit 2) (.mem .r 5)) (.mem .r 5)) (.mem .r 6)) (.mem .r 6))),
  -- 77: preh=e*e*mf/(2.0*MW*MW*SW*SW)
  .set .r 12 (.div (.mul (.mul (.mem .r 0) (.mem .r 0)) (.mem .r 2)) (.mul (.mul (.mul (.mul (.lit 2) (.mem .r 5)) (.mem .r 5)) (.mem .r 6)) (.mem .r 6)))]

/-- `set_momenta` (SM/uuZZ.cpp:79-111); parameters: 0 `mom1`, 1 `mom2`, 2 `mom3`, 3 `mom4` -/
def setMomenta : List SInstr := [
  -- 81: p1.set_momentum(mom1)
  .setMom 0 0,
  -- 82: p2.set_momentum(mom2)
  .setMom 1 1,
  -- 83: p3.set_momentum(mom3)
  .setMom 2 2,
  -- 84: p4.set_momentum(mom4)
  .setMom 3 3,
  -- 86: s12s.update()
  .update 0,
  -- 87: a12a.update()
  .update 1,
  -- 88: s23s.update()
  .update 2,
  -- 89: a23a.update()
  .update 3,
  -- 90: s13s.update()
  .update 4,
  -- 91: a13a.update()
  .update 5,
  -- 92: s34s.update()
  .update 6,
  -- 93: a34a.update()
  .update 7,
  -- 94: s24s.update()
  .update 8,
  -- 95: a24a.update()
  .update 9,
  -- 96: s14s.update()
  .update 10,
  -- 97: a14a.update()
  .update 11,
  -- 99: s314a.update()
  .update 12,
  -- 100: s413a.update()
  .update 13,
  -- 108: pDenS=proph.denominator(propSP)
  .den .c 0 0 (.add 0 1),
  -- 109: pDenT=propf.denominator(propTP)
  .den .c 1 1 (.sub 0 2),
  -- 110: pDenU=propf.denominator(propUP)
  .den .c 2 1 (.sub 0 3)]

/-- `cdouble amp(ds1,ds2,ds3,ds4)` (SM/uuZZ.cpp:116-166); variables: i 0 `ds1`, i 1 `ds2`, i 2 `ds3`, i 3 `ds4`, c 0 `amplitude`, i 4 `ds3a`, i 5 `ds3b`, i 6 `ds4a`, i 7 `ds4b`, i 8 `nCombs`, r 0 `normFactor`, i 9 `i` -/
def m_amp : Method := ⟨4, 
  -- 117: cdouble amplitude
  .seq (.set .c 0 (.ofR (.lit 0))) <|
  -- 121: int nCombs
  .seq (.seti 8 (.loops [2, 3])) <|
  -- 122: ldouble normFactor
  .seq (.set .r 0 (.norm [2, 3])) <|
  -- 124: for(int i=0;i<nCombs;i++)
  .seq (.loop 9 0 false (.var 8) 1 (
    -- 125: get_spinor_spins(ds3,ds3a,ds3b,ds4,ds4a,ds4b,i)
    .seq (.spins [(2, 4, 5), (3, 6, 7)] (.var 9)) <|
    -- 133: amplitude+=normFactor*preh*s34s.v(ds3a,ds4a)*a34a.v(ds3b,ds4b)*(s12s.v(ds1,ds2)+a12a.v(ds1,ds2))/pDenS
    .seq (.set .c 0 (.add (.loc .c 0) (.div (.mul (.mul (.smul (.mul (.loc .r 0) (.mem .r 12)) (.v 6 [.var 4, .var 6])) (.v 7 [.var 5, .var 7])) (.add (.v 0 [.var 0, .var 1]) (.v 1 [.var 0, .var 1]))) (.mem .c 0)))) <|
    -- 145: amplitude+=normFactor*preTU*gL*gL*s24s.v(ds2,ds4a)*a13a.v(ds1,ds3a)*(MZ*a34a.v(ds3b,ds4b)-s314a.v(ds3b,ds4b))/pDenT+normFactor*preTU*gR*gR*a24a.v(ds2,ds4a)*s13s.v(ds1,ds3a)*(MZ*s34s.v(ds3b,ds4b)-s413a.v(ds4b,ds3b))/pDenT-normFactor*preTU*gL*gR*mf*(s13s.v(ds1,ds3a)*s24s.v(ds2,ds4a)*a34a.v(ds3b,ds4b)+a13a.v(ds1,ds3a)*a24a.v(ds2,ds4a)*s34s.v(ds3b,ds4b))/pDenT
    .seq (.set .c 0 (.add (.loc .c 0) (.sub (.add (.div (.mul (.mul (.smul (.mul (.mul (.mul (.loc .r 0) (.mem .r 11)) (.mem .r 13)) (.mem .r 13)) (.v 8 [.var 1, .var 6])) (.v 5 [.var 0, .var 4])) (.sub (.smul (.mem .r 8) (.v 7 [.var 5, .var 7])) (.v 12 [.var 5, .var 7]))) (.mem .c 1)) (.div (.mul (.mul (.smul (.mul (.mul (.mul (.loc .r 0) (.mem .r 11)) (.mem .r 14)) (.mem .r 14)) (.v 9 [.var 1, .var 6])) (.v 4 [.var 0, .var 4])) (.sub (.smul (.mem .r 8) (.v 6 [.var 5, .var 7])) (.v 13 [.var 7, .var 5]))) (.mem .c 1))) (.div (.smul (.mul (.mul (.mul (.mul (.loc .r 0) (.mem .r 11)) (.mem .r 13)) (.mem .r 14)) (.mem .r 2)) (.add (.mul (.mul (.v 4 [.var 0, .var 4]) (.v 8 [.var 1, .var 6])) (.v 7 [.var 5, .var 7])) (.mul (.mul (.v 5 [.var 0, .var 4]) (.v 9 [.var 1, .var 6])) (.v 6 [.var 5, .var 7])))) (.mem .c 1))))) <|
    -- 159: amplitude+=-normFactor*preTU*gL*gL*s23s.v(ds2,ds3a)*a14a.v(ds1,ds4a)*(MZ*a34a.v(ds3b,ds4b)+s413a.v(ds4b,ds3b))/pDenU-normFactor*preTU*gR*gR*s14s.v(ds1,ds4a)*a23a.v(ds2,ds3a)*(MZ*s34s.v(ds3b,ds4b)+s314a.v(ds3b,ds4b))/pDenU+normFactor*preTU*gL*gR*mf*(s14s.v(ds1,ds4a)*s23s.v(ds2,ds3a)*a34a.v(ds3b,ds4b)+a14a.v(ds1,ds4a)*a23a.v(ds2,ds3a)*s34s.v(ds3b,ds4b))/pDenU
    .set .c 0 (.add (.loc .c 0) (.add (.sub (.div (.mul (.mul (.smul (.mul (.mul (.mul (.neg (.loc .r 0)) (.mem .r 11)) (.mem .r 13)) (.mem .r 13)) (.v 2 [.var 1, .var 4])) (.v 11 [.var 0, .var 6])) (.add (.smul (.mem .r 8) (.v 7 [.var 5, .var 7])) (.v 13 [.var 7, .var 5]))) (.mem .c 2)) (.div (.mul (.mul (.smul (.mul (.mul (.mul (.loc .r 0) (.mem .r 11)) (.mem .r 14)) (.mem .r 14)) (.v 10 [.var 0, .var 6])) (.v 3 [.var 1, .var 4])) (.add (.smul (.mem .r 8) (.v 6 [.var 5, .var 7])) (.v 12 [.var 5, .var 7]))) (.mem .c 2))) (.div (.smul (.mul (.mul (.mul (.mul (.loc .r 0) (.mem .r 11)) (.mem .r 13)) (.mem .r 14)) (.mem .r 2)) (.add (.mul (.mul (.v 10 [.var 0, .var 6]) (.v 2 [.var 1, .var 4])) (.v 7 [.var 5, .var 7])) (.mul (.mul (.v 11 [.var 0, .var 6]) (.v 3 [.var 1, .var 4])) (.v 6 [.var 5, .var 7])))) (.mem .c 2)))))) <|
  -- 165: return amplitude
  .ret .c (.loc .c 0)⟩

/-- `ldouble amp2()` (SM/uuZZ.cpp:169-185); variables: r 0 `amp2`, c 0 `M`, i 0 `j1`, i 1 `j2`, i 2 `j3`, i 3 `j4` -/
def m_amp2 : Method := ⟨0, 
  -- 170: ldouble amp2
  .seq (.set .r 0 (.lit 0)) <|
  -- 171: cdouble M
  .seq (.set .c 0 (.ofR (.lit 0))) <|
  -- 174: for(int j1=-1;j1<=1;j1+=2)
  .seq (.loop 0 (-1) true (.lit 1) 2 (
    -- 175: for(int j2=-1;j2<=1;j2+=2)
    .loop 1 (-1) true (.lit 1) 2 (
      -- 176: for(int j3=-2;j3<=2;j3+=2)
      .loop 2 (-2) true (.lit 2) 2 (
        -- 177: for(int j4=-2;j4<=2;j4+=2)
        .loop 3 (-2) true (.lit 2) 2 (
          -- 178: M=amp(j1,j2,j3,j4)
          .seq (.set .c 0 (.call 0 [.var 0, .var 1, .var 2, .var 3])) <|
          -- 179: amp2+=3.0*std::pow(std::abs(M),2)
          .set .r 0 (.add (.loc .r 0) (.mul (.lit 3) (.pow (.abs (.loc .c 0)) 2)))))))) <|
  -- 184: return amp2/72.0
  .ret .r (.div (.loc .r 0) (.lit 72))⟩

end uuZZ

/-- `class uuZZ` (SM/uuZZ.cpp, SM/include/uuZZ.h:25-36).  Members:
* ldouble: 0 `e`, 1 `Qf`, 2 `mf`, 3 `mh`, 4 `wh`, 5 `MW`, 6 `SW`, 7 `CW`, 8 `MZ`, 9 `WZ`, 10 `sqrt2`, 11 `preTU`, 12 `preh`, 13 `gL`, 14 `gR`
* cdouble: 0 `pDenS`, 1 `pDenT`, 2 `pDenU`
* propagator: 0 `proph`, 1 `propf`
* sproduct: 0 `s12s`, 1 `a12a`, 2 `s23s`, 3 `a23a`, 4 `s13s`, 5 `a13a`, 6 `s34s`, 7 `a34a`, 8 `s24s`, 9 `a24a`, 10 `s14s`, 11 `a14a`, 12 `s314a`, 13 `s413a` -/
def uuZZ : Proc where
  name := "uuZZ"
  nPar := 7
  ctor := uuZZ.ctor
  setMasses := uuZZ.setMasses
  massPar := [1, 2, 4]
  setMomenta := uuZZ.setMomenta
  methods := [uuZZ.m_amp2, uuZZ.m_amp]
  amp2 := 1
  others := []

end Spinas.SM.Cls
