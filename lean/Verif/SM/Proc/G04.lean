import Verif.SM.Lang

/-! Generated by tools/sm/translate.py from SM/*.cpp: ddZZ, ddZh, dddd, dddd2, ddee, ddhh, ddnn, ddss, deed, dgdh, dggd, dhdh. -/

namespace Spinas.SM.Cls

namespace ddZZ

/-- constructor (SM/ddZZ.cpp:32-63); parameters: 0 `echarge`, 1 `massf`, 2 `massh`, 3 `widthh`, 4 `massW`, 5 `sinW`, 6 `widthZ` -/
def ctor : List SInstr := [
  -- 32: e(echarge)
  .set .r 0 (.loc .r 0),
  -- 32: Qf(-1.0/3.0)
  .set .r 1 (.div (.neg (.lit 1)) (.lit 3)),
  -- 32: mf(massf)
  .set .r 2 (.loc .r 1),
  -- 32: mh(massh)
  .set .r 3 (.loc .r 2),
  -- 32: wh(widthh)
  .set .r 4 (.loc .r 3),
  -- 32: MW(massW)
  .set .r 5 (.loc .r 4),
  -- 32: SW(sinW)
  .set .r 6 (.loc .r 5),
  -- 32: CW(std::sqrt(1.0-sinW*sinW))
  .set .r 7 (.sqrt (.sub (.lit 1) (.mul (.loc .r 5) (.loc .r 5)))),
  -- 32: MZ(massW/CW)
  .set .r 8 (.div (.loc .r 4) (.mem .r 7)),
  -- 32: WZ(widthZ)
  .set .r 9 (.loc .r 6),
  -- 32: propf(massf,0)
  .prop 1 (.loc .r 1) (.lit 0),
  -- 35: sqrt2=std::sqrt(two)
  .set .r 10 (.sqrt (.lit 2)),
  -- 36: MZ=MW/CW
  .set .r 8 (.div (.mem .r 5) (.mem .r 7)),
  -- 37: proph=propagator(mh,wh)
  .prop 0 (.mem .r 3) (.mem .r 4),
  -- 38: p1=particle(mf)
  .part 0 (.mem .r 2),
  -- 39: p2=particle(mf)
  .part 1 (.mem .r 2),
  -- 40: p3=particle(MZ)
  .part 2 (.mem .r 8),
  -- 41: p4=particle(MZ)
  .part 3 (.mem .r 8),
  -- 43: s12s=sproduct(SQUARE,&p1,&p2)
  .sprod 0 ⟨false, 0, true, [], 1, true⟩,
  -- 44: a12a=sproduct(ANGLE,&p1,&p2)
  .sprod 1 ⟨true, 0, true, [], 1, true⟩,
  -- 45: s23s=sproduct(SQUARE,&p2,&p3)
  .sprod 2 ⟨false, 1, true, [], 2, true⟩,
  -- 46: a23a=sproduct(ANGLE,&p2,&p3)
  .sprod 3 ⟨true, 1, true, [], 2, true⟩,
  -- 47: s13s=sproduct(SQUARE,&p1,&p3)
  .sprod 4 ⟨false, 0, true, [], 2, true⟩,
  -- 48: a13a=sproduct(ANGLE,&p1,&p3)
  .sprod 5 ⟨true, 0, true, [], 2, true⟩,
  -- 49: s34s=sproduct(SQUARE,&p3,&p4)
  .sprod 6 ⟨false, 2, true, [], 3, true⟩,
  -- 50: a34a=sproduct(ANGLE,&p3,&p4)
  .sprod 7 ⟨true, 2, true, [], 3, true⟩,
  -- 51: s24s=sproduct(SQUARE,&p2,&p4)
  .sprod 8 ⟨false, 1, true, [], 3, true⟩,
  -- 52: a24a=sproduct(ANGLE,&p2,&p4)
  .sprod 9 ⟨true, 1, true, [], 3, true⟩,
  -- 53: s14s=sproduct(SQUARE,&p1,&p4)
  .sprod 10 ⟨false, 0, true, [], 3, true⟩,
  -- 54: a14a=sproduct(ANGLE,&p1,&p4)
  .sprod 11 ⟨true, 0, true, [], 3, true⟩,
  -- 56: s314a=sproduct(SQUARE,&p3,&p1,&p4)
  .sprod 12 ⟨false, 2, true, [0], 3, true⟩,
  -- 57: s413a=sproduct(SQUARE,&p4,&p1,&p3)
  .sprod 13 ⟨false, 3, true, [0], 2, true⟩,
  -- 59: preTU=e*e/(2.0*MW*MW*SW*SW)
  .set .r 11 (.div (.mul (.mem .r 0) (.mem .r 0)) (.mul (.mul (.mul (.mul (.lit 2) (.mem .r 5)) (.mem .r 5)) (.mem .r 6)) (.mem .r 6))),
  -- 60: gL=-2.0*Qf*SW*SW-1.0
  .set .r 13 (.sub (.mul (.mul (.mul (.neg (.lit 2)) (.mem .r 1)) (.mem .r 6)) (.mem .r 6)) (.lit 1)),
  -- 61: gR=-2.0*Qf*SW*SW
  .set .r 14 (.mul (.mul (.mul (.neg (.lit 2)) (.mem .r 1)) (.mem .r 6)) (.mem .r 6)),
  -- 62: preh=e*e*mf/(2.0*MW*MW*SW*SW)
  .set .r 12 (.div (.mul (.mul (.mem .r 0) (.mem .r 0)) (.mem .r 2)) (.mul (.mul (.mul (.mul (.lit 2) (.mem .r 5)) (.mem .r 5)) (.mem .r 6)) (.mem .r 6)))]

/-- `set_masses` (SM/ddZZ.cpp:64-78); parameters: 0 `massf`, 1 `massh`, 2 `massW` -/
def setMasses : List SInstr := [
  -- 65: mf=massf
  .set .r 2 (.loc .r 0),
  -- 66: mh=massh
  .set .r 3 (.loc .r 1),
  -- 67: MW=massW
  .set .r 5 (.loc .r 2),
  -- 68: MZ=MW/CW
  .set .r 8 (.div (.mem .r 5) (.mem .r 7)),
  -- 69: p1.set_mass(mf)
  .setMass 0 (.mem .r 2),
  -- 70: p2.set_mass(mf)
  .setMass 1 (.mem .r 2),
  -- 71: p3.set_mass(MZ)
  .setMass 2 (.mem .r 8),
  -- 72: p4.set_mass(MZ)
  .setMass 3 (.mem .r 8),
  -- 73: propf.set_mass(mf)
  .propMass 1 (.mem .r 2),
  -- 74: proph.set_mass(mh)
  .propMass 0 (.mem .r 3),
  -- 76: preTU=e*e/(2.0*MW*MW*SW*SW)
  .set .r 11 (.div (.mul (.mem .r 0) (.mem .r 0)) (.mul (.mul (.mul (.mul (.lit 2) (.mem .r 5)) (.mem .r 5)) (.mem .r 6)) (.mem .r 6))),
  -- 77: preh=e*e*mf/(2.0*MW*MW*SW*SW)
  .set .r 12 (.div (.mul (.mul (.mem .r 0) (.mem .r 0)) (.mem .r 2)) (.mul (.mul (.mul (.mul (.lit 2) (.mem .r 5)) (.mem .r 5)) (.mem .r 6)) (.mem .r 6)))]

/-- `set_momenta` (SM/ddZZ.cpp:79-111); parameters: 0 `mom1`, 1 `mom2`, 2 `mom3`, 3 `mom4` -/
def setMomenta : List SInstr := [
  -- 81: p1.set_momentum(mom1)
  .setMom 0 0,
  -- 82: p2.set_momentum(mom2)
  .setMom 1 1,
  -- 83: p3.set_momentum(mom3)
  .setMom 2 2,
  -- 84: p4.set_momentum(mom4)
  .setMom 3 3,
  -- 86: s12s.update()
  .update 0,
  -- 87: a12a.update()
  .update 1,
  -- 88: s23s.update()
  .update 2,
  -- 89: a23a.update()
  .update 3,
  -- 90: s13s.update()
  .update 4,
  -- 91: a13a.update()
  .update 5,
  -- 92: s34s.update()
  .update 6,
  -- 93: a34a.update()
  .update 7,
  -- 94: s24s.update()
  .update 8,
  -- 95: a24a.update()
  .update 9,
  -- 96: s14s.update()
  .update 10,
  -- 97: a14a.update()
  .update 11,
  -- 99: s314a.update()
  .update 12,
  -- 100: s413a.update()
  .update 13,
  -- 108: pDenS=proph.denominator(propSP)
  .den .c 0 0 (.add 0 1),
  -- 109: pDenT=propf.denominator(propTP)
  .den .c 1 1 (.sub 0 2),
  -- 110: pDenU=propf.denominator(propUP)
  .den .c 2 1 (.sub 0 3)]

/-- `cdouble amp(ds1,ds2,ds3,ds4)` (SM/ddZZ.cpp:116-166); variables: i 0 `ds1`, i 1 `ds2`, i 2 `ds3`, i 3 `ds4`, c 0 `amplitude`, i 4 `ds3a`, i 5 `ds3b`, i 6 `ds4a`, i 7 `ds4b`, i 8 `nCombs`, r 0 `normFactor`, i 9 `i` -/
def m_amp : Method := ⟨4, 
  -- 117: cdouble amplitude
  .seq (.set .c 0 (.ofR (.lit 0))) <|
  -- 121: int nCombs
  .seq (.seti 8 (.loops [2, 3])) <|
  -- 122: ldouble normFactor
  .seq (.set .r 0 (.norm [2, 3])) <|
  -- 124: for(int i=0;i<nCombs;i++)
  .seq (.loop 9 0 false (.var 8) 1 (
    -- 125: get_spinor_spins(ds3,ds3a,ds3b,ds4,ds4a,ds4b,i)
    .seq (.spins [(2, 4, 5), (3, 6, 7)] (.var 9)) <|
    -- 133: amplitude+=normFactor*preh*s34s.v(ds3a,ds4a)*a34a.v(ds3b,ds4b)*(s12s.v(ds1,ds2)+a12a.v(ds1,ds2))/pDenS
    .seq (.set .c 0 (.add (.loc .c 0) (.div (.mul (.mul (.smul (.mul (.loc .r 0) (.mem .r 12)) (.v 6 [.var 4, .var 6])) (.v 7 [.var 5, .var 7])) (.add (.v 0 [.var 0, .var 1]) (.v 1 [.var 0, .var 1]))) (.mem .c 0)))) <|
    -- 145: amplitude+=normFactor*preTU*gL*gL*s24s.v(ds2,ds4a)*a13a.v(ds1,ds3a)*(MZ*a34a.v(ds3b,ds4b)-s314a.v(ds3b,ds4b))/pDenT+normFactor*preTU*gR*gR*a24a.v(ds2,ds4a)*s13s.v(ds1,ds3a)*(MZ*s34s.v(ds3b,ds4b)-s413a.v(ds4b,ds3b))/pDenT-normFactor*preTU*gL*gR*mf*(s13s.v(ds1,ds3a)*s24s.v(ds2,ds4a)*a34a.v(ds3b,ds4b)+a13a.v(ds1,ds3a)*a24a.v(ds2,ds4a)*s34s.v(ds3b,ds4b))/pDenT
    .seq (.set .c 0 (.add (.loc .c 0) (.sub (.add (.div (.mul (.mul (.smul (.mul (.mul (.mul (.loc .r 0) (.mem .r 11)) (.mem .r 13)) (.mem .r 13)) (.v 8 [.var 1, .var 6])) (.v 5 [.var 0, .var 4])) (.sub (.smul (.mem .r 8) (.v 7 [.var 5, .var 7])) (.v 12 [.var 5, .var 7]))) (.mem .c 1)) (.div (.mul (.mul (.smul (.mul (.mul (.mul (.loc .r 0) (.mem .r 11)) (.mem .r 14)) (.mem .r 14)) (.v 9 [.var 1, .var 6])) (.v 4 [.var 0, .var 4])) (.sub (.smul (.mem .r 8) (.v 6 [.var 5, .var 7])) (.v 13 [.var 7, .var 5]))) (.mem .c 1))) (.div (.smul (.mul (.mul (.mul (.mul (.loc .r 0) (.mem .r 11)) (.mem .r 13)) (.mem .r 14)) (.mem .r 2)) (.add (.mul (.mul (.v 4 [.var 0, .var 4]) (.v 8 [.var 1, .var 6])) (.v 7 [.var 5, .var 7])) (.mul (.mul (.v 5 [.var 0, .var 4]) (.v 9 [.var 1, .var 6])) (.v 6 [.var 5, .var 7])))) (.mem .c 1))))) <|
    -- 159: amplitude+=-normFactor*preTU*gL*gL*s23s.v(ds2,ds3a)*a14a.v(ds1,ds4a)*(MZ*a34a.v(ds3b,ds4b)+s413a.v(ds4b,ds3b))/pDenU-normFactor*preTU*gR*gR*s14s.v(ds1,ds4a)*a23a.v(ds2,ds3a)*(MZ*s34s.v(ds3b,ds4b)+s314a.v(ds3b,ds4b))/pDenU+normFactor*preTU*gL*gR*mf*(s14s.v(ds1,ds4a)*s23s.v(ds2,ds3a)*a34a.v(ds3b,ds4b)+a14a.v(ds1,ds4a)*a23a.v(ds2,ds3a)*s34s.v(ds3b,ds4b))/pDenU
    .set .c 0 (.add (.loc .c 0) (.add (.sub (.div (.mul (.mul (.smul (.mul (.mul (.mul (.neg (.loc .r 0)) (.mem .r 11)) (.mem .r 13)) (.mem .r 13)) (.v 2 [.var 1, .var 4])) (.v 11 [.var 0, .var 6])) (.add (.smul (.mem .r 8) (.v 7 [.var 5, .var 7])) (.v 13 [.var 7, .var 5]))) (.mem .c 2)) (.div (.mul (.mul (.smul (.mul (.mul (.mul (.loc .r 0) (.mem .r 11)) (.mem .r 14)) (.mem .r 14)) (.v 10 [.var 0, .var 6])) (.v 3 [.var 1, .var 4])) (.add (.smul (.mem .r 8) (.v 6 [.var 5, .var 7])) (.v 12 [.var 5, .var 7]))) (.mem .c 2))) (.div (.smul (.mul (.mul (.mul (.mul (.loc .r 0) (.mem .r 11)) (.mem .r 13)) (.mem .r 14)) (.mem .r 2)) (.add (.mul (.mul (.v 10 [.var 0, .var 6]) (.v 2 [.var 1, .var 4])) (.v 7 [.var 5, .var 7])) (.mul (.mul (.v 11 [.var 0, .var 6]) (.v 3 [.var 1, .var 4])) (.v 6 [.var 5, .var 7])))) (.mem .c 2)))))) <|
  -- 165: return amplitude
  .ret .c (.loc .c 0)⟩

/-- `ldouble amp2()` (SM/ddZZ.cpp:169-185); variables: r 0 `amp2`, c 0 `M`, i 0 `j1`, i 1 `j2`, i 2 `j3`, i 3 `j4` -/
def m_amp2 : Method := ⟨0, 
  -- 170: ldouble amp2
  .seq (.set .r 0 (.lit 0)) <|
  -- 171: cdouble M
  .seq (.set .c 0 (.ofR (.lit 0))) <|
  -- 174: for(int j1=-1;j1<=1;j1+=2)
  .seq (.loop 0 (-1) true (.lit 1) 2 (
    -- 175: for(int j2=-1;j2<=1;j2+=2)
    .loop 1 (-1) true (.lit 1) 2 (
      -- 176: for(int j3=-2;j3<=2;j3+=2)
      .loop 2 (-2) true (.lit 2) 2 (
        -- 177: for(int j4=-2;j4<=2;j4+=2)
        .loop 3 (-2) true (.lit 2) 2 (
          -- 178: M=amp(j1,j2,j3,j4)
          .seq (.set .c 0 (.call 0 [.var 0, .var 1, .var 2, .var 3])) <|
          -- 179: amp2+=3.0*std::pow(std::abs(M),2)
          .set .r 0 (.add (.loc .r 0) (.mul (.lit 3) (.pow (.abs (.loc .c 0)) 2)))))))) <|
  -- 184: return amp2/72.0
  .ret .r (.div (.loc .r 0) (.lit 72))⟩

end ddZZ

/-- `class ddZZ` (SM/ddZZ.cpp, SM/include/ddZZ.h:25-36).  Members:
* ldouble: 0 `e`, 1 `Qf`, 2 `mf`, 3 `mh`, 4 `wh`, 5 `MW`, 6 `SW`, 7 `CW`, 8 `MZ`, 9 `WZ`, 10 `sqrt2`, 11 `preTU`, 12 `preh`, 13 `gL`, 14 `gR`
* cdouble: 0 `pDenS`, 1 `pDenT`, 2 `pDenU`
* propagator: 0 `proph`, 1 `propf`
* sproduct: 0 `s12s`, 1 `a12a`, 2 `s23s`, 3 `a23a`, 4 `s13s`, 5 `a13a`, 6 `s34s`, 7 `a34a`, 8 `s24s`, 9 `a24a`, 10 `s14s`, 11 `a14a`, 12 `s314a`, 13 `s413a` -/
def ddZZ : Proc where
  name := "ddZZ"
  nPar := 7
  ctor := ddZZ.ctor
  setMasses := ddZZ.setMasses
  massPar := [1, 2, 4]
  setMomenta := ddZZ.setMomenta
  methods := [ddZZ.m_amp2, ddZZ.m_amp]
  amp2 := 1
  others := []

namespace ddZh

/-- constructor (SM/ddZh.cpp:32-62); parameters: 0 `echarge`, 1 `massd`, 2 `massh`, 3 `widthh`, 4 `massW`, 5 `sinW`, 6 `widthZ` -/
def ctor : List SInstr := [
  -- 32: e(echarge)
  .set .r 0 (.loc .r 0),
  -- 32: md(massd)
  .set .r 1 (.loc .r 1),
  -- 32: mh(massh)
  .set .r 2 (.loc .r 2),
  -- 32: wh(widthh)
  .set .r 3 (.loc .r 3),
  -- 32: MW(massW)
  .set .r 4 (.loc .r 4),
  -- 32: SW(sinW)
  .set .r 5 (.loc .r 5),
  -- 32: CW(std::sqrt(1.0-sinW*sinW))
  .set .r 6 (.sqrt (.sub (.lit 1) (.mul (.loc .r 5) (.loc .r 5)))),
  -- 32: MZ(massW/CW)
  .set .r 7 (.div (.loc .r 4) (.mem .r 6)),
  -- 32: WZ(widthZ)
  .set .r 8 (.loc .r 6),
  -- 32: propd(massd,0)
  .prop 1 (.loc .r 1) (.lit 0),
  -- 35: sqrt2=std::sqrt(two)
  .set .r 9 (.sqrt (.lit 2)),
  -- 36: MZ=MW/CW
  .set .r 7 (.div (.mem .r 4) (.mem .r 6)),
  -- 37: propZ=propagator(MZ,WZ)
  .prop 0 (.mem .r 7) (.mem .r 8),
  -- 38: p1=particle(md)
  .part 0 (.mem .r 1),
  -- 39: p2=particle(md)
  .part 1 (.mem .r 1),
  -- 40: p3=particle(MZ)
  .part 2 (.mem .r 7),
  -- 41: p4=particle(mh)
  .part 3 (.mem .r 2),
  -- 43: s12s=sproduct(SQUARE,&p1,&p2)
  .sprod 0 ⟨false, 0, true, [], 1, true⟩,
  -- 44: a12a=sproduct(ANGLE,&p1,&p2)
  .sprod 1 ⟨true, 0, true, [], 1, true⟩,
  -- 45: s23s=sproduct(SQUARE,&p2,&p3)
  .sprod 2 ⟨false, 1, true, [], 2, true⟩,
  -- 46: a23a=sproduct(ANGLE,&p2,&p3)
  .sprod 3 ⟨true, 1, true, [], 2, true⟩,
  -- 47: s13s=sproduct(SQUARE,&p1,&p3)
  .sprod 4 ⟨false, 0, true, [], 2, true⟩,
  -- 48: a13a=sproduct(ANGLE,&p1,&p3)
  .sprod 5 ⟨true, 0, true, [], 2, true⟩,
  -- 50: s312a=sproduct(SQUARE,&p3,&p1,&p2)
  .sprod 6 ⟨false, 2, true, [0], 1, true⟩,
  -- 51: s213a=sproduct(SQUARE,&p2,&p1,&p3)
  .sprod 7 ⟨false, 1, true, [0], 2, true⟩,
  -- 52: s343a=sproduct(SQUARE,&p3,&p4,&p3)
  .sprod 8 ⟨false, 2, true, [3], 2, true⟩,
  -- 53: s143a=sproduct(SQUARE,&p1,&p4,&p3)
  .sprod 9 ⟨false, 0, true, [3], 2, true⟩,
  -- 54: s341a=sproduct(SQUARE,&p3,&p4,&p1)
  .sprod 10 ⟨false, 2, true, [3], 0, true⟩,
  -- 55: s243a=sproduct(SQUARE,&p2,&p4,&p3)
  .sprod 11 ⟨false, 1, true, [3], 2, true⟩,
  -- 56: s342a=sproduct(SQUARE,&p3,&p4,&p2)
  .sprod 12 ⟨false, 2, true, [3], 1, true⟩,
  -- 58: preTU=sqrt2*e*e*md/(4.0*MW*MW*SW*SW)
  .set .r 10 (.div (.mul (.mul (.mul (.mem .r 9) (.mem .r 0)) (.mem .r 0)) (.mem .r 1)) (.mul (.mul (.mul (.mul (.lit 4) (.mem .r 4)) (.mem .r 4)) (.mem .r 5)) (.mem .r 5))),
  -- 59: gL=2.0/3.0*SW*SW-1.0
  .set .r 12 (.sub (.mul (.mul (.div (.lit 2) (.lit 3)) (.mem .r 5)) (.mem .r 5)) (.lit 1)),
  -- 60: gR=2.0/3.0*SW*SW
  .set .r 13 (.mul (.mul (.div (.lit 2) (.lit 3)) (.mem .r 5)) (.mem .r 5)),
  -- 61: preZ=sqrt2*e*e/(4.0*MW*MW*SW*SW)
  .set .r 11 (.div (.mul (.mul (.mem .r 9) (.mem .r 0)) (.mem .r 0)) (.mul (.mul (.mul (.mul (.lit 4) (.mem .r 4)) (.mem .r 4)) (.mem .r 5)) (.mem .r 5)))]

/-- `set_masses` (SM/ddZh.cpp:63-77); parameters: 0 `massd`, 1 `massh`, 2 `massW` -/
def setMasses : List SInstr := [
  -- 64: md=massd
  .set .r 1 (.loc .r 0),
  -- 65: mh=massh
  .set .r 2 (.loc .r 1),
  -- 66: MW=massW
  .set .r 4 (.loc .r 2),
  -- 67: MZ=MW/CW
  .set .r 7 (.div (.mem .r 4) (.mem .r 6)),
  -- 68: p1.set_mass(md)
  .setMass 0 (.mem .r 1),
  -- 69: p2.set_mass(md)
  .setMass 1 (.mem .r 1),
  -- 70: p3.set_mass(MZ)
  .setMass 2 (.mem .r 7),
  -- 71: p4.set_mass(mh)
  .setMass 3 (.mem .r 2),
  -- 72: propd.set_mass(md)
  .propMass 1 (.mem .r 1),
  -- 73: propZ.set_mass(MZ)
  .propMass 0 (.mem .r 7),
  -- 75: preTU=sqrt2*e*e*md/(4.0*MW*MW*SW*SW)
  .set .r 10 (.div (.mul (.mul (.mul (.mem .r 9) (.mem .r 0)) (.mem .r 0)) (.mem .r 1)) (.mul (.mul (.mul (.mul (.lit 4) (.mem .r 4)) (.mem .r 4)) (.mem .r 5)) (.mem .r 5))),
  -- 76: preZ=sqrt2*e*e/(4.0*MW*MW*SW*SW)
  .set .r 11 (.div (.mul (.mul (.mem .r 9) (.mem .r 0)) (.mem .r 0)) (.mul (.mul (.mul (.mul (.lit 4) (.mem .r 4)) (.mem .r 4)) (.mem .r 5)) (.mem .r 5)))]

/-- `set_momenta` (SM/ddZh.cpp:78-109); parameters: 0 `mom1`, 1 `mom2`, 2 `mom3`, 3 `mom4` -/
def setMomenta : List SInstr := [
  -- 80: p1.set_momentum(mom1)
  .setMom 0 0,
  -- 81: p2.set_momentum(mom2)
  .setMom 1 1,
  -- 82: p3.set_momentum(mom3)
  .setMom 2 2,
  -- 83: p4.set_momentum(mom4)
  .setMom 3 3,
  -- 85: s12s.update()
  .update 0,
  -- 86: a12a.update()
  .update 1,
  -- 87: s23s.update()
  .update 2,
  -- 88: a23a.update()
  .update 3,
  -- 89: s13s.update()
  .update 4,
  -- 90: a13a.update()
  .update 5,
  -- 92: s312a.update()
  .update 6,
  -- 93: s213a.update()
  .update 7,
  -- 94: s343a.update()
  .update 8,
  -- 95: s143a.update()
  .update 9,
  -- 96: s341a.update()
  .update 10,
  -- 97: s243a.update()
  .update 11,
  -- 98: s342a.update()
  .update 12,
  -- 106: pDenS=propZ.denominator(propSP)
  .den .c 0 0 (.add 0 1),
  -- 107: pDenT=propd.denominator(propTP)
  .den .c 1 1 (.sub 0 2),
  -- 108: pDenU=propd.denominator(propUP)
  .den .c 2 1 (.sub 0 3)]

/-- `cdouble amp(ds1,ds2,ds3)` (SM/ddZh.cpp:114-159); variables: i 0 `ds1`, i 1 `ds2`, i 2 `ds3`, c 0 `amplitude`, i 3 `ds3a`, i 4 `ds3b`, i 5 `nCombs`, r 0 `normFactor`, i 6 `i` -/
def m_amp : Method := ⟨3, 
  -- 115: cdouble amplitude
  .seq (.set .c 0 (.ofR (.lit 0))) <|
  -- 119: int nCombs
  .seq (.seti 5 (.loops [2])) <|
  -- 120: ldouble normFactor
  .seq (.set .r 0 (.norm [2])) <|
  -- 121: for(int i=0;i<nCombs;i++)
  .seq (.loop 6 0 false (.var 5) 1 (
    -- 122: get_spinor_spins(ds3,ds3a,ds3b,i)
    .seq (.spins [(2, 3, 4)] (.var 6)) <|
    -- 132: amplitude+=normFactor*preZ*(md*(gL-gR)*(a12a.v(ds1,ds2)-s12s.v(ds1,ds2))*s343a.v(ds3a,ds3b)-2.0*MZ*MZ*(gL*s23s.v(ds2,ds3a)*a13a.v(ds1,ds3b)+gR*a23a.v(ds2,ds3a)*s13s.v(ds1,ds3b)))/pDenS
    .seq (.set .c 0 (.add (.loc .c 0) (.div (.smul (.mul (.loc .r 0) (.mem .r 11)) (.sub (.mul (.smul (.mul (.mem .r 1) (.sub (.mem .r 12) (.mem .r 13))) (.sub (.v 1 [.var 0, .var 1]) (.v 0 [.var 0, .var 1]))) (.v 8 [.var 3, .var 4])) (.smul (.mul (.mul (.lit 2) (.mem .r 7)) (.mem .r 7)) (.add (.mul (.smul (.mem .r 12) (.v 2 [.var 1, .var 3])) (.v 5 [.var 0, .var 4])) (.mul (.smul (.mem .r 13) (.v 3 [.var 1, .var 3])) (.v 4 [.var 0, .var 4])))))) (.mem .c 0)))) <|
    -- 141: amplitude+=normFactor*preTU*(gR*s13s.v(ds1,ds3a)*(-2.0*md*a23a.v(ds2,ds3b)+s243a.v(ds2,ds3b))+gL*a13a.v(ds1,ds3a)*(-2.0*md*s23s.v(ds2,ds3b)+s342a.v(ds3b,ds2)))/pDenT
    .seq (.set .c 0 (.add (.loc .c 0) (.div (.smul (.mul (.loc .r 0) (.mem .r 10)) (.add (.mul (.smul (.mem .r 13) (.v 4 [.var 0, .var 3])) (.add (.smul (.mul (.neg (.lit 2)) (.mem .r 1)) (.v 3 [.var 1, .var 4])) (.v 11 [.var 1, .var 4]))) (.mul (.smul (.mem .r 12) (.v 5 [.var 0, .var 3])) (.add (.smul (.mul (.neg (.lit 2)) (.mem .r 1)) (.v 2 [.var 1, .var 4])) (.v 12 [.var 4, .var 1]))))) (.mem .c 1)))) <|
    -- 152: amplitude+=normFactor*preTU*(gL*s23s.v(ds2,ds3a)*(s143a.v(ds1,ds3b)-2.0*md*a13a.v(ds1,ds3b))+gR*a23a.v(ds2,ds3a)*(s341a.v(ds3b,ds1)-2.0*md*s13s.v(ds1,ds3b)))/pDenU
    .set .c 0 (.add (.loc .c 0) (.div (.smul (.mul (.loc .r 0) (.mem .r 10)) (.add (.mul (.smul (.mem .r 12) (.v 2 [.var 1, .var 3])) (.sub (.v 9 [.var 0, .var 4]) (.smul (.mul (.lit 2) (.mem .r 1)) (.v 5 [.var 0, .var 4])))) (.mul (.smul (.mem .r 13) (.v 3 [.var 1, .var 3])) (.sub (.v 10 [.var 4, .var 0]) (.smul (.mul (.lit 2) (.mem .r 1)) (.v 4 [.var 0, .var 4])))))) (.mem .c 2))))) <|
  -- 158: return amplitude
  .ret .c (.loc .c 0)⟩

/-- `ldouble amp2()` (SM/ddZh.cpp:162-176); variables: r 0 `amp2`, c 0 `M`, i 0 `j1`, i 1 `j2`, i 2 `j3` -/
def m_amp2 : Method := ⟨0, 
  -- 163: ldouble amp2
  .seq (.set .r 0 (.lit 0)) <|
  -- 164: cdouble M
  .seq (.set .c 0 (.ofR (.lit 0))) <|
  -- 167: for(int j1=-1;j1<=1;j1+=2)
  .seq (.loop 0 (-1) true (.lit 1) 2 (
    -- 168: for(int j2=-1;j2<=1;j2+=2)
    .loop 1 (-1) true (.lit 1) 2 (
      -- 169: for(int j3=-2;j3<=2;j3+=2)
      .loop 2 (-2) true (.lit 2) 2 (
        -- 170: M=amp(j1,j2,j3)
        .seq (.set .c 0 (.call 0 [.var 0, .var 1, .var 2])) <|
        -- 171: amp2+=3.0*std::pow(std::abs(M),2)
        .set .r 0 (.add (.loc .r 0) (.mul (.lit 3) (.pow (.abs (.loc .c 0)) 2))))))) <|
  -- 175: return amp2/36.0
  .ret .r (.div (.loc .r 0) (.lit 36))⟩

end ddZh

/-- `class ddZh` (SM/ddZh.cpp, SM/include/ddZh.h:25-36).  Members:
* ldouble: 0 `e`, 1 `md`, 2 `mh`, 3 `wh`, 4 `MW`, 5 `SW`, 6 `CW`, 7 `MZ`, 8 `WZ`, 9 `sqrt2`, 10 `preTU`, 11 `preZ`, 12 `gL`, 13 `gR`
* cdouble: 0 `pDenS`, 1 `pDenT`, 2 `pDenU`
* propagator: 0 `propZ`, 1 `propd`
* sproduct: 0 `s12s`, 1 `a12a`, 2 `s23s`, 3 `a23a`, 4 `s13s`, 5 `a13a`, 6 `s312a`, 7 `s213a`, 8 `s343a`, 9 `s143a`, 10 `s341a`, 11 `s243a`, 12 `s342a` -/
def ddZh : Proc where
  name := "ddZh"
  nPar := 7
  ctor := ddZh.ctor
  setMasses := ddZh.setMasses
  massPar := [1, 2, 4]
  setMomenta := ddZh.setMomenta
  methods := [ddZh.m_amp2, ddZh.m_amp]
  amp2 := 1
  others := []

namespace dddd

/-- constructor (SM/dddd.cpp:32-58); parameters: 0 `echarge`, 1 `gscharge`, 2 `massd`, 3 `massh`, 4 `widthh`, 5 `massW`, 6 `sinW`, 7 `widthZ` -/
def ctor : List SInstr := [
  -- 32: e(echarge)
  .set .r 0 (.loc .r 0),
  -- 32: gs(gscharge)
  .set .r 1 (.loc .r 1),
  -- 32: md(massd)
  .set .r 2 (.loc .r 2),
  -- 32: mh(massh)
  .set .r 3 (.loc .r 3),
  -- 32: wh(widthh)
  .set .r 4 (.loc .r 4),
  -- 32: WZ(widthZ)
  .set .r 6 (.loc .r 7),
  -- 32: MW(massW)
  .set .r 7 (.loc .r 5),
  -- 32: SW(sinW)
  .set .r 8 (.loc .r 6),
  -- 32: CW(std::sqrt(1.0-sinW*sinW))
  .set .r 9 (.sqrt (.sub (.lit 1) (.mul (.loc .r 6) (.loc .r 6)))),
  -- 32: p1(particle(md))
  .part 0 (.mem .r 2),
  -- 32: p2(particle(md))
  .part 1 (.mem .r 2),
  -- 32: p3(particle(md))
  .part 2 (.mem .r 2),
  -- 32: p4(particle(md))
  .part 3 (.mem .r 2),
  -- 32: propAG(0,0)
  .prop 0 (.lit 0) (.lit 0),
  -- 32: proph(mh,wh)
  .prop 1 (.mem .r 3) (.mem .r 4),
  -- 32: propZ(MZ,WZ)
  .prop 2 (.mem .r 5) (.mem .r 6),
  -- 32: a13a(sproduct(ANGLE,&p1,&p3))
  .sprod 0 ⟨true, 0, true, [], 2, true⟩,
  -- 32: s13s(sproduct(SQUARE,&p1,&p3))
  .sprod 1 ⟨false, 0, true, [], 2, true⟩,
  -- 32: a14a(sproduct(ANGLE,&p1,&p4))
  .sprod 2 ⟨true, 0, true, [], 3, true⟩,
  -- 32: s14s(sproduct(SQUARE,&p1,&p4))
  .sprod 3 ⟨false, 0, true, [], 3, true⟩,
  -- 32: a23a(sproduct(ANGLE,&p2,&p3))
  .sprod 4 ⟨true, 1, true, [], 2, true⟩,
  -- 32: s23s(sproduct(SQUARE,&p2,&p3))
  .sprod 5 ⟨false, 1, true, [], 2, true⟩,
  -- 32: a24a(sproduct(ANGLE,&p2,&p4))
  .sprod 6 ⟨true, 1, true, [], 3, true⟩,
  -- 32: s24s(sproduct(SQUARE,&p2,&p4))
  .sprod 7 ⟨false, 1, true, [], 3, true⟩,
  -- 32: s12s(sproduct(SQUARE,&p1,&p2))
  .sprod 8 ⟨false, 0, true, [], 1, true⟩,
  -- 32: a12a(sproduct(ANGLE,&p1,&p2))
  .sprod 9 ⟨true, 0, true, [], 1, true⟩,
  -- 32: s34s(sproduct(SQUARE,&p3,&p4))
  .sprod 10 ⟨false, 2, true, [], 3, true⟩,
  -- 32: a34a(sproduct(ANGLE,&p3,&p4))
  .sprod 11 ⟨true, 2, true, [], 3, true⟩,
  -- 51: MZ=MW/CW
  .set .r 5 (.div (.mem .r 7) (.mem .r 9)),
  -- 52: propZ.set_mass(MZ)
  .propMass 2 (.mem .r 5),
  -- 53: preh=e*e*md*md/(4.0*MW*MW*SW*SW)
  .set .r 10 (.div (.mul (.mul (.mul (.mem .r 0) (.mem .r 0)) (.mem .r 2)) (.mem .r 2)) (.mul (.mul (.mul (.mul (.lit 4) (.mem .r 7)) (.mem .r 7)) (.mem .r 8)) (.mem .r 8))),
  -- 54: gL=-1.0+2.0/3.0*SW*SW
  .set .r 11 (.add (.neg (.lit 1)) (.mul (.mul (.div (.lit 2) (.lit 3)) (.mem .r 8)) (.mem .r 8))),
  -- 55: gR=2.0/3.0*SW*SW
  .set .r 12 (.mul (.mul (.div (.lit 2) (.lit 3)) (.mem .r 8)) (.mem .r 8)),
  -- 56: preZ=e*e/(4.0*CW*CW*SW*SW)
  .set .r 13 (.div (.mul (.mem .r 0) (.mem .r 0)) (.mul (.mul (.mul (.mul (.lit 4) (.mem .r 9)) (.mem .r 9)) (.mem .r 8)) (.mem .r 8))),
  -- 57: preZ0=preZ*(gL-gR)*(gL-gR)*md*md/MZ/MZ
  .set .r 14 (.div (.div (.mul (.mul (.mul (.mul (.mem .r 13) (.sub (.mem .r 11) (.mem .r 12))) (.sub (.mem .r 11) (.mem .r 12))) (.mem .r 2)) (.mem .r 2)) (.mem .r 5)) (.mem .r 5))]

/-- `set_masses` (SM/dddd.cpp:59-72); parameters: 0 `massd`, 1 `massh`, 2 `massW` -/
def setMasses : List SInstr := [
  -- 60: md=massd
  .set .r 2 (.loc .r 0),
  -- 61: mh=massh
  .set .r 3 (.loc .r 1),
  -- 62: proph.set_mass(mh)
  .propMass 1 (.mem .r 3),
  -- 63: MW=massW
  .set .r 7 (.loc .r 2),
  -- 64: MZ=MW/CW
  .set .r 5 (.div (.mem .r 7) (.mem .r 9)),
  -- 65: propZ.set_mass(MZ)
  .propMass 2 (.mem .r 5),
  -- 66: p1.set_mass(md)
  .setMass 0 (.mem .r 2),
  -- 67: p2.set_mass(md)
  .setMass 1 (.mem .r 2),
  -- 68: p3.set_mass(md)
  .setMass 2 (.mem .r 2),
  -- 69: p4.set_mass(md)
  .setMass 3 (.mem .r 2),
  -- 70: preh=e*e*md*md/(4*MW*MW*SW*SW)
  .set .r 10 (.div (.mul (.mul (.mul (.mem .r 0) (.mem .r 0)) (.mem .r 2)) (.mem .r 2)) (.mul (.mul (.mul (.mul (.lit 4) (.mem .r 7)) (.mem .r 7)) (.mem .r 8)) (.mem .r 8))),
  -- 71: preZ0=preZ*(gL-gR)*(gL-gR)*md*md/MZ/MZ
  .set .r 14 (.div (.div (.mul (.mul (.mul (.mul (.mem .r 13) (.sub (.mem .r 11) (.mem .r 12))) (.sub (.mem .r 11) (.mem .r 12))) (.mem .r 2)) (.mem .r 2)) (.mem .r 5)) (.mem .r 5))]

/-- `set_momenta` (SM/dddd.cpp:73-103); parameters: 0 `mom1`, 1 `mom2`, 2 `mom3`, 3 `mom4` -/
def setMomenta : List SInstr := [
  -- 75: p1.set_momentum(mom1)
  .setMom 0 0,
  -- 76: p2.set_momentum(mom2)
  .setMom 1 1,
  -- 77: p3.set_momentum(mom3)
  .setMom 2 2,
  -- 78: p4.set_momentum(mom4)
  .setMom 3 3,
  -- 79: a13a.update()
  .update 0,
  -- 80: s13s.update()
  .update 1,
  -- 81: a14a.update()
  .update 2,
  -- 82: s14s.update()
  .update 3,
  -- 83: a23a.update()
  .update 4,
  -- 84: s23s.update()
  .update 5,
  -- 85: a24a.update()
  .update 6,
  -- 86: s24s.update()
  .update 7,
  -- 87: s12s.update()
  .update 8,
  -- 88: a12a.update()
  .update 9,
  -- 89: s34s.update()
  .update 10,
  -- 90: a34a.update()
  .update 11,
  -- 97: pDenSAG=propAG.denominator(propPS)
  .den .c 0 0 (.add 0 1),
  -- 98: pDenSh=proph.denominator(propPS)
  .den .c 1 1 (.add 0 1),
  -- 99: pDenSZ=propZ.denominator(propPS)
  .den .c 2 2 (.add 0 1),
  -- 100: pDenTAG=propAG.denominator(propPT)
  .den .c 3 0 (.sub 0 2),
  -- 101: pDenTh=proph.denominator(propPT)
  .den .c 4 1 (.sub 0 2),
  -- 102: pDenTZ=propZ.denominator(propPT)
  .den .c 5 2 (.sub 0 2)]

/-- `cdouble amp_gluon_S(ds1,ds2,ds3,ds4)` (SM/dddd.cpp:109-122); variables: i 0 `ds1`, i 1 `ds2`, i 2 `ds3`, i 3 `ds4`, c 0 `amplitude` -/
def m_amp_gluon_S : Method := ⟨4, 
  -- 111: cdouble amplitude
  .seq (.set .c 0 (.ofR (.lit 0))) <|
  -- 116: amplitude=two*gs*gs*(a13a.v(ds1,ds3)*s24s.v(ds2,ds4)+a14a.v(ds1,ds4)*s23s.v(ds2,ds3)+s13s.v(ds1,ds3)*a24a.v(ds2,ds4)+s14s.v(ds1,ds4)*a23a.v(ds2,ds3))/pDenSAG
  .seq (.set .c 0 (.div (.smul (.mul (.mul (.lit 2) (.mem .r 1)) (.mem .r 1)) (.add (.add (.add (.mul (.v 0 [.var 0, .var 2]) (.v 7 [.var 1, .var 3])) (.mul (.v 2 [.var 0, .var 3]) (.v 5 [.var 1, .var 2]))) (.mul (.v 1 [.var 0, .var 2]) (.v 6 [.var 1, .var 3]))) (.mul (.v 3 [.var 0, .var 3]) (.v 4 [.var 1, .var 2])))) (.mem .c 0))) <|
  -- 121: return amplitude
  .ret .c (.loc .c 0)⟩

/-- `cdouble amp_gluon_T(ds1,ds2,ds3,ds4)` (SM/dddd.cpp:123-137); variables: i 0 `ds1`, i 1 `ds2`, i 2 `ds3`, i 3 `ds4`, c 0 `amplitude` -/
def m_amp_gluon_T : Method := ⟨4, 
  -- 125: cdouble amplitude
  .seq (.set .c 0 (.ofR (.lit 0))) <|
  -- 131: amplitude=two*gs*gs*(a12a.v(ds1,ds2)*s34s.v(ds3,ds4)+a14a.v(ds1,ds4)*s23s.v(ds2,ds3)+s12s.v(ds1,ds2)*a34a.v(ds3,ds4)+s14s.v(ds1,ds4)*a23a.v(ds2,ds3))/pDenTAG
  .seq (.set .c 0 (.div (.smul (.mul (.mul (.lit 2) (.mem .r 1)) (.mem .r 1)) (.add (.add (.add (.mul (.v 9 [.var 0, .var 1]) (.v 10 [.var 2, .var 3])) (.mul (.v 2 [.var 0, .var 3]) (.v 5 [.var 1, .var 2]))) (.mul (.v 8 [.var 0, .var 1]) (.v 11 [.var 2, .var 3]))) (.mul (.v 3 [.var 0, .var 3]) (.v 4 [.var 1, .var 2])))) (.mem .c 3))) <|
  -- 136: return amplitude
  .ret .c (.loc .c 0)⟩

/-- `cdouble amp_rest_S(ds1,ds2,ds3,ds4)` (SM/dddd.cpp:138-178); variables: i 0 `ds1`, i 1 `ds2`, i 2 `ds3`, i 3 `ds4`, c 0 `amplitude` -/
def m_amp_rest_S : Method := ⟨4, 
  -- 140: cdouble amplitude
  .seq (.set .c 0 (.ofR (.lit 0))) <|
  -- 145: amplitude=two*e*e*1.0/9.0*(a13a.v(ds1,ds3)*s24s.v(ds2,ds4)+a14a.v(ds1,ds4)*s23s.v(ds2,ds3)+s13s.v(ds1,ds3)*a24a.v(ds2,ds4)+s14s.v(ds1,ds4)*a23a.v(ds2,ds3))/pDenSAG
  .seq (.set .c 0 (.div (.smul (.div (.mul (.mul (.mul (.lit 2) (.mem .r 0)) (.mem .r 0)) (.lit 1)) (.lit 9)) (.add (.add (.add (.mul (.v 0 [.var 0, .var 2]) (.v 7 [.var 1, .var 3])) (.mul (.v 2 [.var 0, .var 3]) (.v 5 [.var 1, .var 2]))) (.mul (.v 1 [.var 0, .var 2]) (.v 6 [.var 1, .var 3]))) (.mul (.v 3 [.var 0, .var 3]) (.v 4 [.var 1, .var 2])))) (.mem .c 0))) <|
  -- 153: amplitude+=preh*(s12s.v(ds1,ds2)+a12a.v(ds1,ds2))*(s34s.v(ds3,ds4)+a34a.v(ds3,ds4))/pDenSh
  .seq (.set .c 0 (.add (.loc .c 0) (.div (.mul (.smul (.mem .r 10) (.add (.v 8 [.var 0, .var 1]) (.v 9 [.var 0, .var 1]))) (.add (.v 10 [.var 2, .var 3]) (.v 11 [.var 2, .var 3]))) (.mem .c 1)))) <|
  -- 169: amplitude+=-preZ0*(a12a.v(ds1,ds2)-s12s.v(ds1,ds2))*(a34a.v(ds3,ds4)-s34s.v(ds3,ds4))/pDenSZ+two*preZ*(gL*gL*s23s.v(ds2,ds3)*a14a.v(ds1,ds4)+gL*gR*(s13s.v(ds1,ds3)*a24a.v(ds2,ds4)+s24s.v(ds2,ds4)*a13a.v(ds1,ds3))+gR*gR*s14s.v(ds1,ds4)*a23a.v(ds2,ds3))/pDenSZ
  .seq (.set .c 0 (.add (.loc .c 0) (.add (.div (.mul (.smul (.neg (.mem .r 14)) (.sub (.v 9 [.var 0, .var 1]) (.v 8 [.var 0, .var 1]))) (.sub (.v 11 [.var 2, .var 3]) (.v 10 [.var 2, .var 3]))) (.mem .c 2)) (.div (.smul (.mul (.lit 2) (.mem .r 13)) (.add (.add (.mul (.smul (.mul (.mem .r 11) (.mem .r 11)) (.v 5 [.var 1, .var 2])) (.v 2 [.var 0, .var 3])) (.smul (.mul (.mem .r 11) (.mem .r 12)) (.add (.mul (.v 1 [.var 0, .var 2]) (.v 6 [.var 1, .var 3])) (.mul (.v 7 [.var 1, .var 3]) (.v 0 [.var 0, .var 2]))))) (.mul (.smul (.mul (.mem .r 12) (.mem .r 12)) (.v 3 [.var 0, .var 3])) (.v 4 [.var 1, .var 2])))) (.mem .c 2))))) <|
  -- 177: return amplitude
  .ret .c (.loc .c 0)⟩

/-- `cdouble amp_rest_T(ds1,ds2,ds3,ds4)` (SM/dddd.cpp:179-218); variables: i 0 `ds1`, i 1 `ds2`, i 2 `ds3`, i 3 `ds4`, c 0 `amplitude` -/
def m_amp_rest_T : Method := ⟨4, 
  -- 181: cdouble amplitude
  .seq (.set .c 0 (.ofR (.lit 0))) <|
  -- 188: amplitude+=two*e*e*1.0/9.0*(a12a.v(ds1,ds2)*s34s.v(ds3,ds4)+a14a.v(ds1,ds4)*s23s.v(ds2,ds3)+s12s.v(ds1,ds2)*a34a.v(ds3,ds4)+s14s.v(ds1,ds4)*a23a.v(ds2,ds3))/pDenTAG
  .seq (.set .c 0 (.add (.loc .c 0) (.div (.smul (.div (.mul (.mul (.mul (.lit 2) (.mem .r 0)) (.mem .r 0)) (.lit 1)) (.lit 9)) (.add (.add (.add (.mul (.v 9 [.var 0, .var 1]) (.v 10 [.var 2, .var 3])) (.mul (.v 2 [.var 0, .var 3]) (.v 5 [.var 1, .var 2]))) (.mul (.v 8 [.var 0, .var 1]) (.v 11 [.var 2, .var 3]))) (.mul (.v 3 [.var 0, .var 3]) (.v 4 [.var 1, .var 2])))) (.mem .c 3)))) <|
  -- 198: amplitude+=-preh*(s13s.v(ds1,ds3)-a13a.v(ds1,ds3))*(s24s.v(ds2,ds4)-a24a.v(ds2,ds4))/pDenTh
  .seq (.set .c 0 (.add (.loc .c 0) (.div (.mul (.smul (.neg (.mem .r 10)) (.sub (.v 1 [.var 0, .var 2]) (.v 0 [.var 0, .var 2]))) (.sub (.v 7 [.var 1, .var 3]) (.v 6 [.var 1, .var 3]))) (.mem .c 4)))) <|
  -- 209: amplitude+=+preZ0*(a13a.v(ds1,ds3)+s13s.v(ds1,ds3))*(a24a.v(ds2,ds4)+s24s.v(ds2,ds4))/pDenTZ+two*preZ*(gL*gL*s23s.v(ds2,ds3)*a14a.v(ds1,ds4)+gL*gR*(s12s.v(ds1,ds2)*a34a.v(ds3,ds4)+s34s.v(ds3,ds4)*a12a.v(ds1,ds2))+gR*gR*s14s.v(ds1,ds4)*a23a.v(ds2,ds3))/pDenTZ
  .seq (.set .c 0 (.add (.loc .c 0) (.add (.div (.mul (.smul (.mem .r 14) (.add (.v 0 [.var 0, .var 2]) (.v 1 [.var 0, .var 2]))) (.add (.v 6 [.var 1, .var 3]) (.v 7 [.var 1, .var 3]))) (.mem .c 5)) (.div (.smul (.mul (.lit 2) (.mem .r 13)) (.add (.add (.mul (.smul (.mul (.mem .r 11) (.mem .r 11)) (.v 5 [.var 1, .var 2])) (.v 2 [.var 0, .var 3])) (.smul (.mul (.mem .r 11) (.mem .r 12)) (.add (.mul (.v 8 [.var 0, .var 1]) (.v 11 [.var 2, .var 3])) (.mul (.v 10 [.var 2, .var 3]) (.v 9 [.var 0, .var 1]))))) (.mul (.smul (.mul (.mem .r 12) (.mem .r 12)) (.v 3 [.var 0, .var 3])) (.v 4 [.var 1, .var 2])))) (.mem .c 5))))) <|
  -- 217: return amplitude
  .ret .c (.loc .c 0)⟩

/-- `ldouble amp2()` (SM/dddd.cpp:221-250); variables: r 0 `amp2`, c 0 `M_rest_S`, c 1 `M_gluon_S`, c 2 `M_rest_T`, c 3 `M_gluon_T`, i 0 `j1`, i 1 `j2`, i 2 `j3`, i 3 `j4` -/
def m_amp2 : Method := ⟨0, 
  -- 222: ldouble amp2
  .seq (.set .r 0 (.lit 0)) <|
  -- 224: cdouble M_rest_S
  .seq (.set .c 0 (.ofR (.lit 0))) <|
  -- 224: cdouble M_gluon_S
  .seq (.set .c 1 (.ofR (.lit 0))) <|
  -- 224: cdouble M_rest_T
  .seq (.set .c 2 (.ofR (.lit 0))) <|
  -- 224: cdouble M_gluon_T
  .seq (.set .c 3 (.ofR (.lit 0))) <|
  -- 227: for(int j1=-1;j1<=1;j1+=2)
  .seq (.loop 0 (-1) true (.lit 1) 2 (
    -- 228: for(int j2=-1;j2<=1;j2+=2)
    .loop 1 (-1) true (.lit 1) 2 (
      -- 229: for(int j3=-1;j3<=1;j3+=2)
      .loop 2 (-1) true (.lit 1) 2 (
        -- 230: for(int j4=-1;j4<=1;j4+=2)
        .loop 3 (-1) true (.lit 1) 2 (
          -- 231: M_rest_S=amp_rest_S(j1,j2,j3,j4)
          .seq (.set .c 0 (.call 2 [.var 0, .var 1, .var 2, .var 3])) <|
          -- 232: M_rest_T=amp_rest_T(j1,j2,j3,j4)
          .seq (.set .c 2 (.call 3 [.var 0, .var 1, .var 2, .var 3])) <|
          -- 233: M_gluon_S=amp_gluon_S(j1,j2,j3,j4)
          .seq (.set .c 1 (.call 0 [.var 0, .var 1, .var 2, .var 3])) <|
          -- 234: M_gluon_T=amp_gluon_T(j1,j2,j3,j4)
          .seq (.set .c 3 (.call 1 [.var 0, .var 1, .var 2, .var 3])) <|
          -- 235: amp2+=nine*std::pow(std::abs(M_rest_S),2)
          .seq (.set .r 0 (.add (.loc .r 0) (.mul (.lit 9) (.pow (.abs (.loc .c 0)) 2)))) <|
          -- 236: amp2+=two*std::pow(std::abs(M_gluon_S),2)
          .seq (.set .r 0 (.add (.loc .r 0) (.mul (.lit 2) (.pow (.abs (.loc .c 1)) 2)))) <|
          -- 237: amp2+=nine*std::pow(std::abs(M_rest_T),2)
          .seq (.set .r 0 (.add (.loc .r 0) (.mul (.lit 9) (.pow (.abs (.loc .c 2)) 2)))) <|
          -- 238: amp2+=two*std::pow(std::abs(M_gluon_T),2)
          .seq (.set .r 0 (.add (.loc .r 0) (.mul (.lit 2) (.pow (.abs (.loc .c 3)) 2)))) <|
          -- 241: amp2+=three*two*std::real(M_rest_S*std::conj(M_rest_T))
          .seq (.set .r 0 (.add (.loc .r 0) (.mul (.mul (.lit 3) (.lit 2)) (.re (.mul (.loc .c 0) (.conj (.loc .c 2))))))) <|
          -- 242: amp2+=(-two/three)*two*std::real(M_gluon_S*std::conj(M_gluon_T))
          .seq (.set .r 0 (.add (.loc .r 0) (.mul (.mul (.div (.neg (.lit 2)) (.lit 3)) (.lit 2)) (.re (.mul (.loc .c 1) (.conj (.loc .c 3))))))) <|
          -- 243: amp2+=four*two*std::real(M_gluon_S*std::conj(M_rest_T))
          .seq (.set .r 0 (.add (.loc .r 0) (.mul (.mul (.lit 4) (.lit 2)) (.re (.mul (.loc .c 1) (.conj (.loc .c 2))))))) <|
          -- 244: amp2+=four*two*std::real(M_gluon_T*std::conj(M_rest_S))
          .set .r 0 (.add (.loc .r 0) (.mul (.mul (.lit 4) (.lit 2)) (.re (.mul (.loc .c 3) (.conj (.loc .c 0))))))))))) <|
  -- 249: return amp2/36.0
  .ret .r (.div (.loc .r 0) (.lit 36))⟩

end dddd

/-- `class dddd` (SM/dddd.cpp, SM/include/dddd.h:25-34).  Members:
* ldouble: 0 `e`, 1 `gs`, 2 `md`, 3 `mh`, 4 `wh`, 5 `MZ`, 6 `WZ`, 7 `MW`, 8 `SW`, 9 `CW`, 10 `preh`, 11 `gL`, 12 `gR`, 13 `preZ`, 14 `preZ0`
* cdouble: 0 `pDenSAG`, 1 `pDenSh`, 2 `pDenSZ`, 3 `pDenTAG`, 4 `pDenTh`, 5 `pDenTZ`
* propagator: 0 `propAG`, 1 `proph`, 2 `propZ`
* sproduct: 0 `a13a`, 1 `s13s`, 2 `a14a`, 3 `s14s`, 4 `a23a`, 5 `s23s`, 6 `a24a`, 7 `s24s`, 8 `s12s`, 9 `a12a`, 10 `s34s`, 11 `a34a` -/
def dddd : Proc where
  name := "dddd"
  nPar := 8
  ctor := dddd.ctor
  setMasses := dddd.setMasses
  massPar := [2, 3, 5]
  setMomenta := dddd.setMomenta
  methods := [dddd.m_amp2, dddd.m_amp_rest_T, dddd.m_amp_rest_S, dddd.m_amp_gluon_T, dddd.m_amp_gluon_S]
  amp2 := 4
  others := []

namespace dddd2

/-- constructor (SM/dddd2.cpp:32-58); parameters: 0 `echarge`, 1 `gscharge`, 2 `massd`, 3 `massh`, 4 `widthh`, 5 `massW`, 6 `sinW`, 7 `widthZ` -/
def ctor : List SInstr := [
  -- 32: e(echarge)
  .set .r 0 (.loc .r 0),
  -- 32: gs(gscharge)
  .set .r 1 (.loc .r 1),
  -- 32: md(massd)
  .set .r 2 (.loc .r 2),
  -- 32: mh(massh)
  .set .r 3 (.loc .r 3),
  -- 32: wh(widthh)
  .set .r 4 (.loc .r 4),
  -- 32: WZ(widthZ)
  .set .r 6 (.loc .r 7),
  -- 32: MW(massW)
  .set .r 7 (.loc .r 5),
  -- 32: SW(sinW)
  .set .r 8 (.loc .r 6),
  -- 32: CW(std::sqrt(1.0-sinW*sinW))
  .set .r 9 (.sqrt (.sub (.lit 1) (.mul (.loc .r 6) (.loc .r 6)))),
  -- 32: p1(particle(md))
  .part 0 (.mem .r 2),
  -- 32: p2(particle(md))
  .part 1 (.mem .r 2),
  -- 32: p3(particle(md))
  .part 2 (.mem .r 2),
  -- 32: p4(particle(md))
  .part 3 (.mem .r 2),
  -- 32: propAG(0,0)
  .prop 0 (.lit 0) (.lit 0),
  -- 32: proph(mh,wh)
  .prop 1 (.mem .r 3) (.mem .r 4),
  -- 32: a13a(sproduct(ANGLE,&p1,&p3))
  .sprod 0 ⟨true, 0, true, [], 2, true⟩,
  -- 32: s13s(sproduct(SQUARE,&p1,&p3))
  .sprod 1 ⟨false, 0, true, [], 2, true⟩,
  -- 32: a14a(sproduct(ANGLE,&p1,&p4))
  .sprod 2 ⟨true, 0, true, [], 3, true⟩,
  -- 32: s14s(sproduct(SQUARE,&p1,&p4))
  .sprod 3 ⟨false, 0, true, [], 3, true⟩,
  -- 32: a23a(sproduct(ANGLE,&p2,&p3))
  .sprod 4 ⟨true, 1, true, [], 2, true⟩,
  -- 32: s23s(sproduct(SQUARE,&p2,&p3))
  .sprod 5 ⟨false, 1, true, [], 2, true⟩,
  -- 32: a24a(sproduct(ANGLE,&p2,&p4))
  .sprod 6 ⟨true, 1, true, [], 3, true⟩,
  -- 32: s24s(sproduct(SQUARE,&p2,&p4))
  .sprod 7 ⟨false, 1, true, [], 3, true⟩,
  -- 32: s12s(sproduct(SQUARE,&p1,&p2))
  .sprod 8 ⟨false, 0, true, [], 1, true⟩,
  -- 32: a12a(sproduct(ANGLE,&p1,&p2))
  .sprod 9 ⟨true, 0, true, [], 1, true⟩,
  -- 32: s34s(sproduct(SQUARE,&p3,&p4))
  .sprod 10 ⟨false, 2, true, [], 3, true⟩,
  -- 32: a34a(sproduct(ANGLE,&p3,&p4))
  .sprod 11 ⟨true, 2, true, [], 3, true⟩,
  -- 51: MZ=MW/CW
  .set .r 5 (.div (.mem .r 7) (.mem .r 9)),
  -- 52: propZ.set_mass(MZ)
  .propMass 2 (.mem .r 5),
  -- 53: preh=e*e*md*md/(4.0*MW*MW*SW*SW)
  .set .r 10 (.div (.mul (.mul (.mul (.mem .r 0) (.mem .r 0)) (.mem .r 2)) (.mem .r 2)) (.mul (.mul (.mul (.mul (.lit 4) (.mem .r 7)) (.mem .r 7)) (.mem .r 8)) (.mem .r 8))),
  -- 54: gL=-1.0+2.0/3.0*SW*SW
  .set .r 11 (.add (.neg (.lit 1)) (.mul (.mul (.div (.lit 2) (.lit 3)) (.mem .r 8)) (.mem .r 8))),
  -- 55: gR=2.0/3.0*SW*SW
  .set .r 12 (.mul (.mul (.div (.lit 2) (.lit 3)) (.mem .r 8)) (.mem .r 8)),
  -- 56: preZ=e*e/(4.0*CW*CW*SW*SW)
  .set .r 13 (.div (.mul (.mem .r 0) (.mem .r 0)) (.mul (.mul (.mul (.mul (.lit 4) (.mem .r 9)) (.mem .r 9)) (.mem .r 8)) (.mem .r 8))),
  -- 57: preZ0=preZ*(gL-gR)*(gL-gR)*md*md/MZ/MZ
  .set .r 14 (.div (.div (.mul (.mul (.mul (.mul (.mem .r 13) (.sub (.mem .r 11) (.mem .r 12))) (.sub (.mem .r 11) (.mem .r 12))) (.mem .r 2)) (.mem .r 2)) (.mem .r 5)) (.mem .r 5))]

/-- `set_masses` (SM/dddd2.cpp:59-72); parameters: 0 `massd`, 1 `massh`, 2 `massW` -/
def setMasses : List SInstr := [
  -- 60: md=massd
  .set .r 2 (.loc .r 0),
  -- 61: mh=massh
  .set .r 3 (.loc .r 1),
  -- 62: proph.set_mass(mh)
  .propMass 1 (.mem .r 3),
  -- 63: MW=massW
  .set .r 7 (.loc .r 2),
  -- 64: MZ=MW/CW
  .set .r 5 (.div (.mem .r 7) (.mem .r 9)),
  -- 65: propZ.set_mass(MZ)
  .propMass 2 (.mem .r 5),
  -- 66: p1.set_mass(md)
  .setMass 0 (.mem .r 2),
  -- 67: p2.set_mass(md)
  .setMass 1 (.mem .r 2),
  -- 68: p3.set_mass(md)
  .setMass 2 (.mem .r 2),
  -- 69: p4.set_mass(md)
  .setMass 3 (.mem .r 2),
  -- 70: preh=e*e*md*md/(4*MW*MW*SW*SW)
  .set .r 10 (.div (.mul (.mul (.mul (.mem .r 0) (.mem .r 0)) (.mem .r 2)) (.mem .r 2)) (.mul (.mul (.mul (.mul (.lit 4) (.mem .r 7)) (.mem .r 7)) (.mem .r 8)) (.mem .r 8))),
  -- 71: preZ0=preZ*(gL-gR)*(gL-gR)*md*md/MZ/MZ
  .set .r 14 (.div (.div (.mul (.mul (.mul (.mul (.mem .r 13) (.sub (.mem .r 11) (.mem .r 12))) (.sub (.mem .r 11) (.mem .r 12))) (.mem .r 2)) (.mem .r 2)) (.mem .r 5)) (.mem .r 5))]

/-- `set_momenta` (SM/dddd2.cpp:73-103); parameters: 0 `mom1`, 1 `mom2`, 2 `mom3`, 3 `mom4` -/
def setMomenta : List SInstr := [
  -- 75: p1.set_momentum(mom1)
  .setMom 0 0,
  -- 76: p2.set_momentum(mom2)
  .setMom 1 1,
  -- 77: p3.set_momentum(mom3)
  .setMom 2 2,
  -- 78: p4.set_momentum(mom4)
  .setMom 3 3,
  -- 79: a13a.update()
  .update 0,
  -- 80: s13s.update()
  .update 1,
  -- 81: a14a.update()
  .update 2,
  -- 82: s14s.update()
  .update 3,
  -- 83: a23a.update()
  .update 4,
  -- 84: s23s.update()
  .update 5,
  -- 85: a24a.update()
  .update 6,
  -- 86: s24s.update()
  .update 7,
  -- 87: s12s.update()
  .update 8,
  -- 88: a12a.update()
  .update 9,
  -- 89: s34s.update()
  .update 10,
  -- 90: a34a.update()
  .update 11,
  -- 97: pDenTAG=propAG.denominator(propPT)
  .den .c 0 0 (.sub 0 2),
  -- 98: pDenTh=proph.denominator(propPT)
  .den .c 1 1 (.sub 0 2),
  -- 99: pDenTZ=propZ.denominator(propPT)
  .den .c 2 2 (.sub 0 2),
  -- 100: pDenUAG=propAG.denominator(propPU)
  .den .c 3 0 (.sub 0 3),
  -- 101: pDenUh=proph.denominator(propPU)
  .den .c 4 1 (.sub 0 3),
  -- 102: pDenUZ=propZ.denominator(propPU)
  .den .c 5 2 (.sub 0 3)]

/-- `cdouble amp_gluon_T(ds1,ds2,ds3,ds4)` (SM/dddd2.cpp:109-126); variables: i 0 `ds1`, i 1 `ds2`, i 2 `ds3`, i 3 `ds4`, c 0 `amplitude` -/
def m_amp_gluon_T : Method := ⟨4, 
  -- 111: cdouble amplitude
  .seq (.set .c 0 (.ofR (.lit 0))) <|
  -- 120: amplitude=-two*gs*gs*(a14a.v(ds1,ds4)*s23s.v(ds2,ds3)+a12a.v(ds1,ds2)*s34s.v(ds3,ds4)+s14s.v(ds1,ds4)*a23a.v(ds2,ds3)+s12s.v(ds1,ds2)*a34a.v(ds3,ds4))/pDenTAG
  .seq (.set .c 0 (.div (.smul (.mul (.mul (.neg (.lit 2)) (.mem .r 1)) (.mem .r 1)) (.add (.add (.add (.mul (.v 2 [.var 0, .var 3]) (.v 5 [.var 1, .var 2])) (.mul (.v 9 [.var 0, .var 1]) (.v 10 [.var 2, .var 3]))) (.mul (.v 3 [.var 0, .var 3]) (.v 4 [.var 1, .var 2]))) (.mul (.v 8 [.var 0, .var 1]) (.v 11 [.var 2, .var 3])))) (.mem .c 0))) <|
  -- 125: return amplitude
  .ret .c (.loc .c 0)⟩

/-- `cdouble amp_gluon_U(ds1,ds2,ds3,ds4)` (SM/dddd2.cpp:127-144); variables: i 0 `ds1`, i 1 `ds2`, i 2 `ds3`, i 3 `ds4`, c 0 `amplitude` -/
def m_amp_gluon_U : Method := ⟨4, 
  -- 129: cdouble amplitude
  .seq (.set .c 0 (.ofR (.lit 0))) <|
  -- 138: amplitude=two*gs*gs*(a13a.v(ds1,ds3)*s24s.v(ds2,ds4)-a12a.v(ds1,ds2)*s34s.v(ds3,ds4)+s13s.v(ds1,ds3)*a24a.v(ds2,ds4)-s12s.v(ds1,ds2)*a34a.v(ds3,ds4))/pDenUAG
  .seq (.set .c 0 (.div (.smul (.mul (.mul (.lit 2) (.mem .r 1)) (.mem .r 1)) (.sub (.add (.sub (.mul (.v 0 [.var 0, .var 2]) (.v 7 [.var 1, .var 3])) (.mul (.v 9 [.var 0, .var 1]) (.v 10 [.var 2, .var 3]))) (.mul (.v 1 [.var 0, .var 2]) (.v 6 [.var 1, .var 3]))) (.mul (.v 8 [.var 0, .var 1]) (.v 11 [.var 2, .var 3])))) (.mem .c 3))) <|
  -- 143: return amplitude
  .ret .c (.loc .c 0)⟩

/-- `cdouble amp_rest_T(ds1,ds2,ds3,ds4)` (SM/dddd2.cpp:145-195); variables: i 0 `ds1`, i 1 `ds2`, i 2 `ds3`, i 3 `ds4`, c 0 `amplitude` -/
def m_amp_rest_T : Method := ⟨4, 
  -- 147: cdouble amplitude
  .seq (.set .c 0 (.ofR (.lit 0))) <|
  -- 156: amplitude=-two*e*e*1.0/9.0*(a14a.v(ds1,ds4)*s23s.v(ds2,ds3)+a12a.v(ds1,ds2)*s34s.v(ds3,ds4)+s14s.v(ds1,ds4)*a23a.v(ds2,ds3)+s12s.v(ds1,ds2)*a34a.v(ds3,ds4))/pDenTAG
  .seq (.set .c 0 (.div (.smul (.div (.mul (.mul (.mul (.neg (.lit 2)) (.mem .r 0)) (.mem .r 0)) (.lit 1)) (.lit 9)) (.add (.add (.add (.mul (.v 2 [.var 0, .var 3]) (.v 5 [.var 1, .var 2])) (.mul (.v 9 [.var 0, .var 1]) (.v 10 [.var 2, .var 3]))) (.mul (.v 3 [.var 0, .var 3]) (.v 4 [.var 1, .var 2]))) (.mul (.v 8 [.var 0, .var 1]) (.v 11 [.var 2, .var 3])))) (.mem .c 0))) <|
  -- 169: amplitude+=-preh*(s13s.v(ds1,ds3)-a13a.v(ds1,ds3))*(s24s.v(ds2,ds4)-a24a.v(ds2,ds4))/pDenTh
  .seq (.set .c 0 (.add (.loc .c 0) (.div (.mul (.smul (.neg (.mem .r 10)) (.sub (.v 1 [.var 0, .var 2]) (.v 0 [.var 0, .var 2]))) (.sub (.v 7 [.var 1, .var 3]) (.v 6 [.var 1, .var 3]))) (.mem .c 1)))) <|
  -- 186: amplitude+=+preZ0*(a13a.v(ds1,ds3)+s13s.v(ds1,ds3))*(a24a.v(ds2,ds4)+s24s.v(ds2,ds4))/pDenTZ-two*preZ*(gL*gL*s34s.v(ds3,ds4)*a12a.v(ds1,ds2)+gL*gR*(s14s.v(ds1,ds4)*a23a.v(ds2,ds3)+s23s.v(ds2,ds3)*a14a.v(ds1,ds4))+gR*gR*s12s.v(ds1,ds2)*a34a.v(ds3,ds4))/pDenTZ
  .seq (.set .c 0 (.add (.loc .c 0) (.sub (.div (.mul (.smul (.mem .r 14) (.add (.v 0 [.var 0, .var 2]) (.v 1 [.var 0, .var 2]))) (.add (.v 6 [.var 1, .var 3]) (.v 7 [.var 1, .var 3]))) (.mem .c 2)) (.div (.smul (.mul (.lit 2) (.mem .r 13)) (.add (.add (.mul (.smul (.mul (.mem .r 11) (.mem .r 11)) (.v 10 [.var 2, .var 3])) (.v 9 [.var 0, .var 1])) (.smul (.mul (.mem .r 11) (.mem .r 12)) (.add (.mul (.v 3 [.var 0, .var 3]) (.v 4 [.var 1, .var 2])) (.mul (.v 5 [.var 1, .var 2]) (.v 2 [.var 0, .var 3]))))) (.mul (.smul (.mul (.mem .r 12) (.mem .r 12)) (.v 8 [.var 0, .var 1])) (.v 11 [.var 2, .var 3])))) (.mem .c 2))))) <|
  -- 194: return amplitude
  .ret .c (.loc .c 0)⟩

/-- `cdouble amp_rest_U(ds1,ds2,ds3,ds4)` (SM/dddd2.cpp:196-242); variables: i 0 `ds1`, i 1 `ds2`, i 2 `ds3`, i 3 `ds4`, c 0 `amplitude` -/
def m_amp_rest_U : Method := ⟨4, 
  -- 198: cdouble amplitude
  .seq (.set .c 0 (.ofR (.lit 0))) <|
  -- 207: amplitude+=two*e*e*1.0/9.0*(a13a.v(ds1,ds3)*s24s.v(ds2,ds4)-a12a.v(ds1,ds2)*s34s.v(ds3,ds4)+s13s.v(ds1,ds3)*a24a.v(ds2,ds4)-s12s.v(ds1,ds2)*a34a.v(ds3,ds4))/pDenUAG
  .seq (.set .c 0 (.add (.loc .c 0) (.div (.smul (.div (.mul (.mul (.mul (.lit 2) (.mem .r 0)) (.mem .r 0)) (.lit 1)) (.lit 9)) (.sub (.add (.sub (.mul (.v 0 [.var 0, .var 2]) (.v 7 [.var 1, .var 3])) (.mul (.v 9 [.var 0, .var 1]) (.v 10 [.var 2, .var 3]))) (.mul (.v 1 [.var 0, .var 2]) (.v 6 [.var 1, .var 3]))) (.mul (.v 8 [.var 0, .var 1]) (.v 11 [.var 2, .var 3])))) (.mem .c 3)))) <|
  -- 220: amplitude+=preh*(s14s.v(ds1,ds4)-a14a.v(ds1,ds4))*(s23s.v(ds2,ds3)-a23a.v(ds2,ds3))/pDenUh
  .seq (.set .c 0 (.add (.loc .c 0) (.div (.mul (.smul (.mem .r 10) (.sub (.v 3 [.var 0, .var 3]) (.v 2 [.var 0, .var 3]))) (.sub (.v 5 [.var 1, .var 2]) (.v 4 [.var 1, .var 2]))) (.mem .c 4)))) <|
  -- 233: amplitude+=-preZ0*(a14a.v(ds1,ds4)+s14s.v(ds1,ds4))*(a23a.v(ds2,ds3)+s23s.v(ds2,ds3))/pDenUZ-two*preZ*(gL*gL*s34s.v(ds3,ds4)*a12a.v(ds1,ds2)-gL*gR*(s13s.v(ds1,ds3)*a24a.v(ds2,ds4)+s24s.v(ds2,ds4)*a13a.v(ds1,ds3))+gR*gR*s12s.v(ds1,ds2)*a34a.v(ds3,ds4))/pDenUZ
  .seq (.set .c 0 (.add (.loc .c 0) (.sub (.div (.mul (.smul (.neg (.mem .r 14)) (.add (.v 2 [.var 0, .var 3]) (.v 3 [.var 0, .var 3]))) (.add (.v 4 [.var 1, .var 2]) (.v 5 [.var 1, .var 2]))) (.mem .c 5)) (.div (.smul (.mul (.lit 2) (.mem .r 13)) (.add (.sub (.mul (.smul (.mul (.mem .r 11) (.mem .r 11)) (.v 10 [.var 2, .var 3])) (.v 9 [.var 0, .var 1])) (.smul (.mul (.mem .r 11) (.mem .r 12)) (.add (.mul (.v 1 [.var 0, .var 2]) (.v 6 [.var 1, .var 3])) (.mul (.v 7 [.var 1, .var 3]) (.v 0 [.var 0, .var 2]))))) (.mul (.smul (.mul (.mem .r 12) (.mem .r 12)) (.v 8 [.var 0, .var 1])) (.v 11 [.var 2, .var 3])))) (.mem .c 5))))) <|
  -- 241: return amplitude
  .ret .c (.loc .c 0)⟩

/-- `ldouble amp2()` (SM/dddd2.cpp:245-275); variables: r 0 `amp2`, c 0 `M_rest_S`, c 1 `M_gluon_S`, c 2 `M_rest_T`, c 3 `M_gluon_T`, i 0 `j1`, i 1 `j2`, i 2 `j3`, i 3 `j4` -/
def m_amp2 : Method := ⟨0, 
  -- 246: ldouble amp2
  .seq (.set .r 0 (.lit 0)) <|
  -- 248: cdouble M_rest_S
  .seq (.set .c 0 (.ofR (.lit 0))) <|
  -- 248: cdouble M_gluon_S
  .seq (.set .c 1 (.ofR (.lit 0))) <|
  -- 248: cdouble M_rest_T
  .seq (.set .c 2 (.ofR (.lit 0))) <|
  -- 248: cdouble M_gluon_T
  .seq (.set .c 3 (.ofR (.lit 0))) <|
  -- 251: for(int j1=-1;j1<=1;j1+=2)
  .seq (.loop 0 (-1) true (.lit 1) 2 (
    -- 252: for(int j2=-1;j2<=1;j2+=2)
    .loop 1 (-1) true (.lit 1) 2 (
      -- 253: for(int j3=-1;j3<=1;j3+=2)
      .loop 2 (-1) true (.lit 1) 2 (
        -- 254: for(int j4=-1;j4<=1;j4+=2)
        .loop 3 (-1) true (.lit 1) 2 (
          -- 255: M_rest_S=amp_rest_T(j1,j2,j3,j4)
          .seq (.set .c 0 (.call 2 [.var 0, .var 1, .var 2, .var 3])) <|
          -- 256: M_rest_T=amp_rest_U(j1,j2,j3,j4)
          .seq (.set .c 2 (.call 3 [.var 0, .var 1, .var 2, .var 3])) <|
          -- 257: M_gluon_S=amp_gluon_T(j1,j2,j3,j4)
          .seq (.set .c 1 (.call 0 [.var 0, .var 1, .var 2, .var 3])) <|
          -- 258: M_gluon_T=amp_gluon_U(j1,j2,j3,j4)
          .seq (.set .c 3 (.call 1 [.var 0, .var 1, .var 2, .var 3])) <|
          -- 259: amp2+=nine*std::pow(std::abs(M_rest_S),2)
          .seq (.set .r 0 (.add (.loc .r 0) (.mul (.lit 9) (.pow (.abs (.loc .c 0)) 2)))) <|
          -- 260: amp2+=two*std::pow(std::abs(M_gluon_S),2)
          .seq (.set .r 0 (.add (.loc .r 0) (.mul (.lit 2) (.pow (.abs (.loc .c 1)) 2)))) <|
          -- 261: amp2+=nine*std::pow(std::abs(M_rest_T),2)
          .seq (.set .r 0 (.add (.loc .r 0) (.mul (.lit 9) (.pow (.abs (.loc .c 2)) 2)))) <|
          -- 262: amp2+=two*std::pow(std::abs(M_gluon_T),2)
          .seq (.set .r 0 (.add (.loc .r 0) (.mul (.lit 2) (.pow (.abs (.loc .c 3)) 2)))) <|
          -- 265: amp2+=three*two*std::real(M_rest_S*std::conj(M_rest_T))
          .seq (.set .r 0 (.add (.loc .r 0) (.mul (.mul (.lit 3) (.lit 2)) (.re (.mul (.loc .c 0) (.conj (.loc .c 2))))))) <|
          -- 266: amp2+=(-two/three)*two*std::real(M_gluon_S*std::conj(M_gluon_T))
          .seq (.set .r 0 (.add (.loc .r 0) (.mul (.mul (.div (.neg (.lit 2)) (.lit 3)) (.lit 2)) (.re (.mul (.loc .c 1) (.conj (.loc .c 3))))))) <|
          -- 267: amp2+=four*two*std::real(M_gluon_S*std::conj(M_rest_T))
          .seq (.set .r 0 (.add (.loc .r 0) (.mul (.mul (.lit 4) (.lit 2)) (.re (.mul (.loc .c 1) (.conj (.loc .c 2))))))) <|
          -- 268: amp2+=four*two*std::real(M_gluon_T*std::conj(M_rest_S))
          .set .r 0 (.add (.loc .r 0) (.mul (.mul (.lit 4) (.lit 2)) (.re (.mul (.loc .c 3) (.conj (.loc .c 0))))))))))) <|
  -- 274: return amp2/72.0
  .ret .r (.div (.loc .r 0) (.lit 72))⟩

end dddd2

/-- `class dddd2` (SM/dddd2.cpp, SM/include/dddd2.h:25-34).  Members:
* ldouble: 0 `e`, 1 `gs`, 2 `md`, 3 `mh`, 4 `wh`, 5 `MZ`, 6 `WZ`, 7 `MW`, 8 `SW`, 9 `CW`, 10 `preh`, 11 `gL`, 12 `gR`, 13 `preZ`, 14 `preZ0`
* cdouble: 0 `pDenTAG`, 1 `pDenTh`, 2 `pDenTZ`, 3 `pDenUAG`, 4 `pDenUh`, 5 `pDenUZ`
* propagator: 0 `propAG`, 1 `proph`, 2 `propZ`
* sproduct: 0 `a13a`, 1 `s13s`, 2 `a14a`, 3 `s14s`, 4 `a23a`, 5 `s23s`, 6 `a24a`, 7 `s24s`, 8 `s12s`, 9 `a12a`, 10 `s34s`, 11 `a34a` -/
def dddd2 : Proc where
  name := "dddd2"
  nPar := 8
  ctor := dddd2.ctor
  setMasses := dddd2.setMasses
  massPar := [2, 3, 5]
  setMomenta := dddd2.setMomenta
  methods := [dddd2.m_amp2, dddd2.m_amp_rest_U, dddd2.m_amp_rest_T, dddd2.m_amp_gluon_U, dddd2.m_amp_gluon_T]
  amp2 := 4
  others := []

namespace ddee

/-- constructor (SM/ddee.cpp:32-60); parameters: 0 `echarge`, 1 `massd`, 2 `masse`, 3 `massh`, 4 `widthh`, 5 `massW`, 6 `sinW`, 7 `widthZ` -/
def ctor : List SInstr := [
  -- 32: e(echarge)
  .set .r 0 (.loc .r 0),
  -- 32: md(massd)
  .set .r 1 (.loc .r 1),
  -- 32: me(masse)
  .set .r 2 (.loc .r 2),
  -- 32: mh(massh)
  .set .r 3 (.loc .r 3),
  -- 32: wh(widthh)
  .set .r 4 (.loc .r 4),
  -- 32: WZ(widthZ)
  .set .r 6 (.loc .r 7),
  -- 32: MW(massW)
  .set .r 7 (.loc .r 5),
  -- 32: SW(sinW)
  .set .r 8 (.loc .r 6),
  -- 32: CW(std::sqrt(1.0-sinW*sinW))
  .set .r 9 (.sqrt (.sub (.lit 1) (.mul (.loc .r 6) (.loc .r 6)))),
  -- 32: p1(particle(md))
  .part 0 (.mem .r 1),
  -- 32: p2(particle(md))
  .part 1 (.mem .r 1),
  -- 32: p3(particle(me))
  .part 2 (.mem .r 2),
  -- 32: p4(particle(me))
  .part 3 (.mem .r 2),
  -- 32: propA(0,0)
  .prop 0 (.lit 0) (.lit 0),
  -- 32: proph(mh,wh)
  .prop 1 (.mem .r 3) (.mem .r 4),
  -- 32: a13a(sproduct(ANGLE,&p1,&p3))
  .sprod 0 ⟨true, 0, true, [], 2, true⟩,
  -- 32: s13s(sproduct(SQUARE,&p1,&p3))
  .sprod 1 ⟨false, 0, true, [], 2, true⟩,
  -- 32: a14a(sproduct(ANGLE,&p1,&p4))
  .sprod 2 ⟨true, 0, true, [], 3, true⟩,
  -- 32: s14s(sproduct(SQUARE,&p1,&p4))
  .sprod 3 ⟨false, 0, true, [], 3, true⟩,
  -- 32: a23a(sproduct(ANGLE,&p2,&p3))
  .sprod 4 ⟨true, 1, true, [], 2, true⟩,
  -- 32: s23s(sproduct(SQUARE,&p2,&p3))
  .sprod 5 ⟨false, 1, true, [], 2, true⟩,
  -- 32: a24a(sproduct(ANGLE,&p2,&p4))
  .sprod 6 ⟨true, 1, true, [], 3, true⟩,
  -- 32: s24s(sproduct(SQUARE,&p2,&p4))
  .sprod 7 ⟨false, 1, true, [], 3, true⟩,
  -- 32: s12s(sproduct(SQUARE,&p1,&p2))
  .sprod 8 ⟨false, 0, true, [], 1, true⟩,
  -- 32: a12a(sproduct(ANGLE,&p1,&p2))
  .sprod 9 ⟨true, 0, true, [], 1, true⟩,
  -- 32: s34s(sproduct(SQUARE,&p3,&p4))
  .sprod 10 ⟨false, 2, true, [], 3, true⟩,
  -- 32: a34a(sproduct(ANGLE,&p3,&p4))
  .sprod 11 ⟨true, 2, true, [], 3, true⟩,
  -- 51: MZ=MW/CW
  .set .r 5 (.div (.mem .r 7) (.mem .r 9)),
  -- 52: propZ.set_mass(MZ)
  .propMass 2 (.mem .r 5),
  -- 53: preh=e*e*md*me/(4.0*MW*MW*SW*SW)
  .set .r 10 (.div (.mul (.mul (.mul (.mem .r 0) (.mem .r 0)) (.mem .r 1)) (.mem .r 2)) (.mul (.mul (.mul (.mul (.lit 4) (.mem .r 7)) (.mem .r 7)) (.mem .r 8)) (.mem .r 8))),
  -- 54: gLd=-1.0+2.0/3.0*SW*SW
  .set .r 11 (.add (.neg (.lit 1)) (.mul (.mul (.div (.lit 2) (.lit 3)) (.mem .r 8)) (.mem .r 8))),
  -- 55: gRd=2.0/3.0*SW*SW
  .set .r 12 (.mul (.mul (.div (.lit 2) (.lit 3)) (.mem .r 8)) (.mem .r 8)),
  -- 56: gLe=-1.0+2.0*SW*SW
  .set .r 13 (.add (.neg (.lit 1)) (.mul (.mul (.lit 2) (.mem .r 8)) (.mem .r 8))),
  -- 57: gRe=2.0*SW*SW
  .set .r 14 (.mul (.mul (.lit 2) (.mem .r 8)) (.mem .r 8)),
  -- 58: preZ=e*e/(4.0*CW*CW*SW*SW)
  .set .r 15 (.div (.mul (.mem .r 0) (.mem .r 0)) (.mul (.mul (.mul (.mul (.lit 4) (.mem .r 9)) (.mem .r 9)) (.mem .r 8)) (.mem .r 8))),
  -- 59: preZ0=preZ*(gLd-gRd)*(gLe-gRe)*md*me/MZ/MZ
  .set .r 16 (.div (.div (.mul (.mul (.mul (.mul (.mem .r 15) (.sub (.mem .r 11) (.mem .r 12))) (.sub (.mem .r 13) (.mem .r 14))) (.mem .r 1)) (.mem .r 2)) (.mem .r 5)) (.mem .r 5))]

/-- `set_masses` (SM/ddee.cpp:61-75); parameters: 0 `massd`, 1 `masse`, 2 `massh`, 3 `massW` -/
def setMasses : List SInstr := [
  -- 62: md=massd
  .set .r 1 (.loc .r 0),
  -- 63: me=masse
  .set .r 2 (.loc .r 1),
  -- 64: mh=massh
  .set .r 3 (.loc .r 2),
  -- 65: proph.set_mass(mh)
  .propMass 1 (.mem .r 3),
  -- 66: MW=massW
  .set .r 7 (.loc .r 3),
  -- 67: MZ=MW/CW
  .set .r 5 (.div (.mem .r 7) (.mem .r 9)),
  -- 68: propZ.set_mass(MZ)
  .propMass 2 (.mem .r 5),
  -- 69: p1.set_mass(md)
  .setMass 0 (.mem .r 1),
  -- 70: p2.set_mass(md)
  .setMass 1 (.mem .r 1),
  -- 71: p3.set_mass(me)
  .setMass 2 (.mem .r 2),
  -- 72: p4.set_mass(me)
  .setMass 3 (.mem .r 2),
  -- 73: preh=e*e*md*me/(4*MW*MW*SW*SW)
  .set .r 10 (.div (.mul (.mul (.mul (.mem .r 0) (.mem .r 0)) (.mem .r 1)) (.mem .r 2)) (.mul (.mul (.mul (.mul (.lit 4) (.mem .r 7)) (.mem .r 7)) (.mem .r 8)) (.mem .r 8))),
  -- 74: preZ0=preZ*(gLd-gRd)*(gLe-gRe)*md*me/MZ/MZ
  .set .r 16 (.div (.div (.mul (.mul (.mul (.mul (.mem .r 15) (.sub (.mem .r 11) (.mem .r 12))) (.sub (.mem .r 13) (.mem .r 14))) (.mem .r 1)) (.mem .r 2)) (.mem .r 5)) (.mem .r 5))]

/-- `set_momenta` (SM/ddee.cpp:76-101); parameters: 0 `mom1`, 1 `mom2`, 2 `mom3`, 3 `mom4` -/
def setMomenta : List SInstr := [
  -- 78: p1.set_momentum(mom1)
  .setMom 0 0,
  -- 79: p2.set_momentum(mom2)
  .setMom 1 1,
  -- 80: p3.set_momentum(mom3)
  .setMom 2 2,
  -- 81: p4.set_momentum(mom4)
  .setMom 3 3,
  -- 82: a13a.update()
  .update 0,
  -- 83: s13s.update()
  .update 1,
  -- 84: a14a.update()
  .update 2,
  -- 85: s14s.update()
  .update 3,
  -- 86: a23a.update()
  .update 4,
  -- 87: s23s.update()
  .update 5,
  -- 88: a24a.update()
  .update 6,
  -- 89: s24s.update()
  .update 7,
  -- 90: s12s.update()
  .update 8,
  -- 91: a12a.update()
  .update 9,
  -- 92: s34s.update()
  .update 10,
  -- 93: a34a.update()
  .update 11,
  -- 98: pDenSA=propA.denominator(propP)
  .den .c 0 0 (.add 0 1),
  -- 99: pDenSh=proph.denominator(propP)
  .den .c 1 1 (.add 0 1),
  -- 100: pDenSZ=propZ.denominator(propP)
  .den .c 2 2 (.add 0 1)]

/-- `cdouble amp(ds1,ds2,ds3,ds4)` (SM/ddee.cpp:106-150); variables: i 0 `ds1`, i 1 `ds2`, i 2 `ds3`, i 3 `ds4`, c 0 `amplitude` -/
def m_amp : Method := ⟨4, 
  -- 108: cdouble amplitude
  .seq (.set .c 0 (.ofR (.lit 0))) <|
  -- 113: amplitude=two*e*e*1.0/3.0*(a13a.v(ds1,ds3)*s24s.v(ds2,ds4)+a14a.v(ds1,ds4)*s23s.v(ds2,ds3)+s13s.v(ds1,ds3)*a24a.v(ds2,ds4)+s14s.v(ds1,ds4)*a23a.v(ds2,ds3))/pDenSA
  .seq (.set .c 0 (.div (.smul (.div (.mul (.mul (.mul (.lit 2) (.mem .r 0)) (.mem .r 0)) (.lit 1)) (.lit 3)) (.add (.add (.add (.mul (.v 0 [.var 0, .var 2]) (.v 7 [.var 1, .var 3])) (.mul (.v 2 [.var 0, .var 3]) (.v 5 [.var 1, .var 2]))) (.mul (.v 1 [.var 0, .var 2]) (.v 6 [.var 1, .var 3]))) (.mul (.v 3 [.var 0, .var 3]) (.v 4 [.var 1, .var 2])))) (.mem .c 0))) <|
  -- 121: amplitude+=preh*(s12s.v(ds1,ds2)+a12a.v(ds1,ds2))*(s34s.v(ds3,ds4)+a34a.v(ds3,ds4))/pDenSh
  .seq (.set .c 0 (.add (.loc .c 0) (.div (.mul (.smul (.mem .r 10) (.add (.v 8 [.var 0, .var 1]) (.v 9 [.var 0, .var 1]))) (.add (.v 10 [.var 2, .var 3]) (.v 11 [.var 2, .var 3]))) (.mem .c 1)))) <|
  -- 140: amplitude+=-preZ0*(a12a.v(ds1,ds2)-s12s.v(ds1,ds2))*(a34a.v(ds3,ds4)-s34s.v(ds3,ds4))/pDenSZ+two*preZ*(gLd*gLe*s23s.v(ds2,ds3)*a14a.v(ds1,ds4)+gLe*gRd*s13s.v(ds1,ds3)*a24a.v(ds2,ds4)+gLd*gRe*s24s.v(ds2,ds4)*a13a.v(ds1,ds3)+gRd*gRe*s14s.v(ds1,ds4)*a23a.v(ds2,ds3))/pDenSZ
  .seq (.set .c 0 (.add (.loc .c 0) (.add (.div (.mul (.smul (.neg (.mem .r 16)) (.sub (.v 9 [.var 0, .var 1]) (.v 8 [.var 0, .var 1]))) (.sub (.v 11 [.var 2, .var 3]) (.v 10 [.var 2, .var 3]))) (.mem .c 2)) (.div (.smul (.mul (.lit 2) (.mem .r 15)) (.add (.add (.add (.mul (.smul (.mul (.mem .r 11) (.mem .r 13)) (.v 5 [.var 1, .var 2])) (.v 2 [.var 0, .var 3])) (.mul (.smul (.mul (.mem .r 13) (.mem .r 12)) (.v 1 [.var 0, .var 2])) (.v 6 [.var 1, .var 3]))) (.mul (.smul (.mul (.mem .r 11) (.mem .r 14)) (.v 7 [.var 1, .var 3])) (.v 0 [.var 0, .var 2]))) (.mul (.smul (.mul (.mem .r 12) (.mem .r 14)) (.v 3 [.var 0, .var 3])) (.v 4 [.var 1, .var 2])))) (.mem .c 2))))) <|
  -- 149: return amplitude
  .ret .c (.loc .c 0)⟩

/-- `ldouble amp2()` (SM/ddee.cpp:153-169); variables: r 0 `amp2`, c 0 `M`, i 0 `j1`, i 1 `j2`, i 2 `j3`, i 3 `j4` -/
def m_amp2 : Method := ⟨0, 
  -- 154: ldouble amp2
  .seq (.set .r 0 (.lit 0)) <|
  -- 156: cdouble M
  .seq (.set .c 0 (.ofR (.lit 0))) <|
  -- 159: for(int j1=-1;j1<=1;j1+=2)
  .seq (.loop 0 (-1) true (.lit 1) 2 (
    -- 160: for(int j2=-1;j2<=1;j2+=2)
    .loop 1 (-1) true (.lit 1) 2 (
      -- 161: for(int j3=-1;j3<=1;j3+=2)
      .loop 2 (-1) true (.lit 1) 2 (
        -- 162: for(int j4=-1;j4<=1;j4+=2)
        .loop 3 (-1) true (.lit 1) 2 (
          -- 163: M=amp(j1,j2,j3,j4)
          .seq (.set .c 0 (.call 0 [.var 0, .var 1, .var 2, .var 3])) <|
          -- 164: amp2+=three*std::pow(std::abs(M),2)
          .set .r 0 (.add (.loc .r 0) (.mul (.lit 3) (.pow (.abs (.loc .c 0)) 2)))))))) <|
  -- 168: return amp2/36.0
  .ret .r (.div (.loc .r 0) (.lit 36))⟩

end ddee

/-- `class ddee` (SM/ddee.cpp, SM/include/ddee.h:25-33).  Members:
* ldouble: 0 `e`, 1 `md`, 2 `me`, 3 `mh`, 4 `wh`, 5 `MZ`, 6 `WZ`, 7 `MW`, 8 `SW`, 9 `CW`, 10 `preh`, 11 `gLd`, 12 `gRd`, 13 `gLe`, 14 `gRe`, 15 `preZ`, 16 `preZ0`
* cdouble: 0 `pDenSA`, 1 `pDenSh`, 2 `pDenSZ`
* propagator: 0 `propA`, 1 `proph`, 2 `propZ`
* sproduct: 0 `a13a`, 1 `s13s`, 2 `a14a`, 3 `s14s`, 4 `a23a`, 5 `s23s`, 6 `a24a`, 7 `s24s`, 8 `s12s`, 9 `a12a`, 10 `s34s`, 11 `a34a` -/
def ddee : Proc where
  name := "ddee"
  nPar := 8
  ctor := ddee.ctor
  setMasses := ddee.setMasses
  massPar := [1, 2, 3, 5]
  setMomenta := ddee.setMomenta
  methods := [ddee.m_amp2, ddee.m_amp]
  amp2 := 1
  others := []

namespace ddhh

/-- constructor (SM/ddhh.cpp:32-44); parameters: 0 `echarge`, 1 `massd`, 2 `massh`, 3 `widthh`, 4 `massW`, 5 `sinW` -/
def ctor : List SInstr := [
  -- 32: e(echarge)
  .set .r 0 (.loc .r 0),
  -- 32: md(massd)
  .set .r 1 (.loc .r 1),
  -- 32: mh(massh)
  .set .r 2 (.loc .r 2),
  -- 32: wh(widthh)
  .set .r 3 (.loc .r 3),
  -- 32: MW(massW)
  .set .r 4 (.loc .r 4),
  -- 32: SW(sinW)
  .set .r 5 (.loc .r 5),
  -- 32: p1(particle(md))
  .part 0 (.mem .r 1),
  -- 32: p2(particle(md))
  .part 1 (.mem .r 1),
  -- 32: p3(particle(mh))
  .part 2 (.mem .r 2),
  -- 32: p4(particle(mh))
  .part 3 (.mem .r 2),
  -- 32: proph(mh,wh)
  .prop 0 (.mem .r 2) (.mem .r 3),
  -- 32: propd(md,0)
  .prop 1 (.mem .r 1) (.lit 0),
  -- 32: s12s(sproduct(SQUARE,&p1,&p2))
  .sprod 0 ⟨false, 0, true, [], 1, true⟩,
  -- 32: a12a(sproduct(ANGLE,&p1,&p2))
  .sprod 1 ⟨true, 0, true, [], 1, true⟩,
  -- 32: s132a(sproduct(SQUARE,&p1,&p3,&p2))
  .sprod 2 ⟨false, 0, true, [2], 1, true⟩,
  -- 32: s231a(sproduct(SQUARE,&p2,&p3,&p1))
  .sprod 3 ⟨false, 1, true, [2], 0, true⟩,
  -- 42: prehS=3*e*e*md*mh*mh/(4*MW*MW*SW*SW)
  .set .r 6 (.div (.mul (.mul (.mul (.mul (.mul (.lit 3) (.mem .r 0)) (.mem .r 0)) (.mem .r 1)) (.mem .r 2)) (.mem .r 2)) (.mul (.mul (.mul (.mul (.lit 4) (.mem .r 4)) (.mem .r 4)) (.mem .r 5)) (.mem .r 5))),
  -- 43: prehTU=e*e*md*md/(4.0*MW*MW*SW*SW)
  .set .r 7 (.div (.mul (.mul (.mul (.mem .r 0) (.mem .r 0)) (.mem .r 1)) (.mem .r 1)) (.mul (.mul (.mul (.mul (.lit 4) (.mem .r 4)) (.mem .r 4)) (.mem .r 5)) (.mem .r 5)))]

/-- `set_masses` (SM/ddhh.cpp:45-58); parameters: 0 `massd`, 1 `massh`, 2 `massW` -/
def setMasses : List SInstr := [
  -- 47: md=massd
  .set .r 1 (.loc .r 0),
  -- 48: propd.set_mass(md)
  .propMass 1 (.mem .r 1),
  -- 49: mh=massh
  .set .r 2 (.loc .r 1),
  -- 50: proph.set_mass(mh)
  .propMass 0 (.mem .r 2),
  -- 51: MW=massW
  .set .r 4 (.loc .r 2),
  -- 52: p1.set_mass(md)
  .setMass 0 (.mem .r 1),
  -- 53: p2.set_mass(md)
  .setMass 1 (.mem .r 1),
  -- 54: p3.set_mass(mh)
  .setMass 2 (.mem .r 2),
  -- 55: p4.set_mass(mh)
  .setMass 3 (.mem .r 2),
  -- 56: prehS=3.0*e*e*md*mh*mh/(4.0*MW*MW*SW*SW)
  .set .r 6 (.div (.mul (.mul (.mul (.mul (.mul (.lit 3) (.mem .r 0)) (.mem .r 0)) (.mem .r 1)) (.mem .r 2)) (.mem .r 2)) (.mul (.mul (.mul (.mul (.lit 4) (.mem .r 4)) (.mem .r 4)) (.mem .r 5)) (.mem .r 5))),
  -- 57: prehTU=e*e*md*md/(4.0*MW*MW*SW*SW)
  .set .r 7 (.div (.mul (.mul (.mul (.mem .r 0) (.mem .r 0)) (.mem .r 1)) (.mem .r 1)) (.mul (.mul (.mul (.mul (.lit 4) (.mem .r 4)) (.mem .r 4)) (.mem .r 5)) (.mem .r 5)))]

/-- `set_momenta` (SM/ddhh.cpp:59-79); parameters: 0 `mom1`, 1 `mom2`, 2 `mom3`, 3 `mom4` -/
def setMomenta : List SInstr := [
  -- 61: p1.set_momentum(mom1)
  .setMom 0 0,
  -- 62: p2.set_momentum(mom2)
  .setMom 1 1,
  -- 63: p3.set_momentum(mom3)
  .setMom 2 2,
  -- 64: p4.set_momentum(mom4)
  .setMom 3 3,
  -- 65: s12s.update()
  .update 0,
  -- 66: a12a.update()
  .update 1,
  -- 67: s132a.update()
  .update 2,
  -- 68: s231a.update()
  .update 3,
  -- 76: pDenSh=proph.denominator(propPS)
  .den .c 0 0 (.add 0 1),
  -- 77: pDenTd=propd.denominator(propPT)
  .den .c 1 1 (.sub 0 2),
  -- 78: pDenUd=propd.denominator(propPU)
  .den .c 2 1 (.sub 0 3)]

/-- `cdouble amp(ds1,ds2)` (SM/ddhh.cpp:84-107); variables: i 0 `ds1`, i 1 `ds2`, c 0 `amplitude` -/
def m_amp : Method := ⟨2, 
  -- 86: cdouble amplitude
  .seq (.set .c 0 (.ofR (.lit 0))) <|
  -- 92: amplitude+=prehS*(s12s.v(ds1,ds2)+a12a.v(ds1,ds2))/pDenSh
  .seq (.set .c 0 (.add (.loc .c 0) (.div (.smul (.mem .r 6) (.add (.v 0 [.var 0, .var 1]) (.v 1 [.var 0, .var 1]))) (.mem .c 0)))) <|
  -- 98: amplitude+=prehTU*(two*md*(s12s.v(ds1,ds2)+a12a.v(ds1,ds2))-s132a.v(ds1,ds2)-s231a.v(ds2,ds1))/pDenTd
  .seq (.set .c 0 (.add (.loc .c 0) (.div (.smul (.mem .r 7) (.sub (.sub (.smul (.mul (.lit 2) (.mem .r 1)) (.add (.v 0 [.var 0, .var 1]) (.v 1 [.var 0, .var 1]))) (.v 2 [.var 0, .var 1])) (.v 3 [.var 1, .var 0]))) (.mem .c 1)))) <|
  -- 104: amplitude+=prehTU*(two*md*(s12s.v(ds1,ds2)+a12a.v(ds1,ds2))+s132a.v(ds1,ds2)+s231a.v(ds2,ds1))/pDenUd
  .seq (.set .c 0 (.add (.loc .c 0) (.div (.smul (.mem .r 7) (.add (.add (.smul (.mul (.lit 2) (.mem .r 1)) (.add (.v 0 [.var 0, .var 1]) (.v 1 [.var 0, .var 1]))) (.v 2 [.var 0, .var 1])) (.v 3 [.var 1, .var 0]))) (.mem .c 2)))) <|
  -- 106: return amplitude
  .ret .c (.loc .c 0)⟩

/-- `ldouble amp2()` (SM/ddhh.cpp:110-124); variables: r 0 `amp2`, c 0 `M`, i 0 `j1`, i 1 `j2` -/
def m_amp2 : Method := ⟨0, 
  -- 111: ldouble amp2
  .seq (.set .r 0 (.lit 0)) <|
  -- 112: cdouble M
  .seq (.set .c 0 (.ofR (.lit 0))) <|
  -- 115: for(int j1=-1;j1<=1;j1+=2)
  .seq (.loop 0 (-1) true (.lit 1) 2 (
    -- 116: for(int j2=-1;j2<=1;j2+=2)
    .loop 1 (-1) true (.lit 1) 2 (
      -- 117: M=amp(j1,j2)
      .seq (.set .c 0 (.call 0 [.var 0, .var 1])) <|
      -- 118: amp2+=3.0*std::pow(std::abs(M),2)
      .set .r 0 (.add (.loc .r 0) (.mul (.lit 3) (.pow (.abs (.loc .c 0)) 2)))))) <|
  -- 123: return amp2/72.0
  .ret .r (.div (.loc .r 0) (.lit 72))⟩

end ddhh

/-- `class ddhh` (SM/ddhh.cpp, SM/include/ddhh.h:25-32).  Members:
* ldouble: 0 `e`, 1 `md`, 2 `mh`, 3 `wh`, 4 `MW`, 5 `SW`, 6 `prehS`, 7 `prehTU`
* cdouble: 0 `pDenSh`, 1 `pDenTd`, 2 `pDenUd`
* propagator: 0 `proph`, 1 `propd`
* sproduct: 0 `s12s`, 1 `a12a`, 2 `s132a`, 3 `s231a` -/
def ddhh : Proc where
  name := "ddhh"
  nPar := 6
  ctor := ddhh.ctor
  setMasses := ddhh.setMasses
  massPar := [1, 2, 4]
  setMomenta := ddhh.setMomenta
  methods := [ddhh.m_amp2, ddhh.m_amp]
  amp2 := 1
  others := []

namespace ddnn

/-- constructor (SM/ddnn.cpp:32-49); parameters: 0 `echarge`, 1 `massd`, 2 `massW`, 3 `sinW`, 4 `widthZ` -/
def ctor : List SInstr := [
  -- 32: e(echarge)
  .set .r 0 (.loc .r 0),
  -- 32: md(massd)
  .set .r 1 (.loc .r 1),
  -- 32: WZ(widthZ)
  .set .r 3 (.loc .r 4),
  -- 32: MW(massW)
  .set .r 4 (.loc .r 2),
  -- 32: SW(sinW)
  .set .r 5 (.loc .r 3),
  -- 32: CW(std::sqrt(1.0-sinW*sinW))
  .set .r 6 (.sqrt (.sub (.lit 1) (.mul (.loc .r 3) (.loc .r 3)))),
  -- 32: p1(particle(md))
  .part 0 (.mem .r 1),
  -- 32: p2(particle(md))
  .part 1 (.mem .r 1),
  -- 32: p3(particle(0))
  .part 2 (.lit 0),
  -- 32: p4(particle(0))
  .part 3 (.lit 0),
  -- 32: s23s(sproduct(SQUARE,&p2,&p3))
  .sprod 0 ⟨false, 1, true, [], 2, true⟩,
  -- 32: a14a(sproduct(ANGLE,&p1,&p4))
  .sprod 1 ⟨true, 0, true, [], 3, true⟩,
  -- 32: s13s(sproduct(SQUARE,&p1,&p3))
  .sprod 2 ⟨false, 0, true, [], 2, true⟩,
  -- 32: a24a(sproduct(ANGLE,&p2,&p4))
  .sprod 3 ⟨true, 1, true, [], 3, true⟩,
  -- 42: MZ=MW/CW
  .set .r 2 (.div (.mem .r 4) (.mem .r 6)),
  -- 43: propZ.set_mass(MZ)
  .propMass 0 (.mem .r 2),
  -- 44: gLd=-1.0+2.0/3.0*SW*SW
  .set .r 8 (.add (.neg (.lit 1)) (.mul (.mul (.div (.lit 2) (.lit 3)) (.mem .r 5)) (.mem .r 5))),
  -- 45: gRd=2.0/3.0*SW*SW
  .set .r 9 (.mul (.mul (.div (.lit 2) (.lit 3)) (.mem .r 5)) (.mem .r 5)),
  -- 46: gLn=1.0
  .set .r 10 (.lit 1),
  -- 47: gRn=0
  .set .r 11 (.lit 0),
  -- 48: preZ=e*e/(4.0*CW*CW*SW*SW)
  .set .r 12 (.div (.mul (.mem .r 0) (.mem .r 0)) (.mul (.mul (.mul (.mul (.lit 4) (.mem .r 6)) (.mem .r 6)) (.mem .r 5)) (.mem .r 5)))]

/-- `set_masses` (SM/ddnn.cpp:50-57); parameters: 0 `massd`, 1 `massW` -/
def setMasses : List SInstr := [
  -- 51: md=massd
  .set .r 1 (.loc .r 0),
  -- 52: MW=massW
  .set .r 4 (.loc .r 1),
  -- 53: MZ=MW/CW
  .set .r 2 (.div (.mem .r 4) (.mem .r 6)),
  -- 54: propZ.set_mass(MZ)
  .propMass 0 (.mem .r 2),
  -- 55: p1.set_mass(md)
  .setMass 0 (.mem .r 1),
  -- 56: p2.set_mass(md)
  .setMass 1 (.mem .r 1)]

/-- `set_momenta` (SM/ddnn.cpp:58-73); parameters: 0 `mom1`, 1 `mom2`, 2 `mom3`, 3 `mom4` -/
def setMomenta : List SInstr := [
  -- 60: p1.set_momentum(mom1)
  .setMom 0 0,
  -- 61: p2.set_momentum(mom2)
  .setMom 1 1,
  -- 62: p3.set_momentum(mom3)
  .setMom 2 2,
  -- 63: p4.set_momentum(mom4)
  .setMom 3 3,
  -- 64: s23s.update()
  .update 0,
  -- 65: a14a.update()
  .update 1,
  -- 66: s13s.update()
  .update 2,
  -- 67: a24a.update()
  .update 3,
  -- 72: pDenSZ=propZ.denominator(propP)
  .den .c 0 0 (.add 0 1)]

/-- `cdouble amp(ds1,ds2)` (SM/ddnn.cpp:78-100); variables: i 0 `ds1`, i 1 `ds2`, c 0 `amplitude` -/
def m_amp : Method := ⟨2, 
  -- 80: cdouble amplitude
  .seq (.set .c 0 (.ofR (.lit 0))) <|
  -- 93: amplitude+=+two*preZ*(gLd*gLn*s23s.v(ds2)*a14a.v(ds1)+gLn*gRd*s13s.v(ds1)*a24a.v(ds2))/pDenSZ
  .seq (.set .c 0 (.add (.loc .c 0) (.div (.smul (.mul (.lit 2) (.mem .r 12)) (.add (.mul (.smul (.mul (.mem .r 8) (.mem .r 10)) (.v 0 [.var 1])) (.v 1 [.var 0])) (.mul (.smul (.mul (.mem .r 10) (.mem .r 9)) (.v 2 [.var 0])) (.v 3 [.var 1])))) (.mem .c 0)))) <|
  -- 99: return amplitude
  .ret .c (.loc .c 0)⟩

/-- `ldouble amp2()` (SM/ddnn.cpp:103-117); variables: r 0 `amp2`, c 0 `M`, i 0 `j1`, i 1 `j2` -/
def m_amp2 : Method := ⟨0, 
  -- 104: ldouble amp2
  .seq (.set .r 0 (.lit 0)) <|
  -- 106: cdouble M
  .seq (.set .c 0 (.ofR (.lit 0))) <|
  -- 109: for(int j1=-1;j1<=1;j1+=2)
  .seq (.loop 0 (-1) true (.lit 1) 2 (
    -- 110: for(int j2=-1;j2<=1;j2+=2)
    .loop 1 (-1) true (.lit 1) 2 (
      -- 111: M=amp(j1,j2)
      .seq (.set .c 0 (.call 0 [.var 0, .var 1])) <|
      -- 112: amp2+=three*std::pow(std::abs(M),2)
      .set .r 0 (.add (.loc .r 0) (.mul (.lit 3) (.pow (.abs (.loc .c 0)) 2)))))) <|
  -- 116: return amp2/36.0
  .ret .r (.div (.loc .r 0) (.lit 36))⟩

end ddnn

/-- `class ddnn` (SM/ddnn.cpp, SM/include/ddnn.h:25-32).  Members:
* ldouble: 0 `e`, 1 `md`, 2 `MZ`, 3 `WZ`, 4 `MW`, 5 `SW`, 6 `CW`, 7 `preh`, 8 `gLd`, 9 `gRd`, 10 `gLn`, 11 `gRn`, 12 `preZ`, 13 `preZ0`
* cdouble: 0 `pDenSZ`
* propagator: 0 `propZ`
* sproduct: 0 `s23s`, 1 `a14a`, 2 `s13s`, 3 `a24a` -/
def ddnn : Proc where
  name := "ddnn"
  nPar := 5
  ctor := ddnn.ctor
  setMasses := ddnn.setMasses
  massPar := [1, 2]
  setMomenta := ddnn.setMomenta
  methods := [ddnn.m_amp2, ddnn.m_amp]
  amp2 := 1
  others := []

namespace ddss

/-- constructor (SM/ddss.cpp:32-58); parameters: 0 `echarge`, 1 `gscharge`, 2 `massd`, 3 `masss`, 4 `massh`, 5 `widthh`, 6 `massW`, 7 `sinW`, 8 `widthZ` -/
def ctor : List SInstr := [
  -- 32: e(echarge)
  .set .r 0 (.loc .r 0),
  -- 32: gs(gscharge)
  .set .r 1 (.loc .r 1),
  -- 32: md(massd)
  .set .r 2 (.loc .r 2),
  -- 32: ms(masss)
  .set .r 3 (.loc .r 3),
  -- 32: mh(massh)
  .set .r 4 (.loc .r 4),
  -- 32: wh(widthh)
  .set .r 5 (.loc .r 5),
  -- 32: WZ(widthZ)
  .set .r 7 (.loc .r 8),
  -- 32: MW(massW)
  .set .r 8 (.loc .r 6),
  -- 32: SW(sinW)
  .set .r 9 (.loc .r 7),
  -- 32: CW(std::sqrt(1.0-sinW*sinW))
  .set .r 10 (.sqrt (.sub (.lit 1) (.mul (.loc .r 7) (.loc .r 7)))),
  -- 32: p1(particle(md))
  .part 0 (.mem .r 2),
  -- 32: p2(particle(md))
  .part 1 (.mem .r 2),
  -- 32: p3(particle(ms))
  .part 2 (.mem .r 3),
  -- 32: p4(particle(ms))
  .part 3 (.mem .r 3),
  -- 32: propAG(0,0)
  .prop 0 (.lit 0) (.lit 0),
  -- 32: proph(mh,wh)
  .prop 1 (.mem .r 4) (.mem .r 5),
  -- 32: a13a(sproduct(ANGLE,&p1,&p3))
  .sprod 0 ⟨true, 0, true, [], 2, true⟩,
  -- 32: s13s(sproduct(SQUARE,&p1,&p3))
  .sprod 1 ⟨false, 0, true, [], 2, true⟩,
  -- 32: a14a(sproduct(ANGLE,&p1,&p4))
  .sprod 2 ⟨true, 0, true, [], 3, true⟩,
  -- 32: s14s(sproduct(SQUARE,&p1,&p4))
  .sprod 3 ⟨false, 0, true, [], 3, true⟩,
  -- 32: a23a(sproduct(ANGLE,&p2,&p3))
  .sprod 4 ⟨true, 1, true, [], 2, true⟩,
  -- 32: s23s(sproduct(SQUARE,&p2,&p3))
  .sprod 5 ⟨false, 1, true, [], 2, true⟩,
  -- 32: a24a(sproduct(ANGLE,&p2,&p4))
  .sprod 6 ⟨true, 1, true, [], 3, true⟩,
  -- 32: s24s(sproduct(SQUARE,&p2,&p4))
  .sprod 7 ⟨false, 1, true, [], 3, true⟩,
  -- 32: s12s(sproduct(SQUARE,&p1,&p2))
  .sprod 8 ⟨false, 0, true, [], 1, true⟩,
  -- 32: a12a(sproduct(ANGLE,&p1,&p2))
  .sprod 9 ⟨true, 0, true, [], 1, true⟩,
  -- 32: s34s(sproduct(SQUARE,&p3,&p4))
  .sprod 10 ⟨false, 2, true, [], 3, true⟩,
  -- 32: a34a(sproduct(ANGLE,&p3,&p4))
  .sprod 11 ⟨true, 2, true, [], 3, true⟩,
  -- 51: MZ=MW/CW
  .set .r 6 (.div (.mem .r 8) (.mem .r 10)),
  -- 52: propZ.set_mass(MZ)
  .propMass 2 (.mem .r 6),
  -- 53: preh=e*e*md*ms/(4.0*MW*MW*SW*SW)
  .set .r 11 (.div (.mul (.mul (.mul (.mem .r 0) (.mem .r 0)) (.mem .r 2)) (.mem .r 3)) (.mul (.mul (.mul (.mul (.lit 4) (.mem .r 8)) (.mem .r 8)) (.mem .r 9)) (.mem .r 9))),
  -- 54: gL=-1.0+2.0/3.0*SW*SW
  .set .r 12 (.add (.neg (.lit 1)) (.mul (.mul (.div (.lit 2) (.lit 3)) (.mem .r 9)) (.mem .r 9))),
  -- 55: gR=2.0/3.0*SW*SW
  .set .r 13 (.mul (.mul (.div (.lit 2) (.lit 3)) (.mem .r 9)) (.mem .r 9)),
  -- 56: preZ=e*e/(4.0*CW*CW*SW*SW)
  .set .r 14 (.div (.mul (.mem .r 0) (.mem .r 0)) (.mul (.mul (.mul (.mul (.lit 4) (.mem .r 10)) (.mem .r 10)) (.mem .r 9)) (.mem .r 9))),
  -- 57: preZ0=preZ*(gL-gR)*(gL-gR)*md*ms/MZ/MZ
  .set .r 15 (.div (.div (.mul (.mul (.mul (.mul (.mem .r 14) (.sub (.mem .r 12) (.mem .r 13))) (.sub (.mem .r 12) (.mem .r 13))) (.mem .r 2)) (.mem .r 3)) (.mem .r 6)) (.mem .r 6))]

/-- `set_masses` (SM/ddss.cpp:59-73); parameters: 0 `massd`, 1 `masss`, 2 `massh`, 3 `massW` -/
def setMasses : List SInstr := [
  -- 60: md=massd
  .set .r 2 (.loc .r 0),
  -- 61: ms=masss
  .set .r 3 (.loc .r 1),
  -- 62: mh=massh
  .set .r 4 (.loc .r 2),
  -- 63: proph.set_mass(mh)
  .propMass 1 (.mem .r 4),
  -- 64: MW=massW
  .set .r 8 (.loc .r 3),
  -- 65: MZ=MW/CW
  .set .r 6 (.div (.mem .r 8) (.mem .r 10)),
  -- 66: propZ.set_mass(MZ)
  .propMass 2 (.mem .r 6),
  -- 67: p1.set_mass(md)
  .setMass 0 (.mem .r 2),
  -- 68: p2.set_mass(md)
  .setMass 1 (.mem .r 2),
  -- 69: p3.set_mass(ms)
  .setMass 2 (.mem .r 3),
  -- 70: p4.set_mass(ms)
  .setMass 3 (.mem .r 3),
  -- 71: preh=e*e*md*ms/(4*MW*MW*SW*SW)
  .set .r 11 (.div (.mul (.mul (.mul (.mem .r 0) (.mem .r 0)) (.mem .r 2)) (.mem .r 3)) (.mul (.mul (.mul (.mul (.lit 4) (.mem .r 8)) (.mem .r 8)) (.mem .r 9)) (.mem .r 9))),
  -- 72: preZ0=preZ*(gL-gR)*(gL-gR)*md*ms/MZ/MZ
  .set .r 15 (.div (.div (.mul (.mul (.mul (.mul (.mem .r 14) (.sub (.mem .r 12) (.mem .r 13))) (.sub (.mem .r 12) (.mem .r 13))) (.mem .r 2)) (.mem .r 3)) (.mem .r 6)) (.mem .r 6))]

/-- `set_momenta` (SM/ddss.cpp:74-99); parameters: 0 `mom1`, 1 `mom2`, 2 `mom3`, 3 `mom4` -/
def setMomenta : List SInstr := [
  -- 76: p1.set_momentum(mom1)
  .setMom 0 0,
  -- 77: p2.set_momentum(mom2)
  .setMom 1 1,
  -- 78: p3.set_momentum(mom3)
  .setMom 2 2,
  -- 79: p4.set_momentum(mom4)
  .setMom 3 3,
  -- 80: a13a.update()
  .update 0,
  -- 81: s13s.update()
  .update 1,
  -- 82: a14a.update()
  .update 2,
  -- 83: s14s.update()
  .update 3,
  -- 84: a23a.update()
  .update 4,
  -- 85: s23s.update()
  .update 5,
  -- 86: a24a.update()
  .update 6,
  -- 87: s24s.update()
  .update 7,
  -- 88: s12s.update()
  .update 8,
  -- 89: a12a.update()
  .update 9,
  -- 90: s34s.update()
  .update 10,
  -- 91: a34a.update()
  .update 11,
  -- 96: pDenSAG=propAG.denominator(propP)
  .den .c 0 0 (.add 0 1),
  -- 97: pDenSh=proph.denominator(propP)
  .den .c 1 1 (.add 0 1),
  -- 98: pDenSZ=propZ.denominator(propP)
  .den .c 2 2 (.add 0 1)]

/-- `cdouble amp_gluon(ds1,ds2,ds3,ds4)` (SM/ddss.cpp:107-120); variables: i 0 `ds1`, i 1 `ds2`, i 2 `ds3`, i 3 `ds4`, c 0 `amplitude` -/
def m_amp_gluon : Method := ⟨4, 
  -- 109: cdouble amplitude
  .seq (.set .c 0 (.ofR (.lit 0))) <|
  -- 114: amplitude=two*gs*gs*(a13a.v(ds1,ds3)*s24s.v(ds2,ds4)+a14a.v(ds1,ds4)*s23s.v(ds2,ds3)+s13s.v(ds1,ds3)*a24a.v(ds2,ds4)+s14s.v(ds1,ds4)*a23a.v(ds2,ds3))/pDenSAG
  .seq (.set .c 0 (.div (.smul (.mul (.mul (.lit 2) (.mem .r 1)) (.mem .r 1)) (.add (.add (.add (.mul (.v 0 [.var 0, .var 2]) (.v 7 [.var 1, .var 3])) (.mul (.v 2 [.var 0, .var 3]) (.v 5 [.var 1, .var 2]))) (.mul (.v 1 [.var 0, .var 2]) (.v 6 [.var 1, .var 3]))) (.mul (.v 3 [.var 0, .var 3]) (.v 4 [.var 1, .var 2])))) (.mem .c 0))) <|
  -- 119: return amplitude
  .ret .c (.loc .c 0)⟩

/-- `cdouble amp_rest(ds1,ds2,ds3,ds4)` (SM/ddss.cpp:121-161); variables: i 0 `ds1`, i 1 `ds2`, i 2 `ds3`, i 3 `ds4`, c 0 `amplitude` -/
def m_amp_rest : Method := ⟨4, 
  -- 123: cdouble amplitude
  .seq (.set .c 0 (.ofR (.lit 0))) <|
  -- 128: amplitude=two*e*e*1.0/9.0*(a13a.v(ds1,ds3)*s24s.v(ds2,ds4)+a14a.v(ds1,ds4)*s23s.v(ds2,ds3)+s13s.v(ds1,ds3)*a24a.v(ds2,ds4)+s14s.v(ds1,ds4)*a23a.v(ds2,ds3))/pDenSAG
  .seq (.set .c 0 (.div (.smul (.div (.mul (.mul (.mul (.lit 2) (.mem .r 0)) (.mem .r 0)) (.lit 1)) (.lit 9)) (.add (.add (.add (.mul (.v 0 [.var 0, .var 2]) (.v 7 [.var 1, .var 3])) (.mul (.v 2 [.var 0, .var 3]) (.v 5 [.var 1, .var 2]))) (.mul (.v 1 [.var 0, .var 2]) (.v 6 [.var 1, .var 3]))) (.mul (.v 3 [.var 0, .var 3]) (.v 4 [.var 1, .var 2])))) (.mem .c 0))) <|
  -- 136: amplitude+=preh*(s12s.v(ds1,ds2)+a12a.v(ds1,ds2))*(s34s.v(ds3,ds4)+a34a.v(ds3,ds4))/pDenSh
  .seq (.set .c 0 (.add (.loc .c 0) (.div (.mul (.smul (.mem .r 11) (.add (.v 8 [.var 0, .var 1]) (.v 9 [.var 0, .var 1]))) (.add (.v 10 [.var 2, .var 3]) (.v 11 [.var 2, .var 3]))) (.mem .c 1)))) <|
  -- 152: amplitude+=-preZ0*(a12a.v(ds1,ds2)-s12s.v(ds1,ds2))*(a34a.v(ds3,ds4)-s34s.v(ds3,ds4))/pDenSZ+two*preZ*(gL*gL*s23s.v(ds2,ds3)*a14a.v(ds1,ds4)+gL*gR*(s13s.v(ds1,ds3)*a24a.v(ds2,ds4)+s24s.v(ds2,ds4)*a13a.v(ds1,ds3))+gR*gR*s14s.v(ds1,ds4)*a23a.v(ds2,ds3))/pDenSZ
  .seq (.set .c 0 (.add (.loc .c 0) (.add (.div (.mul (.smul (.neg (.mem .r 15)) (.sub (.v 9 [.var 0, .var 1]) (.v 8 [.var 0, .var 1]))) (.sub (.v 11 [.var 2, .var 3]) (.v 10 [.var 2, .var 3]))) (.mem .c 2)) (.div (.smul (.mul (.lit 2) (.mem .r 14)) (.add (.add (.mul (.smul (.mul (.mem .r 12) (.mem .r 12)) (.v 5 [.var 1, .var 2])) (.v 2 [.var 0, .var 3])) (.smul (.mul (.mem .r 12) (.mem .r 13)) (.add (.mul (.v 1 [.var 0, .var 2]) (.v 6 [.var 1, .var 3])) (.mul (.v 7 [.var 1, .var 3]) (.v 0 [.var 0, .var 2]))))) (.mul (.smul (.mul (.mem .r 13) (.mem .r 13)) (.v 3 [.var 0, .var 3])) (.v 4 [.var 1, .var 2])))) (.mem .c 2))))) <|
  -- 160: return amplitude
  .ret .c (.loc .c 0)⟩

/-- `ldouble amp2()` (SM/ddss.cpp:164-182); variables: r 0 `amp2`, r 1 `two`, r 2 `three`, r 3 `nine`, c 0 `M_rest`, c 1 `M_gluon`, i 0 `j1`, i 1 `j2`, i 2 `j3`, i 3 `j4` -/
def m_amp2 : Method := ⟨0, 
  -- 165: ldouble amp2
  .seq (.set .r 0 (.lit 0)) <|
  -- 165: ldouble two
  .seq (.set .r 1 (.lit 2)) <|
  -- 165: ldouble three
  .seq (.set .r 2 (.lit 3)) <|
  -- 165: ldouble nine
  .seq (.set .r 3 (.lit 9)) <|
  -- 166: cdouble M_rest
  .seq (.set .c 0 (.ofR (.lit 0))) <|
  -- 166: cdouble M_gluon
  .seq (.set .c 1 (.ofR (.lit 0))) <|
  -- 169: for(int j1=-1;j1<=1;j1+=2)
  .seq (.loop 0 (-1) true (.lit 1) 2 (
    -- 170: for(int j2=-1;j2<=1;j2+=2)
    .loop 1 (-1) true (.lit 1) 2 (
      -- 171: for(int j3=-1;j3<=1;j3+=2)
      .loop 2 (-1) true (.lit 1) 2 (
        -- 172: for(int j4=-1;j4<=1;j4+=2)
        .loop 3 (-1) true (.lit 1) 2 (
          -- 173: M_rest=amp_rest(j1,j2,j3,j4)
          .seq (.set .c 0 (.call 1 [.var 0, .var 1, .var 2, .var 3])) <|
          -- 174: M_gluon=amp_gluon(j1,j2,j3,j4)
          .seq (.set .c 1 (.call 0 [.var 0, .var 1, .var 2, .var 3])) <|
          -- 175: amp2+=nine*std::pow(std::abs(M_rest),2)
          .seq (.set .r 0 (.add (.loc .r 0) (.mul (.loc .r 3) (.pow (.abs (.loc .c 0)) 2)))) <|
          -- 177: amp2+=two*std::pow(std::abs(M_gluon),2)
          .set .r 0 (.add (.loc .r 0) (.mul (.loc .r 1) (.pow (.abs (.loc .c 1)) 2)))))))) <|
  -- 181: return amp2/36.0
  .ret .r (.div (.loc .r 0) (.lit 36))⟩

end ddss

/-- `class ddss` (SM/ddss.cpp, SM/include/ddss.h:25-33).  Members:
* ldouble: 0 `e`, 1 `gs`, 2 `md`, 3 `ms`, 4 `mh`, 5 `wh`, 6 `MZ`, 7 `WZ`, 8 `MW`, 9 `SW`, 10 `CW`, 11 `preh`, 12 `gL`, 13 `gR`, 14 `preZ`, 15 `preZ0`
* cdouble: 0 `pDenSAG`, 1 `pDenSh`, 2 `pDenSZ`
* propagator: 0 `propAG`, 1 `proph`, 2 `propZ`
* sproduct: 0 `a13a`, 1 `s13s`, 2 `a14a`, 3 `s14s`, 4 `a23a`, 5 `s23s`, 6 `a24a`, 7 `s24s`, 8 `s12s`, 9 `a12a`, 10 `s34s`, 11 `a34a` -/
def ddss : Proc where
  name := "ddss"
  nPar := 9
  ctor := ddss.ctor
  setMasses := ddss.setMasses
  massPar := [2, 3, 4, 6]
  setMomenta := ddss.setMomenta
  methods := [ddss.m_amp2, ddss.m_amp_rest, ddss.m_amp_gluon]
  amp2 := 2
  others := []

namespace deed

/-- constructor (SM/deed.cpp:32-60); parameters: 0 `echarge`, 1 `massd`, 2 `masse`, 3 `massh`, 4 `widthh`, 5 `massW`, 6 `sinW`, 7 `widthZ` -/
def ctor : List SInstr := [
  -- 32: e(echarge)
  .set .r 0 (.loc .r 0),
  -- 32: md(massd)
  .set .r 1 (.loc .r 1),
  -- 32: me(masse)
  .set .r 2 (.loc .r 2),
  -- 32: mh(massh)
  .set .r 3 (.loc .r 3),
  -- 32: wh(widthh)
  .set .r 4 (.loc .r 4),
  -- 32: WZ(widthZ)
  .set .r 6 (.loc .r 7),
  -- 32: MW(massW)
  .set .r 7 (.loc .r 5),
  -- 32: SW(sinW)
  .set .r 8 (.loc .r 6),
  -- 32: CW(std::sqrt(1.0-sinW*sinW))
  .set .r 9 (.sqrt (.sub (.lit 1) (.mul (.loc .r 6) (.loc .r 6)))),
  -- 32: p1(particle(md))
  .part 0 (.mem .r 1),
  -- 32: p2(particle(me))
  .part 1 (.mem .r 2),
  -- 32: p3(particle(me))
  .part 2 (.mem .r 2),
  -- 32: p4(particle(md))
  .part 3 (.mem .r 1),
  -- 32: propA(0,0)
  .prop 0 (.lit 0) (.lit 0),
  -- 32: proph(mh,wh)
  .prop 1 (.mem .r 3) (.mem .r 4),
  -- 32: a13a(sproduct(ANGLE,&p1,&p3))
  .sprod 0 ⟨true, 0, true, [], 2, true⟩,
  -- 32: s13s(sproduct(SQUARE,&p1,&p3))
  .sprod 1 ⟨false, 0, true, [], 2, true⟩,
  -- 32: a14a(sproduct(ANGLE,&p1,&p4))
  .sprod 2 ⟨true, 0, true, [], 3, true⟩,
  -- 32: s14s(sproduct(SQUARE,&p1,&p4))
  .sprod 3 ⟨false, 0, true, [], 3, true⟩,
  -- 32: a23a(sproduct(ANGLE,&p2,&p3))
  .sprod 4 ⟨true, 1, true, [], 2, true⟩,
  -- 32: s23s(sproduct(SQUARE,&p2,&p3))
  .sprod 5 ⟨false, 1, true, [], 2, true⟩,
  -- 32: a24a(sproduct(ANGLE,&p2,&p4))
  .sprod 6 ⟨true, 1, true, [], 3, true⟩,
  -- 32: s24s(sproduct(SQUARE,&p2,&p4))
  .sprod 7 ⟨false, 1, true, [], 3, true⟩,
  -- 32: s12s(sproduct(SQUARE,&p1,&p2))
  .sprod 8 ⟨false, 0, true, [], 1, true⟩,
  -- 32: a12a(sproduct(ANGLE,&p1,&p2))
  .sprod 9 ⟨true, 0, true, [], 1, true⟩,
  -- 32: s34s(sproduct(SQUARE,&p3,&p4))
  .sprod 10 ⟨false, 2, true, [], 3, true⟩,
  -- 32: a34a(sproduct(ANGLE,&p3,&p4))
  .sprod 11 ⟨true, 2, true, [], 3, true⟩,
  -- 51: MZ=MW/CW
  .set .r 5 (.div (.mem .r 7) (.mem .r 9)),
  -- 52: propZ.set_mass(MZ)
  .propMass 2 (.mem .r 5),
  -- 53: preh=e*e*md*me/(4.0*MW*MW*SW*SW)
  .set .r 10 (.div (.mul (.mul (.mul (.mem .r 0) (.mem .r 0)) (.mem .r 1)) (.mem .r 2)) (.mul (.mul (.mul (.mul (.lit 4) (.mem .r 7)) (.mem .r 7)) (.mem .r 8)) (.mem .r 8))),
  -- 54: gLd=-1.0+2.0/3.0*SW*SW
  .set .r 11 (.add (.neg (.lit 1)) (.mul (.mul (.div (.lit 2) (.lit 3)) (.mem .r 8)) (.mem .r 8))),
  -- 55: gRd=2.0/3.0*SW*SW
  .set .r 12 (.mul (.mul (.div (.lit 2) (.lit 3)) (.mem .r 8)) (.mem .r 8)),
  -- 56: gLe=-1.0+2.0*SW*SW
  .set .r 13 (.add (.neg (.lit 1)) (.mul (.mul (.lit 2) (.mem .r 8)) (.mem .r 8))),
  -- 57: gRe=2.0*SW*SW
  .set .r 14 (.mul (.mul (.lit 2) (.mem .r 8)) (.mem .r 8)),
  -- 58: preZ=e*e/(4.0*CW*CW*SW*SW)
  .set .r 15 (.div (.mul (.mem .r 0) (.mem .r 0)) (.mul (.mul (.mul (.mul (.lit 4) (.mem .r 9)) (.mem .r 9)) (.mem .r 8)) (.mem .r 8))),
  -- 59: preZ0=preZ*(gLd-gRd)*(gLe-gRe)*md*me/MZ/MZ
  .set .r 16 (.div (.div (.mul (.mul (.mul (.mul (.mem .r 15) (.sub (.mem .r 11) (.mem .r 12))) (.sub (.mem .r 13) (.mem .r 14))) (.mem .r 1)) (.mem .r 2)) (.mem .r 5)) (.mem .r 5))]

/-- `set_masses` (SM/deed.cpp:61-75); parameters: 0 `massd`, 1 `masse`, 2 `massh`, 3 `massW` -/
def setMasses : List SInstr := [
  -- 62: md=massd
  .set .r 1 (.loc .r 0),
  -- 63: me=masse
  .set .r 2 (.loc .r 1),
  -- 64: mh=massh
  .set .r 3 (.loc .r 2),
  -- 65: proph.set_mass(mh)
  .propMass 1 (.mem .r 3),
  -- 66: MW=massW
  .set .r 7 (.loc .r 3),
  -- 67: MZ=MW/CW
  .set .r 5 (.div (.mem .r 7) (.mem .r 9)),
  -- 68: propZ.set_mass(MZ)
  .propMass 2 (.mem .r 5),
  -- 69: p1.set_mass(md)
  .setMass 0 (.mem .r 1),
  -- 70: p2.set_mass(me)
  .setMass 1 (.mem .r 2),
  -- 71: p3.set_mass(me)
  .setMass 2 (.mem .r 2),
  -- 72: p4.set_mass(md)
  .setMass 3 (.mem .r 1),
  -- 73: preh=e*e*md*me/(4*MW*MW*SW*SW)
  .set .r 10 (.div (.mul (.mul (.mul (.mem .r 0) (.mem .r 0)) (.mem .r 1)) (.mem .r 2)) (.mul (.mul (.mul (.mul (.lit 4) (.mem .r 7)) (.mem .r 7)) (.mem .r 8)) (.mem .r 8))),
  -- 74: preZ0=preZ*(gLd-gRd)*(gLe-gRe)*md*me/MZ/MZ
  .set .r 16 (.div (.div (.mul (.mul (.mul (.mul (.mem .r 15) (.sub (.mem .r 11) (.mem .r 12))) (.sub (.mem .r 13) (.mem .r 14))) (.mem .r 1)) (.mem .r 2)) (.mem .r 5)) (.mem .r 5))]

/-- `set_momenta` (SM/deed.cpp:76-101); parameters: 0 `mom1`, 1 `mom2`, 2 `mom3`, 3 `mom4` -/
def setMomenta : List SInstr := [
  -- 78: p1.set_momentum(mom1)
  .setMom 0 0,
  -- 79: p2.set_momentum(mom2)
  .setMom 1 1,
  -- 80: p3.set_momentum(mom3)
  .setMom 2 2,
  -- 81: p4.set_momentum(mom4)
  .setMom 3 3,
  -- 82: a13a.update()
  .update 0,
  -- 83: s13s.update()
  .update 1,
  -- 84: a14a.update()
  .update 2,
  -- 85: s14s.update()
  .update 3,
  -- 86: a23a.update()
  .update 4,
  -- 87: s23s.update()
  .update 5,
  -- 88: a24a.update()
  .update 6,
  -- 89: s24s.update()
  .update 7,
  -- 90: s12s.update()
  .update 8,
  -- 91: a12a.update()
  .update 9,
  -- 92: s34s.update()
  .update 10,
  -- 93: a34a.update()
  .update 11,
  -- 98: pDenUA=propA.denominator(propP)
  .den .c 0 0 (.sub 0 3),
  -- 99: pDenUh=proph.denominator(propP)
  .den .c 1 1 (.sub 0 3),
  -- 100: pDenUZ=propZ.denominator(propP)
  .den .c 2 2 (.sub 0 3)]

/-- `cdouble amp(ds1,ds2,ds3,ds4)` (SM/deed.cpp:106-159); variables: i 0 `ds1`, i 1 `ds2`, i 2 `ds3`, i 3 `ds4`, c 0 `amplitude` -/
def m_amp : Method := ⟨4, 
  -- 108: cdouble amplitude
  .seq (.set .c 0 (.ofR (.lit 0))) <|
  -- 117: amplitude=two*e*e*1.0/3.0*(-a13a.v(ds1,ds3)*s24s.v(ds2,ds4)+a12a.v(ds1,ds2)*s34s.v(ds3,ds4)-s13s.v(ds1,ds3)*a24a.v(ds2,ds4)+s12s.v(ds1,ds2)*a34a.v(ds3,ds4))/pDenUA
  .seq (.set .c 0 (.div (.smul (.div (.mul (.mul (.mul (.lit 2) (.mem .r 0)) (.mem .r 0)) (.lit 1)) (.lit 3)) (.add (.sub (.add (.mul (.neg (.v 0 [.var 0, .var 2])) (.v 7 [.var 1, .var 3])) (.mul (.v 9 [.var 0, .var 1]) (.v 10 [.var 2, .var 3]))) (.mul (.v 1 [.var 0, .var 2]) (.v 6 [.var 1, .var 3]))) (.mul (.v 8 [.var 0, .var 1]) (.v 11 [.var 2, .var 3])))) (.mem .c 0))) <|
  -- 130: amplitude+=-preh*(s14s.v(ds1,ds4)-a14a.v(ds1,ds4))*(s23s.v(ds2,ds3)-a23a.v(ds2,ds3))/pDenUh
  .seq (.set .c 0 (.add (.loc .c 0) (.div (.mul (.smul (.neg (.mem .r 10)) (.sub (.v 3 [.var 0, .var 3]) (.v 2 [.var 0, .var 3]))) (.sub (.v 5 [.var 1, .var 2]) (.v 4 [.var 1, .var 2]))) (.mem .c 1)))) <|
  -- 149: amplitude+=+preZ0*(a14a.v(ds1,ds4)+s14s.v(ds1,ds4))*(a23a.v(ds2,ds3)+s23s.v(ds2,ds3))/pDenUZ+two*preZ*(gLd*gLe*s34s.v(ds3,ds4)*a12a.v(ds1,ds2)-gLe*gRd*s13s.v(ds1,ds3)*a24a.v(ds2,ds4)-gLd*gRe*s24s.v(ds2,ds4)*a13a.v(ds1,ds3)+gRd*gRe*s12s.v(ds1,ds2)*a34a.v(ds3,ds4))/pDenUZ
  .seq (.set .c 0 (.add (.loc .c 0) (.add (.div (.mul (.smul (.mem .r 16) (.add (.v 2 [.var 0, .var 3]) (.v 3 [.var 0, .var 3]))) (.add (.v 4 [.var 1, .var 2]) (.v 5 [.var 1, .var 2]))) (.mem .c 2)) (.div (.smul (.mul (.lit 2) (.mem .r 15)) (.add (.sub (.sub (.mul (.smul (.mul (.mem .r 11) (.mem .r 13)) (.v 10 [.var 2, .var 3])) (.v 9 [.var 0, .var 1])) (.mul (.smul (.mul (.mem .r 13) (.mem .r 12)) (.v 1 [.var 0, .var 2])) (.v 6 [.var 1, .var 3]))) (.mul (.smul (.mul (.mem .r 11) (.mem .r 14)) (.v 7 [.var 1, .var 3])) (.v 0 [.var 0, .var 2]))) (.mul (.smul (.mul (.mem .r 12) (.mem .r 14)) (.v 8 [.var 0, .var 1])) (.v 11 [.var 2, .var 3])))) (.mem .c 2))))) <|
  -- 158: return amplitude
  .ret .c (.loc .c 0)⟩

/-- `ldouble amp2()` (SM/deed.cpp:162-177); variables: r 0 `amp2`, r 1 `two`, r 2 `three`, c 0 `M`, i 0 `j1`, i 1 `j2`, i 2 `j3`, i 3 `j4` -/
def m_amp2 : Method := ⟨0, 
  -- 163: ldouble amp2
  .seq (.set .r 0 (.lit 0)) <|
  -- 163: ldouble two
  .seq (.set .r 1 (.lit 2)) <|
  -- 163: ldouble three
  .seq (.set .r 2 (.lit 3)) <|
  -- 164: cdouble M
  .seq (.set .c 0 (.ofR (.lit 0))) <|
  -- 167: for(int j1=-1;j1<=1;j1+=2)
  .seq (.loop 0 (-1) true (.lit 1) 2 (
    -- 168: for(int j2=-1;j2<=1;j2+=2)
    .loop 1 (-1) true (.lit 1) 2 (
      -- 169: for(int j3=-1;j3<=1;j3+=2)
      .loop 2 (-1) true (.lit 1) 2 (
        -- 170: for(int j4=-1;j4<=1;j4+=2)
        .loop 3 (-1) true (.lit 1) 2 (
          -- 171: M=amp(j1,j2,j3,j4)
          .seq (.set .c 0 (.call 0 [.var 0, .var 1, .var 2, .var 3])) <|
          -- 172: amp2+=three*std::pow(std::abs(M),2)
          .set .r 0 (.add (.loc .r 0) (.mul (.loc .r 2) (.pow (.abs (.loc .c 0)) 2)))))))) <|
  -- 176: return amp2/12.0
  .ret .r (.div (.loc .r 0) (.lit 12))⟩

end deed

/-- `class deed` (SM/deed.cpp, SM/include/deed.h:25-33).  Members:
* ldouble: 0 `e`, 1 `md`, 2 `me`, 3 `mh`, 4 `wh`, 5 `MZ`, 6 `WZ`, 7 `MW`, 8 `SW`, 9 `CW`, 10 `preh`, 11 `gLd`, 12 `gRd`, 13 `gLe`, 14 `gRe`, 15 `preZ`, 16 `preZ0`
* cdouble: 0 `pDenUA`, 1 `pDenUh`, 2 `pDenUZ`
* propagator: 0 `propA`, 1 `proph`, 2 `propZ`
* sproduct: 0 `a13a`, 1 `s13s`, 2 `a14a`, 3 `s14s`, 4 `a23a`, 5 `s23s`, 6 `a24a`, 7 `s24s`, 8 `s12s`, 9 `a12a`, 10 `s34s`, 11 `a34a` -/
def deed : Proc where
  name := "deed"
  nPar := 8
  ctor := deed.ctor
  setMasses := deed.setMasses
  massPar := [1, 2, 3, 5]
  setMomenta := deed.setMomenta
  methods := [deed.m_amp2, deed.m_amp]
  amp2 := 1
  others := []

namespace dgdh

/-- constructor (SM/dgdh.cpp:32-53); parameters: 0 `echarge`, 1 `gscharge`, 2 `massd`, 3 `massh`, 4 `massW`, 5 `sinW` -/
def ctor : List SInstr := [
  -- 32: e(echarge)
  .set .r 0 (.loc .r 0),
  -- 32: gs(gscharge)
  .set .r 1 (.loc .r 1),
  -- 32: md(massd)
  .set .r 2 (.loc .r 2),
  -- 32: mh(massh)
  .set .r 3 (.loc .r 3),
  -- 32: MW(massW)
  .set .r 4 (.loc .r 4),
  -- 32: SW(sinW)
  .set .r 5 (.loc .r 5),
  -- 32: prop(massd,0)
  .prop 0 (.loc .r 2) (.lit 0),
  -- 35: sqrt2=std::sqrt(two)
  .set .r 7 (.sqrt (.lit 2)),
  -- 36: p1=particle(md)
  .part 0 (.mem .r 2),
  -- 37: p2=particle(0)
  .part 1 (.lit 0),
  -- 38: p3=particle(md)
  .part 2 (.mem .r 2),
  -- 39: p4=particle(mh)
  .part 3 (.mem .r 3),
  -- 40: s12s=sproduct(SQUARE,&p1,&p2)
  .sprod 0 ⟨false, 0, true, [], 1, true⟩,
  -- 41: a12a=sproduct(ANGLE,&p1,&p2)
  .sprod 1 ⟨true, 0, true, [], 1, true⟩,
  -- 42: s23s=sproduct(SQUARE,&p2,&p3)
  .sprod 2 ⟨false, 1, true, [], 2, true⟩,
  -- 43: a23a=sproduct(ANGLE,&p2,&p3)
  .sprod 3 ⟨true, 1, true, [], 2, true⟩,
  -- 44: s13s=sproduct(SQUARE,&p1,&p3)
  .sprod 4 ⟨false, 0, true, [], 2, true⟩,
  -- 45: a13a=sproduct(ANGLE,&p1,&p3)
  .sprod 5 ⟨true, 0, true, [], 2, true⟩,
  -- 46: s243a=sproduct(SQUARE,&p2,&p4,&p3)
  .sprod 6 ⟨false, 1, true, [3], 2, true⟩,
  -- 47: a243s=sproduct(ANGLE,&p2,&p4,&p3)
  .sprod 7 ⟨true, 1, true, [3], 2, true⟩,
  -- 48: s241a=sproduct(SQUARE,&p2,&p4,&p1)
  .sprod 8 ⟨false, 1, true, [3], 0, true⟩,
  -- 49: a241s=sproduct(ANGLE,&p2,&p4,&p1)
  .sprod 9 ⟨true, 1, true, [3], 0, true⟩,
  -- 50: s2342s=sproduct(SQUARE,&p2,&p3,&p4,&p2)
  .sprod 10 ⟨false, 1, true, [2, 3], 1, true⟩,
  -- 51: a2342a=sproduct(ANGLE,&p2,&p3,&p4,&p2)
  .sprod 11 ⟨true, 1, true, [2, 3], 1, true⟩,
  -- 52: pre=sqrt2*e*gs*md/(2.0*MW*SW)
  .set .r 6 (.div (.mul (.mul (.mul (.mem .r 7) (.mem .r 0)) (.mem .r 1)) (.mem .r 2)) (.mul (.mul (.lit 2) (.mem .r 4)) (.mem .r 5)))]

/-- `set_masses` (SM/dgdh.cpp:54-62); parameters: 0 `massd`, 1 `massh`, 2 `massW` -/
def setMasses : List SInstr := [
  -- 55: md=massd
  .set .r 2 (.loc .r 0),
  -- 56: mh=massh
  .set .r 3 (.loc .r 1),
  -- 57: p1.set_mass(md)
  .setMass 0 (.mem .r 2),
  -- 58: p3.set_mass(md)
  .setMass 2 (.mem .r 2),
  -- 59: p4.set_mass(mh)
  .setMass 3 (.mem .r 3),
  -- 60: prop.set_mass(md)
  .propMass 0 (.mem .r 2),
  -- 61: pre=sqrt2*e*gs*md/(2.0*MW*SW)
  .set .r 6 (.div (.mul (.mul (.mul (.mem .r 7) (.mem .r 0)) (.mem .r 1)) (.mem .r 2)) (.mul (.mul (.lit 2) (.mem .r 4)) (.mem .r 5)))]

/-- `set_momenta` (SM/dgdh.cpp:63-89); parameters: 0 `mom1`, 1 `mom2`, 2 `mom3`, 3 `mom4` -/
def setMomenta : List SInstr := [
  -- 65: p1.set_momentum(mom1)
  .setMom 0 0,
  -- 66: p2.set_momentum(mom2)
  .setMom 1 1,
  -- 67: p3.set_momentum(mom3)
  .setMom 2 2,
  -- 68: p4.set_momentum(mom4)
  .setMom 3 3,
  -- 69: s12s.update()
  .update 0,
  -- 70: a12a.update()
  .update 1,
  -- 71: s23s.update()
  .update 2,
  -- 72: a23a.update()
  .update 3,
  -- 73: s13s.update()
  .update 4,
  -- 74: a13a.update()
  .update 5,
  -- 75: s243a.update()
  .update 6,
  -- 76: a243s.update()
  .update 7,
  -- 77: s241a.update()
  .update 8,
  -- 78: a241s.update()
  .update 9,
  -- 79: s2342s.update()
  .update 10,
  -- 80: a2342a.update()
  .update 11,
  -- 87: pDenS=prop.denominator(propSP)
  .den .c 0 0 (.add 0 1),
  -- 88: pDenU=prop.denominator(propUP)
  .den .c 1 0 (.sub 0 3)]

/-- `cdouble amp(ds1,ds2,ds3)` (SM/dgdh.cpp:94-108); variables: i 0 `ds1`, i 1 `ds2`, i 2 `ds3` -/
def m_amp : Method := ⟨3, 
  -- 99: if(ds2>0)
  .seq (.ite (.lt (.lit 0) (.var 1)) (
    -- 101: return pre*(mh*mh*s12s.v(ds1)*s23s.v(ds3)-md*s12s.v(ds1)*s243a.v(ds3)-md*s23s.v(ds3)*s241a.v(ds1)+a13a.v(ds1,ds3)*s2342s.v())/pDenS/pDenU
    .ret .c (.div (.div (.smul (.mem .r 6) (.add (.sub (.sub (.mul (.smul (.mul (.mem .r 3) (.mem .r 3)) (.v 0 [.var 0])) (.v 2 [.var 2])) (.mul (.smul (.mem .r 2) (.v 0 [.var 0])) (.v 6 [.var 2]))) (.mul (.smul (.mem .r 2) (.v 2 [.var 2])) (.v 8 [.var 0]))) (.mul (.v 5 [.var 0, .var 2]) (.v 10 [])))) (.mem .c 0)) (.mem .c 1))) (
    -- 103: if(ds2<0)
    .ite (.lt (.var 1) (.lit 0)) (
      -- 105: return pre*(-mh*mh*a12a.v(ds1)*a23a.v(ds3)+md*a12a.v(ds1)*a243s.v(ds3)+md*a23a.v(ds3)*a241s.v(ds1)-s13s.v(ds1,ds3)*a2342a.v())/pDenS/pDenU
      .ret .c (.div (.div (.smul (.mem .r 6) (.sub (.add (.add (.mul (.smul (.mul (.neg (.mem .r 3)) (.mem .r 3)) (.v 1 [.var 0])) (.v 3 [.var 2])) (.mul (.smul (.mem .r 2) (.v 1 [.var 0])) (.v 7 [.var 2]))) (.mul (.smul (.mem .r 2) (.v 3 [.var 2])) (.v 9 [.var 0]))) (.mul (.v 4 [.var 0, .var 2]) (.v 11 [])))) (.mem .c 0)) (.mem .c 1))) (
      .skip))) <|
  -- 107: return cdouble(0,0)
  .ret .c (.ofR (.lit 0))⟩

/-- `ldouble amp2()` (SM/dgdh.cpp:111-125); variables: r 0 `amp2`, c 0 `M`, i 0 `j1`, i 1 `j2`, i 2 `j3` -/
def m_amp2 : Method := ⟨0, 
  -- 112: ldouble amp2
  .seq (.set .r 0 (.lit 0)) <|
  -- 113: cdouble M
  .seq (.set .c 0 (.ofR (.lit 0))) <|
  -- 116: for(int j1=-1;j1<=1;j1+=2)
  .seq (.loop 0 (-1) true (.lit 1) 2 (
    -- 117: for(int j2=-2;j2<=2;j2+=4)
    .loop 1 (-2) true (.lit 2) 4 (
      -- 118: for(int j3=-1;j3<=1;j3+=2)
      .loop 2 (-1) true (.lit 1) 2 (
        -- 119: M=amp(j1,j2,j3)
        .seq (.set .c 0 (.call 0 [.var 0, .var 1, .var 2])) <|
        -- 120: amp2+=4.0*std::pow(std::abs(M),2)
        .set .r 0 (.add (.loc .r 0) (.mul (.lit 4) (.pow (.abs (.loc .c 0)) 2))))))) <|
  -- 124: return amp2/96.0
  .ret .r (.div (.loc .r 0) (.lit 96))⟩

/-- `ldouble amp2_gplus()` (SM/dgdh.cpp:129-142); variables: r 0 `amp2`, c 0 `M`, i 0 `j1`, i 1 `j3` -/
def m_amp2_gplus : Method := ⟨0, 
  -- 130: ldouble amp2
  .seq (.set .r 0 (.lit 0)) <|
  -- 131: cdouble M
  .seq (.set .c 0 (.ofR (.lit 0))) <|
  -- 134: for(int j1=-1;j1<=1;j1+=2)
  .seq (.loop 0 (-1) true (.lit 1) 2 (
    -- 135: for(int j3=-1;j3<=1;j3+=2)
    .loop 1 (-1) true (.lit 1) 2 (
      -- 136: M=amp(j1,2,j3)
      .seq (.set .c 0 (.call 0 [.var 0, .lit 2, .var 1])) <|
      -- 137: amp2+=4.0*std::pow(std::abs(M),2)
      .set .r 0 (.add (.loc .r 0) (.mul (.lit 4) (.pow (.abs (.loc .c 0)) 2)))))) <|
  -- 141: return amp2/48.0
  .ret .r (.div (.loc .r 0) (.lit 48))⟩

end dgdh

/-- `class dgdh` (SM/dgdh.cpp, SM/include/dgdh.h:25-33).  Members:
* ldouble: 0 `e`, 1 `gs`, 2 `md`, 3 `mh`, 4 `MW`, 5 `SW`, 6 `pre`, 7 `sqrt2`
* cdouble: 0 `pDenS`, 1 `pDenU`
* propagator: 0 `prop`
* sproduct: 0 `s12s`, 1 `a12a`, 2 `s23s`, 3 `a23a`, 4 `s13s`, 5 `a13a`, 6 `s243a`, 7 `a243s`, 8 `s241a`, 9 `a241s`, 10 `s2342s`, 11 `a2342a` -/
def dgdh : Proc where
  name := "dgdh"
  nPar := 6
  ctor := dgdh.ctor
  setMasses := dgdh.setMasses
  massPar := [2, 3, 4]
  setMomenta := dgdh.setMomenta
  methods := [dgdh.m_amp2_gplus, dgdh.m_amp2, dgdh.m_amp]
  amp2 := 1
  others := [("amp2_gplus", 2)]

namespace dggd

/-- constructor (SM/dggd.cpp:32-54); parameters: 0 `gcharge`, 1 `massd` -/
def ctor : List SInstr := [
  -- 32: gs(gcharge)
  .set .r 0 (.loc .r 0),
  -- 32: md(massd)
  .set .r 1 (.loc .r 1),
  -- 32: propd(massd,0)
  .prop 0 (.loc .r 1) (.lit 0),
  -- 32: propg(0,0)
  .prop 1 (.lit 0) (.lit 0),
  -- 35: sqrt2=std::sqrt(two)
  .set .r 5 (.sqrt (.lit 2)),
  -- 36: p1=particle(md)
  .part 0 (.mem .r 1),
  -- 37: p2=particle(0)
  .part 1 (.lit 0),
  -- 38: p3=particle(0)
  .part 2 (.lit 0),
  -- 39: p4=particle(md)
  .part 3 (.mem .r 1),
  -- 40: s34s=sproduct(SQUARE,&p3,&p4)
  .sprod 0 ⟨false, 2, true, [], 3, true⟩,
  -- 41: a34a=sproduct(ANGLE,&p3,&p4)
  .sprod 1 ⟨true, 2, true, [], 3, true⟩,
  -- 42: s12s=sproduct(SQUARE,&p1,&p2)
  .sprod 2 ⟨false, 0, true, [], 1, true⟩,
  -- 43: a12a=sproduct(ANGLE,&p1,&p2)
  .sprod 3 ⟨true, 0, true, [], 1, true⟩,
  -- 44: s13s=sproduct(SQUARE,&p1,&p3)
  .sprod 4 ⟨false, 0, true, [], 2, true⟩,
  -- 45: a13a=sproduct(ANGLE,&p1,&p3)
  .sprod 5 ⟨true, 0, true, [], 2, true⟩,
  -- 46: s24s=sproduct(SQUARE,&p2,&p4)
  .sprod 6 ⟨false, 1, true, [], 3, true⟩,
  -- 47: a24a=sproduct(ANGLE,&p2,&p4)
  .sprod 7 ⟨true, 1, true, [], 3, true⟩,
  -- 48: s23s=sproduct(SQUARE,&p2,&p3)
  .sprod 8 ⟨false, 1, true, [], 2, true⟩,
  -- 49: a23a=sproduct(ANGLE,&p2,&p3)
  .sprod 9 ⟨true, 1, true, [], 2, true⟩,
  -- 50: s14s=sproduct(SQUARE,&p1,&p4)
  .sprod 10 ⟨false, 0, true, [], 3, true⟩,
  -- 51: a14a=sproduct(ANGLE,&p1,&p4)
  .sprod 11 ⟨true, 0, true, [], 3, true⟩,
  -- 52: s312a=sproduct(SQUARE,&p3,&p1,&p2)
  .sprod 12 ⟨false, 2, true, [0], 1, true⟩,
  -- 53: s213a=sproduct(SQUARE,&p2,&p1,&p3)
  .sprod 13 ⟨false, 1, true, [0], 2, true⟩]

/-- `set_masses` (SM/dggd.cpp:55-60); parameters: 0 `massd` -/
def setMasses : List SInstr := [
  -- 56: md=massd
  .set .r 1 (.loc .r 0),
  -- 57: p1.set_mass(md)
  .setMass 0 (.mem .r 1),
  -- 58: p4.set_mass(md)
  .setMass 3 (.mem .r 1),
  -- 59: propd.set_mass(md)
  .propMass 0 (.mem .r 1)]

/-- `set_momenta` (SM/dggd.cpp:61-92); parameters: 0 `mom1`, 1 `mom2`, 2 `mom3`, 3 `mom4` -/
def setMomenta : List SInstr := [
  -- 63: p1.set_momentum(mom1)
  .setMom 0 0,
  -- 64: p2.set_momentum(mom2)
  .setMom 1 1,
  -- 65: p3.set_momentum(mom3)
  .setMom 2 2,
  -- 66: p4.set_momentum(mom4)
  .setMom 3 3,
  -- 67: s34s.update()
  .update 0,
  -- 68: a34a.update()
  .update 1,
  -- 69: s12s.update()
  .update 2,
  -- 70: a12a.update()
  .update 3,
  -- 71: s13s.update()
  .update 4,
  -- 72: a13a.update()
  .update 5,
  -- 73: s24s.update()
  .update 6,
  -- 74: a24a.update()
  .update 7,
  -- 75: s23s.update()
  .update 8,
  -- 76: a23a.update()
  .update 9,
  -- 77: s14s.update()
  .update 10,
  -- 78: a14a.update()
  .update 11,
  -- 79: s312a.update()
  .update 12,
  -- 80: s213a.update()
  .update 13,
  -- 88: pDenS=std::real(propd.denominator(propSP))
  .den .r 2 0 (.add 0 1),
  -- 89: pDenT=std::real(propd.denominator(propTP))
  .den .r 3 0 (.sub 0 2),
  -- 90: pDenU=std::real(propg.denominator(propUP))
  .den .r 4 1 (.sub 0 3)]

/-- `cdouble amp_Num(ds1,ds2,ds3,ds4)` (SM/dggd.cpp:99-129); variables: i 0 `ds1`, i 1 `ds2`, i 2 `ds3`, i 3 `ds4` -/
def m_amp_Num : Method := ⟨4, 
  -- 104: if(ds3>0&&ds2>0)
  .seq (.ite (.and (.lt (.lit 0) (.var 2)) (.lt (.lit 0) (.var 1))) (
    -- 108: return -2.0*gs*gs*md*s23s.v()*s23s.v()*a14a.v(ds1,ds4)
    .ret .c (.mul (.mul (.smul (.mul (.mul (.mul (.neg (.lit 2)) (.mem .r 0)) (.mem .r 0)) (.mem .r 1)) (.v 8 [])) (.v 8 [])) (.v 11 [.var 0, .var 3]))) (
    -- 110: if(ds3<0&&ds2<0)
    .ite (.and (.lt (.var 2) (.lit 0)) (.lt (.var 1) (.lit 0))) (
      -- 114: return +2.0*gs*gs*md*a23a.v()*a23a.v()*s14s.v(ds1,ds4)
      .ret .c (.mul (.mul (.smul (.mul (.mul (.mul (.lit 2) (.mem .r 0)) (.mem .r 0)) (.mem .r 1)) (.v 9 [])) (.v 9 [])) (.v 10 [.var 0, .var 3]))) (
      -- 116: if(ds3>0&&ds2<0)
      .ite (.and (.lt (.lit 0) (.var 2)) (.lt (.var 1) (.lit 0))) (
        -- 120: return +2.0*gs*gs*(s13s.v(ds1)*a24a.v(ds4)-s34s.v(ds4)*a12a.v(ds1))*s312a.v()
        .ret .c (.mul (.smul (.mul (.mul (.lit 2) (.mem .r 0)) (.mem .r 0)) (.sub (.mul (.v 4 [.var 0]) (.v 7 [.var 3])) (.mul (.v 0 [.var 3]) (.v 3 [.var 0])))) (.v 12 []))) (
        -- 122: if(ds3<0&&ds2>0)
        .ite (.and (.lt (.var 2) (.lit 0)) (.lt (.lit 0) (.var 1))) (
          -- 126: return -2.0*gs*gs*(a13a.v(ds1)*s24s.v(ds4)-a34a.v(ds4)*s12s.v(ds1))*s213a.v()
          .ret .c (.mul (.smul (.mul (.mul (.neg (.lit 2)) (.mem .r 0)) (.mem .r 0)) (.sub (.mul (.v 5 [.var 0]) (.v 6 [.var 3])) (.mul (.v 1 [.var 3]) (.v 2 [.var 0])))) (.v 13 []))) (
          .skip))))) <|
  -- 128: return cdouble(0,0)
  .ret .c (.ofR (.lit 0))⟩

/-- `ldouble amp2()` (SM/dggd.cpp:133-149); variables: r 0 `amp2`, c 0 `M_Num`, i 0 `j1`, i 1 `j2`, i 2 `j3`, i 3 `j4` -/
def m_amp2 : Method := ⟨0, 
  -- 134: ldouble amp2
  .seq (.set .r 0 (.lit 0)) <|
  -- 135: cdouble M_Num
  .seq (.set .c 0 (.ofR (.lit 0))) <|
  -- 138: for(int j1=-1;j1<=1;j1+=2)
  .seq (.loop 0 (-1) true (.lit 1) 2 (
    -- 139: for(int j2=-2;j2<=2;j2+=4)
    .loop 1 (-2) true (.lit 2) 4 (
      -- 140: for(int j3=-2;j3<=2;j3+=4)
      .loop 2 (-2) true (.lit 2) 4 (
        -- 141: for(int j4=-1;j4<=1;j4+=2)
        .loop 3 (-1) true (.lit 1) 2 (
          -- 142: M_Num=amp_Num(j1,j2,j3,j4)
          .seq (.set .c 0 (.call 0 [.var 0, .var 1, .var 2, .var 3])) <|
          -- 144: amp2+=std::pow(std::abs(M_Num),2)*(6.0/std::pow(pDenU*pDenT,2)+6.0/std::pow(pDenU*pDenS,2)-2.0/3.0/std::pow(pDenT*pDenS,2))
          .set .r 0 (.add (.loc .r 0) (.mul (.pow (.abs (.loc .c 0)) 2) (.sub (.add (.div (.lit 6) (.pow (.mul (.mem .r 4) (.mem .r 3)) 2)) (.div (.lit 6) (.pow (.mul (.mem .r 4) (.mem .r 2)) 2))) (.div (.div (.lit 2) (.lit 3)) (.pow (.mul (.mem .r 3) (.mem .r 2)) 2)))))))))) <|
  -- 148: return amp2/96.0
  .ret .r (.div (.loc .r 0) (.lit 96))⟩

/-- `ldouble amp2_gplus()` (SM/dggd.cpp:152-166); variables: r 0 `amp2`, c 0 `M_Num`, i 0 `j1`, i 1 `j3`, i 2 `j4` -/
def m_amp2_gplus : Method := ⟨0, 
  -- 153: ldouble amp2
  .seq (.set .r 0 (.lit 0)) <|
  -- 154: cdouble M_Num
  .seq (.set .c 0 (.ofR (.lit 0))) <|
  -- 157: for(int j1=-1;j1<=1;j1+=2)
  .seq (.loop 0 (-1) true (.lit 1) 2 (
    -- 158: for(int j3=-1;j3<=1;j3+=2)
    .loop 1 (-1) true (.lit 1) 2 (
      -- 159: for(int j4=-1;j4<=1;j4+=2)
      .loop 2 (-1) true (.lit 1) 2 (
        -- 160: M_Num=amp_Num(j1,2,j3,j4)
        .seq (.set .c 0 (.call 0 [.var 0, .lit 2, .var 1, .var 2])) <|
        -- 161: amp2+=std::pow(std::abs(M_Num),2)*(6.0/std::pow(pDenU*pDenT,2)+6.0/std::pow(pDenU*pDenS,2)-2.0/3.0/std::pow(pDenT*pDenS,2))
        .set .r 0 (.add (.loc .r 0) (.mul (.pow (.abs (.loc .c 0)) 2) (.sub (.add (.div (.lit 6) (.pow (.mul (.mem .r 4) (.mem .r 3)) 2)) (.div (.lit 6) (.pow (.mul (.mem .r 4) (.mem .r 2)) 2))) (.div (.div (.lit 2) (.lit 3)) (.pow (.mul (.mem .r 3) (.mem .r 2)) 2))))))))) <|
  -- 165: return amp2/48.0
  .ret .r (.div (.loc .r 0) (.lit 48))⟩

/-- `ldouble amp2_gminus()` (SM/dggd.cpp:169-183); variables: r 0 `amp2`, c 0 `M_Num`, i 0 `j1`, i 1 `j3`, i 2 `j4` -/
def m_amp2_gminus : Method := ⟨0, 
  -- 170: ldouble amp2
  .seq (.set .r 0 (.lit 0)) <|
  -- 171: cdouble M_Num
  .seq (.set .c 0 (.ofR (.lit 0))) <|
  -- 174: for(int j1=-1;j1<=1;j1+=2)
  .seq (.loop 0 (-1) true (.lit 1) 2 (
    -- 175: for(int j3=-1;j3<=1;j3+=2)
    .loop 1 (-1) true (.lit 1) 2 (
      -- 176: for(int j4=-1;j4<=1;j4+=2)
      .loop 2 (-1) true (.lit 1) 2 (
        -- 177: M_Num=amp_Num(j1,-2,j3,j4)
        .seq (.set .c 0 (.call 0 [.var 0, .lit (-2), .var 1, .var 2])) <|
        -- 178: amp2+=std::pow(std::abs(M_Num),2)*(6.0/std::pow(pDenU*pDenT,2)+6.0/std::pow(pDenU*pDenS,2)-2.0/3.0/std::pow(pDenT*pDenS,2))
        .set .r 0 (.add (.loc .r 0) (.mul (.pow (.abs (.loc .c 0)) 2) (.sub (.add (.div (.lit 6) (.pow (.mul (.mem .r 4) (.mem .r 3)) 2)) (.div (.lit 6) (.pow (.mul (.mem .r 4) (.mem .r 2)) 2))) (.div (.div (.lit 2) (.lit 3)) (.pow (.mul (.mem .r 3) (.mem .r 2)) 2))))))))) <|
  -- 182: return amp2/48.0
  .ret .r (.div (.loc .r 0) (.lit 48))⟩

end dggd

/-- `class dggd` (SM/dggd.cpp, SM/include/dggd.h:25-32).  Members:
* ldouble: 0 `gs`, 1 `md`, 2 `pDenS`, 3 `pDenT`, 4 `pDenU`, 5 `sqrt2`
* propagator: 0 `propd`, 1 `propg`
* sproduct: 0 `s34s`, 1 `a34a`, 2 `s12s`, 3 `a12a`, 4 `s13s`, 5 `a13a`, 6 `s24s`, 7 `a24a`, 8 `s23s`, 9 `a23a`, 10 `s14s`, 11 `a14a`, 12 `s312a`, 13 `s213a` -/
def dggd : Proc where
  name := "dggd"
  nPar := 2
  ctor := dggd.ctor
  setMasses := dggd.setMasses
  massPar := [1]
  setMomenta := dggd.setMomenta
  methods := [dggd.m_amp2_gminus, dggd.m_amp2_gplus, dggd.m_amp2, dggd.m_amp_Num]
  amp2 := 1
  others := [("amp2_gplus", 2), ("amp2_gminus", 3)]

namespace dhdh

/-- constructor (SM/dhdh.cpp:32-44); parameters: 0 `echarge`, 1 `massd`, 2 `massh`, 3 `widthh`, 4 `massW`, 5 `sinW` -/
def ctor : List SInstr := [
  -- 32: e(echarge)
  .set .r 0 (.loc .r 0),
  -- 32: md(massd)
  .set .r 1 (.loc .r 1),
  -- 32: mh(massh)
  .set .r 2 (.loc .r 2),
  -- 32: wh(widthh)
  .set .r 3 (.loc .r 3),
  -- 32: MW(massW)
  .set .r 4 (.loc .r 4),
  -- 32: SW(sinW)
  .set .r 5 (.loc .r 5),
  -- 32: p1(particle(md))
  .part 0 (.mem .r 1),
  -- 32: p2(particle(mh))
  .part 1 (.mem .r 2),
  -- 32: p3(particle(md))
  .part 2 (.mem .r 1),
  -- 32: p4(particle(mh))
  .part 3 (.mem .r 2),
  -- 32: proph(mh,wh)
  .prop 0 (.mem .r 2) (.mem .r 3),
  -- 32: propd(md,0)
  .prop 1 (.mem .r 1) (.lit 0),
  -- 32: s13s(sproduct(SQUARE,&p1,&p3))
  .sprod 0 ⟨false, 0, true, [], 2, true⟩,
  -- 32: a13a(sproduct(ANGLE,&p1,&p3))
  .sprod 1 ⟨true, 0, true, [], 2, true⟩,
  -- 32: s123a(sproduct(SQUARE,&p1,&p2,&p3))
  .sprod 2 ⟨false, 0, true, [1], 2, true⟩,
  -- 32: s321a(sproduct(SQUARE,&p3,&p2,&p1))
  .sprod 3 ⟨false, 2, true, [1], 0, true⟩,
  -- 42: prehS=3*e*e*md*mh*mh/(4*MW*MW*SW*SW)
  .set .r 6 (.div (.mul (.mul (.mul (.mul (.mul (.lit 3) (.mem .r 0)) (.mem .r 0)) (.mem .r 1)) (.mem .r 2)) (.mem .r 2)) (.mul (.mul (.mul (.mul (.lit 4) (.mem .r 4)) (.mem .r 4)) (.mem .r 5)) (.mem .r 5))),
  -- 43: prehTU=e*e*md*md/(4.0*MW*MW*SW*SW)
  .set .r 7 (.div (.mul (.mul (.mul (.mem .r 0) (.mem .r 0)) (.mem .r 1)) (.mem .r 1)) (.mul (.mul (.mul (.mul (.lit 4) (.mem .r 4)) (.mem .r 4)) (.mem .r 5)) (.mem .r 5)))]

/-- `set_masses` (SM/dhdh.cpp:45-58); parameters: 0 `massd`, 1 `massh`, 2 `massW` -/
def setMasses : List SInstr := [
  -- 47: md=massd
  .set .r 1 (.loc .r 0),
  -- 48: propd.set_mass(md)
  .propMass 1 (.mem .r 1),
  -- 49: mh=massh
  .set .r 2 (.loc .r 1),
  -- 50: proph.set_mass(mh)
  .propMass 0 (.mem .r 2),
  -- 51: MW=massW
  .set .r 4 (.loc .r 2),
  -- 52: p1.set_mass(md)
  .setMass 0 (.mem .r 1),
  -- 53: p2.set_mass(mh)
  .setMass 1 (.mem .r 2),
  -- 54: p3.set_mass(md)
  .setMass 2 (.mem .r 1),
  -- 55: p4.set_mass(mh)
  .setMass 3 (.mem .r 2),
  -- 56: prehS=3.0*e*e*md*mh*mh/(4.0*MW*MW*SW*SW)
  .set .r 6 (.div (.mul (.mul (.mul (.mul (.mul (.lit 3) (.mem .r 0)) (.mem .r 0)) (.mem .r 1)) (.mem .r 2)) (.mem .r 2)) (.mul (.mul (.mul (.mul (.lit 4) (.mem .r 4)) (.mem .r 4)) (.mem .r 5)) (.mem .r 5))),
  -- 57: prehTU=e*e*md*md/(4.0*MW*MW*SW*SW)
  .set .r 7 (.div (.mul (.mul (.mul (.mem .r 0) (.mem .r 0)) (.mem .r 1)) (.mem .r 1)) (.mul (.mul (.mul (.mul (.lit 4) (.mem .r 4)) (.mem .r 4)) (.mem .r 5)) (.mem .r 5)))]

/-- `set_momenta` (SM/dhdh.cpp:59-79); parameters: 0 `mom1`, 1 `mom2`, 2 `mom3`, 3 `mom4` -/
def setMomenta : List SInstr := [
  -- 61: p1.set_momentum(mom1)
  .setMom 0 0,
  -- 62: p2.set_momentum(mom2)
  .setMom 1 1,
  -- 63: p3.set_momentum(mom3)
  .setMom 2 2,
  -- 64: p4.set_momentum(mom4)
  .setMom 3 3,
  -- 65: s13s.update()
  .update 0,
  -- 66: a13a.update()
  .update 1,
  -- 67: s123a.update()
  .update 2,
  -- 68: s321a.update()
  .update 3,
  -- 76: pDenTh=proph.denominator(propPT)
  .den .c 0 0 (.sub 0 2),
  -- 77: pDenSd=propd.denominator(propPS)
  .den .c 1 1 (.add 0 1),
  -- 78: pDenUd=propd.denominator(propPU)
  .den .c 2 1 (.sub 0 3)]

/-- `cdouble amp(ds1,ds3)` (SM/dhdh.cpp:84-110); variables: i 0 `ds1`, i 1 `ds3`, c 0 `amplitude` -/
def m_amp : Method := ⟨2, 
  -- 86: cdouble amplitude
  .seq (.set .c 0 (.ofR (.lit 0))) <|
  -- 94: amplitude+=+prehS*(s13s.v(ds1,ds3)-a13a.v(ds1,ds3))/pDenTh
  .seq (.set .c 0 (.add (.loc .c 0) (.div (.smul (.mem .r 6) (.sub (.v 0 [.var 0, .var 1]) (.v 1 [.var 0, .var 1]))) (.mem .c 0)))) <|
  -- 101: amplitude+=+prehTU*(two*md*(s13s.v(ds1,ds3)-a13a.v(ds1,ds3))-s123a.v(ds1,ds3)+s321a.v(ds3,ds1))/pDenSd
  .seq (.set .c 0 (.add (.loc .c 0) (.div (.smul (.mem .r 7) (.add (.sub (.smul (.mul (.lit 2) (.mem .r 1)) (.sub (.v 0 [.var 0, .var 1]) (.v 1 [.var 0, .var 1]))) (.v 2 [.var 0, .var 1])) (.v 3 [.var 1, .var 0]))) (.mem .c 1)))) <|
  -- 107: amplitude+=+prehTU*(two*md*(s13s.v(ds1,ds3)-a13a.v(ds1,ds3))+s123a.v(ds1,ds3)-s321a.v(ds3,ds1))/pDenUd
  .seq (.set .c 0 (.add (.loc .c 0) (.div (.smul (.mem .r 7) (.sub (.add (.smul (.mul (.lit 2) (.mem .r 1)) (.sub (.v 0 [.var 0, .var 1]) (.v 1 [.var 0, .var 1]))) (.v 2 [.var 0, .var 1])) (.v 3 [.var 1, .var 0]))) (.mem .c 2)))) <|
  -- 109: return amplitude
  .ret .c (.loc .c 0)⟩

/-- `ldouble amp2()` (SM/dhdh.cpp:113-126); variables: r 0 `amp2`, c 0 `M`, i 0 `j1`, i 1 `j3` -/
def m_amp2 : Method := ⟨0, 
  -- 114: ldouble amp2
  .seq (.set .r 0 (.lit 0)) <|
  -- 115: cdouble M
  .seq (.set .c 0 (.ofR (.lit 0))) <|
  -- 118: for(int j1=-1;j1<=1;j1+=2)
  .seq (.loop 0 (-1) true (.lit 1) 2 (
    -- 119: for(int j3=-1;j3<=1;j3+=2)
    .loop 1 (-1) true (.lit 1) 2 (
      -- 120: M=amp(j1,j3)
      .seq (.set .c 0 (.call 0 [.var 0, .var 1])) <|
      -- 121: amp2+=3.0*std::pow(std::abs(M),2)
      .set .r 0 (.add (.loc .r 0) (.mul (.lit 3) (.pow (.abs (.loc .c 0)) 2)))))) <|
  -- 125: return amp2/6.0
  .ret .r (.div (.loc .r 0) (.lit 6))⟩

end dhdh

/-- `class dhdh` (SM/dhdh.cpp, SM/include/dhdh.h:25-32).  Members:
* ldouble: 0 `e`, 1 `md`, 2 `mh`, 3 `wh`, 4 `MW`, 5 `SW`, 6 `prehS`, 7 `prehTU`
* cdouble: 0 `pDenTh`, 1 `pDenSd`, 2 `pDenUd`
* propagator: 0 `proph`, 1 `propd`
* sproduct: 0 `s13s`, 1 `a13a`, 2 `s123a`, 3 `s321a` -/
def dhdh : Proc where
  name := "dhdh"
  nPar := 6
  ctor := dhdh.ctor
  setMasses := dhdh.setMasses
  massPar := [1, 2, 4]
  setMomenta := dhdh.setMomenta
  methods := [dhdh.m_amp2, dhdh.m_amp]
  amp2 := 1
  others := []

end Spinas.SM.Cls
