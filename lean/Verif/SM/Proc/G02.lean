import Verif.SM.Lang

/-! Generated by tools/sm/translate.py from SM/*.cpp: AdZd, AeZe, AhWW, AnWe, AuZu, WWWW, WWWW2, WdWd, WdZu, ZWWh, ZWZW, ZZWW. -/

namespace Spinas.SM.Cls

namespace AdZd

/-- constructor (SM/AdZd.cpp:32-65); parameters: 0 `echarge`, 1 `massd`, 2 `massW`, 3 `sinW` -/
def ctor : List SInstr := [
  -- 32: e(echarge)
  .set .r 0 (.loc .r 0),
  -- 32: Qd(-1.0/3.0)
  .set .r 1 (.div (.neg (.lit 1)) (.lit 3)),
  -- 32: md(massd)
  .set .r 2 (.loc .r 1),
  -- 32: MW(massW)
  .set .r 3 (.loc .r 2),
  -- 32: SW(sinW)
  .set .r 4 (.loc .r 3),
  -- 32: CW(std::sqrt(1.0-sinW*sinW))
  .set .r 5 (.sqrt (.sub (.lit 1) (.mul (.loc .r 3) (.loc .r 3)))),
  -- 32: MZ(massW/CW)
  .set .r 6 (.div (.loc .r 2) (.mem .r 5)),
  -- 32: prope(massd,0)
  .prop 0 (.loc .r 1) (.lit 0),
  -- 35: sqrt2=std::sqrt(two)
  .set .r 7 (.sqrt (.lit 2)),
  -- 36: MZ=MW/CW
  .set .r 6 (.div (.mem .r 3) (.mem .r 5)),
  -- 37: p1=particle(0)
  .part 0 (.lit 0),
  -- 38: p2=particle(md)
  .part 1 (.mem .r 2),
  -- 39: p3=particle(MZ)
  .part 2 (.mem .r 6),
  -- 40: p4=particle(md)
  .part 3 (.mem .r 2),
  -- 42: s12s=sproduct(SQUARE,&p1,&p2)
  .sprod 0 ⟨false, 0, true, [], 1, true⟩,
  -- 43: s13s=sproduct(SQUARE,&p1,&p3)
  .sprod 1 ⟨false, 0, true, [], 2, true⟩,
  -- 44: s14s=sproduct(SQUARE,&p1,&p4)
  .sprod 2 ⟨false, 0, true, [], 3, true⟩,
  -- 45: a23a=sproduct(ANGLE,&p2,&p3)
  .sprod 3 ⟨true, 1, true, [], 2, true⟩,
  -- 46: a34a=sproduct(ANGLE,&p3,&p4)
  .sprod 4 ⟨true, 2, true, [], 3, true⟩,
  -- 47: s123a=sproduct(SQUARE,&p1,&p2,&p3)
  .sprod 5 ⟨false, 0, true, [1], 2, true⟩,
  -- 48: s132a=sproduct(SQUARE,&p1,&p3,&p2)
  .sprod 6 ⟨false, 0, true, [2], 1, true⟩,
  -- 49: s134a=sproduct(SQUARE,&p1,&p3,&p4)
  .sprod 7 ⟨false, 0, true, [2], 3, true⟩,
  -- 50: s143a=sproduct(SQUARE,&p1,&p4,&p3)
  .sprod 8 ⟨false, 0, true, [3], 2, true⟩,
  -- 52: a12a=sproduct(ANGLE,&p1,&p2)
  .sprod 9 ⟨true, 0, true, [], 1, true⟩,
  -- 53: a13a=sproduct(ANGLE,&p1,&p3)
  .sprod 10 ⟨true, 0, true, [], 2, true⟩,
  -- 54: a14a=sproduct(ANGLE,&p1,&p4)
  .sprod 11 ⟨true, 0, true, [], 3, true⟩,
  -- 55: s23s=sproduct(SQUARE,&p2,&p3)
  .sprod 12 ⟨false, 1, true, [], 2, true⟩,
  -- 56: s34s=sproduct(SQUARE,&p3,&p4)
  .sprod 13 ⟨false, 2, true, [], 3, true⟩,
  -- 57: a123s=sproduct(ANGLE,&p1,&p2,&p3)
  .sprod 14 ⟨true, 0, true, [1], 2, true⟩,
  -- 58: a132s=sproduct(ANGLE,&p1,&p3,&p2)
  .sprod 15 ⟨true, 0, true, [2], 1, true⟩,
  -- 59: a134s=sproduct(ANGLE,&p1,&p3,&p4)
  .sprod 16 ⟨true, 0, true, [2], 3, true⟩,
  -- 60: a143s=sproduct(ANGLE,&p1,&p4,&p3)
  .sprod 17 ⟨true, 0, true, [3], 2, true⟩,
  -- 62: preTU=2.0*e*e*Qd/(2.0*MW*SW)
  .set .r 8 (.div (.mul (.mul (.mul (.lit 2) (.mem .r 0)) (.mem .r 0)) (.mem .r 1)) (.mul (.mul (.lit 2) (.mem .r 3)) (.mem .r 4))),
  -- 63: gLd=-2.0*Qd*SW*SW-1.0
  .set .r 10 (.sub (.mul (.mul (.mul (.neg (.lit 2)) (.mem .r 1)) (.mem .r 4)) (.mem .r 4)) (.lit 1)),
  -- 64: gRd=-2.0*Qd*SW*SW
  .set .r 11 (.mul (.mul (.mul (.neg (.lit 2)) (.mem .r 1)) (.mem .r 4)) (.mem .r 4))]

/-- `set_masses` (SM/AdZd.cpp:66-76); parameters: 0 `massd`, 1 `massW` -/
def setMasses : List SInstr := [
  -- 67: md=massd
  .set .r 2 (.loc .r 0),
  -- 68: MW=massW
  .set .r 3 (.loc .r 1),
  -- 69: MZ=MW/CW
  .set .r 6 (.div (.mem .r 3) (.mem .r 5)),
  -- 70: p2.set_mass(md)
  .setMass 1 (.mem .r 2),
  -- 71: p3.set_mass(MZ)
  .setMass 2 (.mem .r 6),
  -- 72: p4.set_mass(md)
  .setMass 3 (.mem .r 2),
  -- 73: prope.set_mass(md)
  .propMass 0 (.mem .r 2),
  -- 75: preTU=2.0*e*e*Qd/(2.0*MW*SW)
  .set .r 8 (.div (.mul (.mul (.mul (.lit 2) (.mem .r 0)) (.mem .r 0)) (.mem .r 1)) (.mul (.mul (.lit 2) (.mem .r 3)) (.mem .r 4)))]

/-- `set_momenta` (SM/AdZd.cpp:77-111); parameters: 0 `mom1`, 1 `mom2`, 2 `mom3`, 3 `mom4` -/
def setMomenta : List SInstr := [
  -- 79: p1.set_momentum(mom1)
  .setMom 0 0,
  -- 80: p2.set_momentum(mom2)
  .setMom 1 1,
  -- 81: p3.set_momentum(mom3)
  .setMom 2 2,
  -- 82: p4.set_momentum(mom4)
  .setMom 3 3,
  -- 84: s12s.update()
  .update 0,
  -- 85: s13s.update()
  .update 1,
  -- 86: s14s.update()
  .update 2,
  -- 87: a23a.update()
  .update 3,
  -- 88: a34a.update()
  .update 4,
  -- 89: s123a.update()
  .update 5,
  -- 90: s132a.update()
  .update 6,
  -- 91: s134a.update()
  .update 7,
  -- 92: s143a.update()
  .update 8,
  -- 94: a12a.update()
  .update 9,
  -- 95: a13a.update()
  .update 10,
  -- 96: a14a.update()
  .update 11,
  -- 97: s23s.update()
  .update 12,
  -- 98: s34s.update()
  .update 13,
  -- 99: a123s.update()
  .update 14,
  -- 100: a132s.update()
  .update 15,
  -- 101: a134s.update()
  .update 16,
  -- 102: a143s.update()
  .update 17,
  -- 109: pDenS=prope.denominator(propSP)
  .den .c 0 0 (.add 0 1),
  -- 110: pDenU=prope.denominator(propUP)
  .den .c 1 0 (.sub 0 3)]

/-- `cdouble amp(ds1,ds2,ds3,ds4)` (SM/AdZd.cpp:116-152); variables: i 0 `ds1`, i 1 `ds2`, i 2 `ds3`, i 3 `ds4`, c 0 `amplitude`, i 4 `ds3a`, i 5 `ds3b`, i 6 `nCombs`, r 0 `normFactor`, i 7 `i` -/
def m_amp : Method := ⟨4, 
  -- 117: cdouble amplitude
  .seq (.set .c 0 (.ofR (.lit 0))) <|
  -- 122: int nCombs
  .seq (.seti 6 (.loops [2])) <|
  -- 123: ldouble normFactor
  .seq (.set .r 0 (.norm [2])) <|
  -- 124: for(int i=0;i<nCombs;i++)
  .seq (.loop 7 0 false (.var 6) 1 (
    -- 125: get_spinor_spins(ds3,ds3a,ds3b,i)
    .seq (.spins [(2, 4, 5)] (.var 7)) <|
    -- 127: if(ds1>0)
    .ite (.lt (.lit 0) (.var 0)) (
      -- 131: amplitude+=normFactor*preTU*(+gLd*a23a.v(ds2,ds3a)*(MZ*s14s.v(ds4)*s123a.v(ds3b)+md*s13s.v(ds3b)*s134a.v(ds4))+gRd*a34a.v(ds3a,ds4)*(md*s13s.v(ds3b)*s132a.v(ds2)+MZ*s12s.v(ds2)*s143a.v(ds3b)))/pDenU/pDenS
      .set .c 0 (.add (.loc .c 0) (.div (.div (.smul (.mul (.loc .r 0) (.mem .r 8)) (.add (.mul (.smul (.mem .r 10) (.v 3 [.var 1, .var 4])) (.add (.mul (.smul (.mem .r 6) (.v 2 [.var 3])) (.v 5 [.var 5])) (.mul (.smul (.mem .r 2) (.v 1 [.var 5])) (.v 7 [.var 3])))) (.mul (.smul (.mem .r 11) (.v 4 [.var 4, .var 3])) (.add (.mul (.smul (.mem .r 2) (.v 1 [.var 5])) (.v 6 [.var 1])) (.mul (.smul (.mem .r 6) (.v 0 [.var 1])) (.v 8 [.var 5])))))) (.mem .c 1)) (.mem .c 0)))) (
      -- 138: if(ds1<0)
      .ite (.lt (.var 0) (.lit 0)) (
        -- 141: amplitude+=normFactor*preTU*(+gRd*s23s.v(ds2,ds3a)*(MZ*a14a.v(ds4)*a123s.v(ds3b)+md*a13a.v(ds3b)*a134s.v(ds4))+gLd*s34s.v(ds3a,ds4)*(md*a13a.v(ds3b)*a132s.v(ds2)+MZ*a12a.v(ds2)*a143s.v(ds3b)))/pDenU/pDenS
        .set .c 0 (.add (.loc .c 0) (.div (.div (.smul (.mul (.loc .r 0) (.mem .r 8)) (.add (.mul (.smul (.mem .r 11) (.v 12 [.var 1, .var 4])) (.add (.mul (.smul (.mem .r 6) (.v 11 [.var 3])) (.v 14 [.var 5])) (.mul (.smul (.mem .r 2) (.v 10 [.var 5])) (.v 16 [.var 3])))) (.mul (.smul (.mem .r 10) (.v 13 [.var 4, .var 3])) (.add (.mul (.smul (.mem .r 2) (.v 10 [.var 5])) (.v 15 [.var 1])) (.mul (.smul (.mem .r 6) (.v 9 [.var 1])) (.v 17 [.var 5])))))) (.mem .c 1)) (.mem .c 0)))) (
        .skip)))) <|
  -- 151: return amplitude
  .ret .c (.loc .c 0)⟩

/-- `ldouble amp2()` (SM/AdZd.cpp:155-170); variables: r 0 `amp2`, c 0 `M`, i 0 `j1`, i 1 `j2`, i 2 `j3`, i 3 `j4` -/
def m_amp2 : Method := ⟨0, 
  -- 156: ldouble amp2
  .seq (.set .r 0 (.lit 0)) <|
  -- 157: cdouble M
  .seq (.set .c 0 (.ofR (.lit 0))) <|
  -- 160: for(int j1=-2;j1<=2;j1+=4)
  .seq (.loop 0 (-2) true (.lit 2) 4 (
    -- 161: for(int j2=-1;j2<=1;j2+=2)
    .loop 1 (-1) true (.lit 1) 2 (
      -- 162: for(int j3=-2;j3<=2;j3+=2)
      .loop 2 (-2) true (.lit 2) 2 (
        -- 163: for(int j4=-1;j4<=1;j4+=2)
        .loop 3 (-1) true (.lit 1) 2 (
          -- 164: M=amp(j1,j2,j3,j4)
          .seq (.set .c 0 (.call 0 [.var 0, .var 1, .var 2, .var 3])) <|
          -- 165: amp2+=3.0*std::pow(std::abs(M),2)
          .set .r 0 (.add (.loc .r 0) (.mul (.lit 3) (.pow (.abs (.loc .c 0)) 2)))))))) <|
  -- 169: return amp2/12.0
  .ret .r (.div (.loc .r 0) (.lit 12))⟩

/-- `ldouble amp2_Aplus()` (SM/AdZd.cpp:172-186); variables: r 0 `amp2`, c 0 `M`, i 0 `j2`, i 1 `j3`, i 2 `j4` -/
def m_amp2_Aplus : Method := ⟨0, 
  -- 173: ldouble amp2
  .seq (.set .r 0 (.lit 0)) <|
  -- 174: cdouble M
  .seq (.set .c 0 (.ofR (.lit 0))) <|
  -- 177: for(int j2=-1;j2<=1;j2+=2)
  .seq (.loop 0 (-1) true (.lit 1) 2 (
    -- 178: for(int j3=-2;j3<=2;j3+=2)
    .loop 1 (-2) true (.lit 2) 2 (
      -- 179: for(int j4=-1;j4<=1;j4+=2)
      .loop 2 (-1) true (.lit 1) 2 (
        -- 180: M=amp(2,j2,j3,j4)
        .seq (.set .c 0 (.call 0 [.lit 2, .var 0, .var 1, .var 2])) <|
        -- 181: amp2+=3.0*std::pow(std::abs(M),2)
        .set .r 0 (.add (.loc .r 0) (.mul (.lit 3) (.pow (.abs (.loc .c 0)) 2))))))) <|
  -- 185: return amp2/6.0
  .ret .r (.div (.loc .r 0) (.lit 6))⟩

/-- `ldouble amp2_Aminus()` (SM/AdZd.cpp:188-202); variables: r 0 `amp2`, c 0 `M`, i 0 `j2`, i 1 `j3`, i 2 `j4` -/
def m_amp2_Aminus : Method := ⟨0, 
  -- 189: ldouble amp2
  .seq (.set .r 0 (.lit 0)) <|
  -- 190: cdouble M
  .seq (.set .c 0 (.ofR (.lit 0))) <|
  -- 193: for(int j2=-1;j2<=1;j2+=2)
  .seq (.loop 0 (-1) true (.lit 1) 2 (
    -- 194: for(int j3=-2;j3<=2;j3+=2)
    .loop 1 (-2) true (.lit 2) 2 (
      -- 195: for(int j4=-1;j4<=1;j4+=2)
      .loop 2 (-1) true (.lit 1) 2 (
        -- 196: M=amp(-2,j2,j3,j4)
        .seq (.set .c 0 (.call 0 [.lit (-2), .var 0, .var 1, .var 2])) <|
        -- 197: amp2+=3.0*std::pow(std::abs(M),2)
        .set .r 0 (.add (.loc .r 0) (.mul (.lit 3) (.pow (.abs (.loc .c 0)) 2))))))) <|
  -- 201: return amp2/6.0
  .ret .r (.div (.loc .r 0) (.lit 6))⟩

end AdZd

/-- `class AdZd` (SM/AdZd.cpp, SM/include/AdZd.h:25-35).  Members:
* ldouble: 0 `e`, 1 `Qd`, 2 `md`, 3 `MW`, 4 `SW`, 5 `CW`, 6 `MZ`, 7 `sqrt2`, 8 `preTU`, 9 `preh`, 10 `gLd`, 11 `gRd`
* cdouble: 0 `pDenS`, 1 `pDenU`
* propagator: 0 `prope`
* sproduct: 0 `s12s`, 1 `s13s`, 2 `s14s`, 3 `a23a`, 4 `a34a`, 5 `s123a`, 6 `s132a`, 7 `s134a`, 8 `s143a`, 9 `a12a`, 10 `a13a`, 11 `a14a`, 12 `s23s`, 13 `s34s`, 14 `a123s`, 15 `a132s`, 16 `a134s`, 17 `a143s` -/
def AdZd : Proc where
  name := "AdZd"
  nPar := 4
  ctor := AdZd.ctor
  setMasses := AdZd.setMasses
  massPar := [1, 2]
  setMomenta := AdZd.setMomenta
  methods := [AdZd.m_amp2_Aminus, AdZd.m_amp2_Aplus, AdZd.m_amp2, AdZd.m_amp]
  amp2 := 1
  others := [("amp2_Aplus", 2), ("amp2_Aminus", 3)]

namespace AeZe

/-- constructor (SM/AeZe.cpp:32-65); parameters: 0 `echarge`, 1 `masse`, 2 `massW`, 3 `sinW` -/
def ctor : List SInstr := [
  -- 32: e(echarge)
  .set .r 0 (.loc .r 0),
  -- 32: me(masse)
  .set .r 1 (.loc .r 1),
  -- 32: MW(massW)
  .set .r 2 (.loc .r 2),
  -- 32: SW(sinW)
  .set .r 3 (.loc .r 3),
  -- 32: CW(std::sqrt(1.0-sinW*sinW))
  .set .r 4 (.sqrt (.sub (.lit 1) (.mul (.loc .r 3) (.loc .r 3)))),
  -- 32: MZ(massW/CW)
  .set .r 5 (.div (.loc .r 2) (.mem .r 4)),
  -- 32: prope(masse,0)
  .prop 0 (.loc .r 1) (.lit 0),
  -- 35: sqrt2=std::sqrt(two)
  .set .r 6 (.sqrt (.lit 2)),
  -- 36: MZ=MW/CW
  .set .r 5 (.div (.mem .r 2) (.mem .r 4)),
  -- 37: p1=particle(0)
  .part 0 (.lit 0),
  -- 38: p2=particle(me)
  .part 1 (.mem .r 1),
  -- 39: p3=particle(MZ)
  .part 2 (.mem .r 5),
  -- 40: p4=particle(me)
  .part 3 (.mem .r 1),
  -- 42: s12s=sproduct(SQUARE,&p1,&p2)
  .sprod 0 ⟨false, 0, true, [], 1, true⟩,
  -- 43: s13s=sproduct(SQUARE,&p1,&p3)
  .sprod 2 ⟨false, 0, true, [], 2, true⟩,
  -- 44: s14s=sproduct(SQUARE,&p1,&p4)
  .sprod 4 ⟨false, 0, true, [], 3, true⟩,
  -- 45: a23a=sproduct(ANGLE,&p2,&p3)
  .sprod 6 ⟨true, 1, true, [], 2, true⟩,
  -- 46: a34a=sproduct(ANGLE,&p3,&p4)
  .sprod 8 ⟨true, 2, true, [], 3, true⟩,
  -- 47: s123a=sproduct(SQUARE,&p1,&p2,&p3)
  .sprod 10 ⟨false, 0, true, [1], 2, true⟩,
  -- 48: s132a=sproduct(SQUARE,&p1,&p3,&p2)
  .sprod 12 ⟨false, 0, true, [2], 1, true⟩,
  -- 49: s134a=sproduct(SQUARE,&p1,&p3,&p4)
  .sprod 14 ⟨false, 0, true, [2], 3, true⟩,
  -- 50: s143a=sproduct(SQUARE,&p1,&p4,&p3)
  .sprod 16 ⟨false, 0, true, [3], 2, true⟩,
  -- 52: a12a=sproduct(ANGLE,&p1,&p2)
  .sprod 1 ⟨true, 0, true, [], 1, true⟩,
  -- 53: a13a=sproduct(ANGLE,&p1,&p3)
  .sprod 3 ⟨true, 0, true, [], 2, true⟩,
  -- 54: a14a=sproduct(ANGLE,&p1,&p4)
  .sprod 5 ⟨true, 0, true, [], 3, true⟩,
  -- 55: s23s=sproduct(SQUARE,&p2,&p3)
  .sprod 7 ⟨false, 1, true, [], 2, true⟩,
  -- 56: s34s=sproduct(SQUARE,&p3,&p4)
  .sprod 9 ⟨false, 2, true, [], 3, true⟩,
  -- 57: a123s=sproduct(ANGLE,&p1,&p2,&p3)
  .sprod 11 ⟨true, 0, true, [1], 2, true⟩,
  -- 58: a132s=sproduct(ANGLE,&p1,&p3,&p2)
  .sprod 13 ⟨true, 0, true, [2], 1, true⟩,
  -- 59: a134s=sproduct(ANGLE,&p1,&p3,&p4)
  .sprod 15 ⟨true, 0, true, [2], 3, true⟩,
  -- 60: a143s=sproduct(ANGLE,&p1,&p4,&p3)
  .sprod 17 ⟨true, 0, true, [3], 2, true⟩,
  -- 62: preSU=e*e/(MW*SW)
  .set .r 7 (.div (.mul (.mem .r 0) (.mem .r 0)) (.mul (.mem .r 2) (.mem .r 3))),
  -- 63: gL=2.0*SW*SW-1.0
  .set .r 9 (.sub (.mul (.mul (.lit 2) (.mem .r 3)) (.mem .r 3)) (.lit 1)),
  -- 64: gR=2.0*SW*SW
  .set .r 10 (.mul (.mul (.lit 2) (.mem .r 3)) (.mem .r 3))]

/-- `set_masses` (SM/AeZe.cpp:66-76); parameters: 0 `masse`, 1 `massW` -/
def setMasses : List SInstr := [
  -- 67: me=masse
  .set .r 1 (.loc .r 0),
  -- 68: MW=massW
  .set .r 2 (.loc .r 1),
  -- 69: MZ=MW/CW
  .set .r 5 (.div (.mem .r 2) (.mem .r 4)),
  -- 70: p2.set_mass(me)
  .setMass 1 (.mem .r 1),
  -- 71: p3.set_mass(MZ)
  .setMass 2 (.mem .r 5),
  -- 72: p4.set_mass(me)
  .setMass 3 (.mem .r 1),
  -- 73: prope.set_mass(me)
  .propMass 0 (.mem .r 1),
  -- 75: preSU=e*e/(MW*SW)
  .set .r 7 (.div (.mul (.mem .r 0) (.mem .r 0)) (.mul (.mem .r 2) (.mem .r 3)))]

/-- `set_momenta` (SM/AeZe.cpp:77-111); parameters: 0 `mom1`, 1 `mom2`, 2 `mom3`, 3 `mom4` -/
def setMomenta : List SInstr := [
  -- 79: p1.set_momentum(mom1)
  .setMom 0 0,
  -- 80: p2.set_momentum(mom2)
  .setMom 1 1,
  -- 81: p3.set_momentum(mom3)
  .setMom 2 2,
  -- 82: p4.set_momentum(mom4)
  .setMom 3 3,
  -- 84: s12s.update()
  .update 0,
  -- 85: s13s.update()
  .update 2,
  -- 86: s14s.update()
  .update 4,
  -- 87: a23a.update()
  .update 6,
  -- 88: a34a.update()
  .update 8,
  -- 89: s123a.update()
  .update 10,
  -- 90: s132a.update()
  .update 12,
  -- 91: s134a.update()
  .update 14,
  -- 92: s143a.update()
  .update 16,
  -- 94: a12a.update()
  .update 1,
  -- 95: a13a.update()
  .update 3,
  -- 96: a14a.update()
  .update 5,
  -- 97: s23s.update()
  .update 7,
  -- 98: s34s.update()
  .update 9,
  -- 99: a123s.update()
  .update 11,
  -- 100: a132s.update()
  .update 13,
  -- 101: a134s.update()
  .update 15,
  -- 102: a143s.update()
  .update 17,
  -- 109: pDenU=prope.denominator(propUP)
  .den .c 0 0 (.sub 0 3),
  -- 110: pDenS=prope.denominator(propSP)
  .den .c 1 0 (.add 0 1)]

/-- `cdouble amp(ds1,ds2,ds3,ds4)` (SM/AeZe.cpp:116-154); variables: i 0 `ds1`, i 1 `ds2`, i 2 `ds3`, i 3 `ds4`, c 0 `amplitude`, i 4 `ds3a`, i 5 `ds3b`, i 6 `nCombs`, r 0 `normFactor`, i 7 `i` -/
def m_amp : Method := ⟨4, 
  -- 117: cdouble amplitude
  .seq (.set .c 0 (.ofR (.lit 0))) <|
  -- 122: int nCombs
  .seq (.seti 6 (.loops [2])) <|
  -- 123: ldouble normFactor
  .seq (.set .r 0 (.norm [2])) <|
  -- 124: for(int i=0;i<nCombs;i++)
  .seq (.loop 7 0 false (.var 6) 1 (
    -- 125: get_spinor_spins(ds3,ds3a,ds3b,i)
    .seq (.spins [(2, 4, 5)] (.var 7)) <|
    -- 129: if(ds1>0)
    .ite (.lt (.lit 0) (.var 0)) (
      -- 135: amplitude+=normFactor*preSU*(+gL*a23a.v(ds2,ds3a)*(MZ*s14s.v(ds4)*s123a.v(ds3b)+me*s13s.v(ds3b)*s134a.v(ds4))+gR*a34a.v(ds3a,ds4)*(me*s13s.v(ds3b)*s132a.v(ds2)+MZ*s12s.v(ds2)*s143a.v(ds3b)))/pDenS/pDenU
      .set .c 0 (.add (.loc .c 0) (.div (.div (.smul (.mul (.loc .r 0) (.mem .r 7)) (.add (.mul (.smul (.mem .r 9) (.v 6 [.var 1, .var 4])) (.add (.mul (.smul (.mem .r 5) (.v 4 [.var 3])) (.v 10 [.var 5])) (.mul (.smul (.mem .r 1) (.v 2 [.var 5])) (.v 14 [.var 3])))) (.mul (.smul (.mem .r 10) (.v 8 [.var 4, .var 3])) (.add (.mul (.smul (.mem .r 1) (.v 2 [.var 5])) (.v 12 [.var 1])) (.mul (.smul (.mem .r 5) (.v 0 [.var 1])) (.v 16 [.var 5])))))) (.mem .c 1)) (.mem .c 0)))) (
      -- 141: if(ds1<0)
      .ite (.lt (.var 0) (.lit 0)) (
        -- 142: amplitude+=normFactor*preSU*(+gR*(MZ*a14a.v(ds4)*s23s.v(ds2,ds3a)*a123s.v(ds3b)+me*a13a.v(ds3a)*s23s.v(ds2,ds3b)*a134s.v(ds4))+gL*(me*a13a.v(ds3a)*s34s.v(ds3b,ds4)*a132s.v(ds2)+MZ*a12a.v(ds2)*s34s.v(ds3a,ds4)*a143s.v(ds3b)))/pDenS/pDenU
        .set .c 0 (.add (.loc .c 0) (.div (.div (.smul (.mul (.loc .r 0) (.mem .r 7)) (.add (.smul (.mem .r 10) (.add (.mul (.mul (.smul (.mem .r 5) (.v 5 [.var 3])) (.v 7 [.var 1, .var 4])) (.v 11 [.var 5])) (.mul (.mul (.smul (.mem .r 1) (.v 3 [.var 4])) (.v 7 [.var 1, .var 5])) (.v 15 [.var 3])))) (.smul (.mem .r 9) (.add (.mul (.mul (.smul (.mem .r 1) (.v 3 [.var 4])) (.v 9 [.var 5, .var 3])) (.v 13 [.var 1])) (.mul (.mul (.smul (.mem .r 5) (.v 1 [.var 1])) (.v 9 [.var 4, .var 3])) (.v 17 [.var 5])))))) (.mem .c 1)) (.mem .c 0)))) (
        .skip)))) <|
  -- 153: return amplitude
  .ret .c (.loc .c 0)⟩

/-- `ldouble amp2()` (SM/AeZe.cpp:157-171); variables: r 0 `amp2`, c 0 `M`, i 0 `j1`, i 1 `j2`, i 2 `j3`, i 3 `j4` -/
def m_amp2 : Method := ⟨0, 
  -- 158: ldouble amp2
  .seq (.set .r 0 (.lit 0)) <|
  -- 159: cdouble M
  .seq (.set .c 0 (.ofR (.lit 0))) <|
  -- 162: for(int j1=-2;j1<=2;j1+=4)
  .seq (.loop 0 (-2) true (.lit 2) 4 (
    -- 163: for(int j2=-1;j2<=1;j2+=2)
    .loop 1 (-1) true (.lit 1) 2 (
      -- 164: for(int j3=-2;j3<=2;j3+=2)
      .loop 2 (-2) true (.lit 2) 2 (
        -- 165: for(int j4=-1;j4<=1;j4+=2)
        .loop 3 (-1) true (.lit 1) 2 (
          -- 166: M=amp(j1,j2,j3,j4)
          .seq (.set .c 0 (.call 0 [.var 0, .var 1, .var 2, .var 3])) <|
          -- 167: amp2+=std::pow(std::abs(M),2)
          .set .r 0 (.add (.loc .r 0) (.pow (.abs (.loc .c 0)) 2))))))) <|
  -- 170: return amp2/4.0
  .ret .r (.div (.loc .r 0) (.lit 4))⟩

/-- `ldouble amp2_Aplus()` (SM/AeZe.cpp:173-186); variables: r 0 `amp2`, c 0 `M`, i 0 `j2`, i 1 `j3`, i 2 `j4` -/
def m_amp2_Aplus : Method := ⟨0, 
  -- 174: ldouble amp2
  .seq (.set .r 0 (.lit 0)) <|
  -- 175: cdouble M
  .seq (.set .c 0 (.ofR (.lit 0))) <|
  -- 178: for(int j2=-1;j2<=1;j2+=2)
  .seq (.loop 0 (-1) true (.lit 1) 2 (
    -- 179: for(int j3=-2;j3<=2;j3+=2)
    .loop 1 (-2) true (.lit 2) 2 (
      -- 180: for(int j4=-1;j4<=1;j4+=2)
      .loop 2 (-1) true (.lit 1) 2 (
        -- 181: M=amp(2,j2,j3,j4)
        .seq (.set .c 0 (.call 0 [.lit 2, .var 0, .var 1, .var 2])) <|
        -- 182: amp2+=std::pow(std::abs(M),2)
        .set .r 0 (.add (.loc .r 0) (.pow (.abs (.loc .c 0)) 2)))))) <|
  -- 185: return amp2/2.0
  .ret .r (.div (.loc .r 0) (.lit 2))⟩

/-- `ldouble amp2_Aminus()` (SM/AeZe.cpp:188-201); variables: r 0 `amp2`, c 0 `M`, i 0 `j2`, i 1 `j3`, i 2 `j4` -/
def m_amp2_Aminus : Method := ⟨0, 
  -- 189: ldouble amp2
  .seq (.set .r 0 (.lit 0)) <|
  -- 190: cdouble M
  .seq (.set .c 0 (.ofR (.lit 0))) <|
  -- 193: for(int j2=-1;j2<=1;j2+=2)
  .seq (.loop 0 (-1) true (.lit 1) 2 (
    -- 194: for(int j3=-2;j3<=2;j3+=2)
    .loop 1 (-2) true (.lit 2) 2 (
      -- 195: for(int j4=-1;j4<=1;j4+=2)
      .loop 2 (-1) true (.lit 1) 2 (
        -- 196: M=amp(-2,j2,j3,j4)
        .seq (.set .c 0 (.call 0 [.lit (-2), .var 0, .var 1, .var 2])) <|
        -- 197: amp2+=std::pow(std::abs(M),2)
        .set .r 0 (.add (.loc .r 0) (.pow (.abs (.loc .c 0)) 2)))))) <|
  -- 200: return amp2/2.0
  .ret .r (.div (.loc .r 0) (.lit 2))⟩

end AeZe

/-- `class AeZe` (SM/AeZe.cpp, SM/include/AeZe.h:25-34).  Members:
* ldouble: 0 `e`, 1 `me`, 2 `MW`, 3 `SW`, 4 `CW`, 5 `MZ`, 6 `sqrt2`, 7 `preSU`, 8 `preh`, 9 `gL`, 10 `gR`
* cdouble: 0 `pDenU`, 1 `pDenS`
* propagator: 0 `prope`
* sproduct: 0 `s12s`, 1 `a12a`, 2 `s13s`, 3 `a13a`, 4 `s14s`, 5 `a14a`, 6 `a23a`, 7 `s23s`, 8 `a34a`, 9 `s34s`, 10 `s123a`, 11 `a123s`, 12 `s132a`, 13 `a132s`, 14 `s134a`, 15 `a134s`, 16 `s143a`, 17 `a143s` -/
def AeZe : Proc where
  name := "AeZe"
  nPar := 4
  ctor := AeZe.ctor
  setMasses := AeZe.setMasses
  massPar := [1, 2]
  setMomenta := AeZe.setMomenta
  methods := [AeZe.m_amp2_Aminus, AeZe.m_amp2_Aplus, AeZe.m_amp2, AeZe.m_amp]
  amp2 := 1
  others := [("amp2_Aplus", 2), ("amp2_Aminus", 3)]

namespace AhWW

/-- constructor (SM/AhWW.cpp:32-56); parameters: 0 `echarge`, 1 `massh`, 2 `massW`, 3 `sinW`, 4 `widthW` -/
def ctor : List SInstr := [
  -- 32: e(echarge)
  .set .r 0 (.loc .r 0),
  -- 32: mh(massh)
  .set .r 1 (.loc .r 1),
  -- 32: MW(massW)
  .set .r 2 (.loc .r 2),
  -- 32: SW(sinW)
  .set .r 3 (.loc .r 3),
  -- 32: CW(std::sqrt(1.0-sinW*sinW))
  .set .r 4 (.sqrt (.sub (.lit 1) (.mul (.loc .r 3) (.loc .r 3)))),
  -- 32: WW(widthW)
  .set .r 5 (.loc .r 4),
  -- 35: sqrt2=std::sqrt(two)
  .set .r 6 (.sqrt (.lit 2)),
  -- 36: CW=std::sqrt(1.0-sinW*sinW)
  .set .r 4 (.sqrt (.sub (.lit 1) (.mul (.loc .r 3) (.loc .r 3)))),
  -- 37: propW=propagator(MW,WW)
  .prop 0 (.mem .r 2) (.mem .r 5),
  -- 38: p1=particle(0)
  .part 0 (.lit 0),
  -- 39: p2=particle(mh)
  .part 1 (.mem .r 1),
  -- 40: p3=particle(MW)
  .part 2 (.mem .r 2),
  -- 41: p4=particle(MW)
  .part 3 (.mem .r 2),
  -- 43: s34s=sproduct(SQUARE,&p3,&p4)
  .sprod 1 ⟨false, 2, true, [], 3, true⟩,
  -- 44: a34a=sproduct(ANGLE,&p3,&p4)
  .sprod 0 ⟨true, 2, true, [], 3, true⟩,
  -- 45: s14s=sproduct(SQUARE,&p1,&p4)
  .sprod 3 ⟨false, 0, true, [], 3, true⟩,
  -- 46: a14a=sproduct(ANGLE,&p1,&p4)
  .sprod 2 ⟨true, 0, true, [], 3, true⟩,
  -- 47: s13s=sproduct(SQUARE,&p1,&p3)
  .sprod 5 ⟨false, 0, true, [], 2, true⟩,
  -- 48: a13a=sproduct(ANGLE,&p1,&p3)
  .sprod 4 ⟨true, 0, true, [], 2, true⟩,
  -- 50: s123a=sproduct(SQUARE,&p1,&p2,&p3)
  .sprod 6 ⟨false, 0, true, [1], 2, true⟩,
  -- 51: s124a=sproduct(SQUARE,&p1,&p2,&p4)
  .sprod 7 ⟨false, 0, true, [1], 3, true⟩,
  -- 52: s321a=sproduct(SQUARE,&p3,&p2,&p1)
  .sprod 8 ⟨false, 2, true, [1], 0, true⟩,
  -- 53: s421a=sproduct(SQUARE,&p4,&p2,&p1)
  .sprod 9 ⟨false, 3, true, [1], 0, true⟩,
  -- 55: pre=sqrt2*e*e/(MW*SW)
  .set .r 7 (.div (.mul (.mul (.mem .r 6) (.mem .r 0)) (.mem .r 0)) (.mul (.mem .r 2) (.mem .r 3)))]

/-- `set_masses` (SM/AhWW.cpp:57-66); parameters: 0 `massh`, 1 `massW` -/
def setMasses : List SInstr := [
  -- 58: mh=massh
  .set .r 1 (.loc .r 0),
  -- 59: MW=massW
  .set .r 2 (.loc .r 1),
  -- 60: p2.set_mass(mh)
  .setMass 1 (.mem .r 1),
  -- 61: p3.set_mass(MW)
  .setMass 2 (.mem .r 2),
  -- 62: p4.set_mass(MW)
  .setMass 3 (.mem .r 2),
  -- 63: propW.set_mass(MW)
  .propMass 0 (.mem .r 2),
  -- 65: pre=sqrt2*e*e/(MW*SW)
  .set .r 7 (.div (.mul (.mul (.mem .r 6) (.mem .r 0)) (.mem .r 0)) (.mul (.mem .r 2) (.mem .r 3)))]

/-- `set_momenta` (SM/AhWW.cpp:67-93); parameters: 0 `mom1`, 1 `mom2`, 2 `mom3`, 3 `mom4` -/
def setMomenta : List SInstr := [
  -- 69: p1.set_momentum(mom1)
  .setMom 0 0,
  -- 70: p2.set_momentum(mom2)
  .setMom 1 1,
  -- 71: p3.set_momentum(mom3)
  .setMom 2 2,
  -- 72: p4.set_momentum(mom4)
  .setMom 3 3,
  -- 74: s34s.update()
  .update 1,
  -- 75: a34a.update()
  .update 0,
  -- 76: s14s.update()
  .update 3,
  -- 77: a14a.update()
  .update 2,
  -- 78: s13s.update()
  .update 5,
  -- 79: a13a.update()
  .update 4,
  -- 81: s123a.update()
  .update 6,
  -- 82: s124a.update()
  .update 7,
  -- 83: s321a.update()
  .update 8,
  -- 84: s421a.update()
  .update 9,
  -- 91: pDenT=propW.denominator(propTP)
  .den .c 1 0 (.sub 0 2),
  -- 92: pDenU=propW.denominator(propUP)
  .den .c 2 0 (.sub 0 3)]

/-- `cdouble amp(ds1,ds3,ds4)` (SM/AhWW.cpp:98-135); variables: i 0 `ds1`, i 1 `ds3`, i 2 `ds4`, c 0 `amplitude`, i 3 `ds3a`, i 4 `ds3b`, i 5 `ds4a`, i 6 `ds4b`, i 7 `nCombs`, r 0 `normFactor`, i 8 `i` -/
def m_amp : Method := ⟨3, 
  -- 99: cdouble amplitude
  .seq (.set .c 0 (.ofR (.lit 0))) <|
  -- 104: int nCombs
  .seq (.seti 7 (.loops [1, 2])) <|
  -- 105: ldouble normFactor
  .seq (.set .r 0 (.norm [1, 2])) <|
  -- 107: for(int i=0;i<nCombs;i++)
  .seq (.loop 8 0 false (.var 7) 1 (
    -- 108: get_spinor_spins(ds3,ds3a,ds3b,ds4,ds4a,ds4b,i)
    .seq (.spins [(1, 3, 4), (2, 5, 6)] (.var 8)) <|
    -- 112: if(ds1>0)
    .ite (.lt (.lit 0) (.var 0)) (
      -- 119: amplitude+=normFactor*pre*a34a.v(ds3a,ds4a)*(mh*mh*s13s.v(ds3b)*s14s.v(ds4b)+MW*(s14s.v(ds4b)*s123a.v(ds3b)+s13s.v(ds3b)*s124a.v(ds4b)))/pDenT/pDenU
      .set .c 0 (.add (.loc .c 0) (.div (.div (.mul (.smul (.mul (.loc .r 0) (.mem .r 7)) (.v 0 [.var 3, .var 5])) (.add (.mul (.smul (.mul (.mem .r 1) (.mem .r 1)) (.v 5 [.var 4])) (.v 3 [.var 6])) (.smul (.mem .r 2) (.add (.mul (.v 3 [.var 6]) (.v 6 [.var 4])) (.mul (.v 5 [.var 4]) (.v 7 [.var 6])))))) (.mem .c 1)) (.mem .c 2)))) (
      -- 123: if(ds1<0)
      .ite (.lt (.var 0) (.lit 0)) (
        -- 124: amplitude+=normFactor*pre*s34s.v(ds3a,ds4a)*(mh*mh*a13a.v(ds3b)*a14a.v(ds4b)+MW*(a14a.v(ds4b)*s321a.v(ds3b)+a13a.v(ds3b)*s421a.v(ds4b)))/pDenT/pDenU
        .set .c 0 (.add (.loc .c 0) (.div (.div (.mul (.smul (.mul (.loc .r 0) (.mem .r 7)) (.v 1 [.var 3, .var 5])) (.add (.mul (.smul (.mul (.mem .r 1) (.mem .r 1)) (.v 4 [.var 4])) (.v 2 [.var 6])) (.smul (.mem .r 2) (.add (.mul (.v 2 [.var 6]) (.v 8 [.var 4])) (.mul (.v 4 [.var 4]) (.v 9 [.var 6])))))) (.mem .c 1)) (.mem .c 2)))) (
        .skip)))) <|
  -- 134: return amplitude
  .ret .c (.loc .c 0)⟩

/-- `ldouble amp2()` (SM/AhWW.cpp:138-151); variables: r 0 `amp2`, c 0 `M`, i 0 `j1`, i 1 `j3`, i 2 `j4` -/
def m_amp2 : Method := ⟨0, 
  -- 139: ldouble amp2
  .seq (.set .r 0 (.lit 0)) <|
  -- 140: cdouble M
  .seq (.set .c 0 (.ofR (.lit 0))) <|
  -- 143: for(int j1=-2;j1<=2;j1+=4)
  .seq (.loop 0 (-2) true (.lit 2) 4 (
    -- 144: for(int j3=-2;j3<=2;j3+=2)
    .loop 1 (-2) true (.lit 2) 2 (
      -- 145: for(int j4=-2;j4<=2;j4+=2)
      .loop 2 (-2) true (.lit 2) 2 (
        -- 146: M=amp(j1,j3,j4)
        .seq (.set .c 0 (.call 0 [.var 0, .var 1, .var 2])) <|
        -- 147: amp2+=std::pow(std::abs(M),2)
        .set .r 0 (.add (.loc .r 0) (.pow (.abs (.loc .c 0)) 2)))))) <|
  -- 150: return amp2/2.0
  .ret .r (.div (.loc .r 0) (.lit 2))⟩

/-- `ldouble amp2_Aplus()` (SM/AhWW.cpp:154-165); variables: r 0 `amp2`, c 0 `M`, i 0 `j3`, i 1 `j4` -/
def m_amp2_Aplus : Method := ⟨0, 
  -- 155: ldouble amp2
  .seq (.set .r 0 (.lit 0)) <|
  -- 156: cdouble M
  .seq (.set .c 0 (.ofR (.lit 0))) <|
  -- 159: for(int j3=-2;j3<=2;j3+=2)
  .seq (.loop 0 (-2) true (.lit 2) 2 (
    -- 160: for(int j4=-2;j4<=2;j4+=2)
    .loop 1 (-2) true (.lit 2) 2 (
      -- 161: M=amp(2,j3,j4)
      .seq (.set .c 0 (.call 0 [.lit 2, .var 0, .var 1])) <|
      -- 162: amp2+=std::pow(std::abs(M),2)
      .set .r 0 (.add (.loc .r 0) (.pow (.abs (.loc .c 0)) 2))))) <|
  -- 164: return amp2
  .ret .r (.loc .r 0)⟩

end AhWW

/-- `class AhWW` (SM/AhWW.cpp, SM/include/AhWW.h:25-36).  Members:
* ldouble: 0 `e`, 1 `mh`, 2 `MW`, 3 `SW`, 4 `CW`, 5 `WW`, 6 `sqrt2`, 7 `pre`
* cdouble: 0 `pDenS`, 1 `pDenT`, 2 `pDenU`
* propagator: 0 `propW`
* sproduct: 0 `a34a`, 1 `s34s`, 2 `a14a`, 3 `s14s`, 4 `a13a`, 5 `s13s`, 6 `s123a`, 7 `s124a`, 8 `s321a`, 9 `s421a` -/
def AhWW : Proc where
  name := "AhWW"
  nPar := 5
  ctor := AhWW.ctor
  setMasses := AhWW.setMasses
  massPar := [1, 2]
  setMomenta := AhWW.setMomenta
  methods := [AhWW.m_amp2_Aplus, AhWW.m_amp2, AhWW.m_amp]
  amp2 := 1
  others := [("amp2_Aplus", 2)]

namespace AnWe

/-- constructor (SM/AnWe.cpp:32-54); parameters: 0 `echarge`, 1 `masse`, 2 `massW`, 3 `sinW`, 4 `widthW` -/
def ctor : List SInstr := [
  -- 32: e(echarge)
  .set .r 0 (.loc .r 0),
  -- 32: me(masse)
  .set .r 1 (.loc .r 1),
  -- 32: MW(massW)
  .set .r 2 (.loc .r 2),
  -- 32: SW(sinW)
  .set .r 3 (.loc .r 3),
  -- 32: WW(widthW)
  .set .r 4 (.loc .r 4),
  -- 35: propW=propagator(MW,WW)
  .prop 0 (.mem .r 2) (.mem .r 4),
  -- 36: prope=propagator(me,0)
  .prop 1 (.mem .r 1) (.lit 0),
  -- 37: p1=particle(0)
  .part 0 (.lit 0),
  -- 38: p2=particle(0)
  .part 1 (.lit 0),
  -- 39: p3=particle(MW)
  .part 2 (.mem .r 2),
  -- 40: p4=particle(me)
  .part 3 (.mem .r 1),
  -- 42: s13s=sproduct(SQUARE,&p1,&p3)
  .sprod 0 ⟨false, 0, true, [], 2, true⟩,
  -- 43: a42a=sproduct(ANGLE,&p4,&p2)
  .sprod 1 ⟨true, 3, true, [], 1, true⟩,
  -- 44: a23a=sproduct(ANGLE,&p2,&p3)
  .sprod 2 ⟨true, 1, true, [], 2, true⟩,
  -- 45: s41s=sproduct(SQUARE,&p4,&p1)
  .sprod 3 ⟨false, 3, true, [], 0, true⟩,
  -- 46: s143a=sproduct(SQUARE,&p1,&p4,&p3)
  .sprod 4 ⟨false, 0, true, [3], 2, true⟩,
  -- 48: a21a=sproduct(ANGLE,&p2,&p1)
  .sprod 5 ⟨true, 1, true, [], 0, true⟩,
  -- 49: s43s=sproduct(SQUARE,&p4,&p3)
  .sprod 6 ⟨false, 3, true, [], 2, true⟩,
  -- 50: a13a=sproduct(ANGLE,&p1,&p3)
  .sprod 7 ⟨true, 0, true, [], 2, true⟩,
  -- 51: s341a=sproduct(SQUARE,&p3,&p4,&p1)
  .sprod 8 ⟨false, 2, true, [3], 0, true⟩,
  -- 53: pre=std::sqrt(2.0)*e*e/(MW*SW)
  .set .r 5 (.div (.mul (.mul (.sqrt (.lit 2)) (.mem .r 0)) (.mem .r 0)) (.mul (.mem .r 2) (.mem .r 3)))]

/-- `set_masses` (SM/AnWe.cpp:55-64); parameters: 0 `masse`, 1 `massW` -/
def setMasses : List SInstr := [
  -- 57: me=masse
  .set .r 1 (.loc .r 0),
  -- 58: MW=massW
  .set .r 2 (.loc .r 1),
  -- 59: p3.set_mass(MW)
  .setMass 2 (.mem .r 2),
  -- 60: p4.set_mass(me)
  .setMass 3 (.mem .r 1),
  -- 61: propW.set_mass(MW)
  .propMass 0 (.mem .r 2),
  -- 62: prope.set_mass(me)
  .propMass 1 (.mem .r 1),
  -- 63: pre=std::sqrt(2.0)*e*e/(MW*SW)
  .set .r 5 (.div (.mul (.mul (.sqrt (.lit 2)) (.mem .r 0)) (.mem .r 0)) (.mul (.mem .r 2) (.mem .r 3)))]

/-- `set_momenta` (SM/AnWe.cpp:65-90); parameters: 0 `mom1`, 1 `mom2`, 2 `mom3`, 3 `mom4` -/
def setMomenta : List SInstr := [
  -- 67: p1.set_momentum(mom1)
  .setMom 0 0,
  -- 68: p2.set_momentum(mom2)
  .setMom 1 1,
  -- 69: p3.set_momentum(mom3)
  .setMom 2 2,
  -- 70: p4.set_momentum(mom4)
  .setMom 3 3,
  -- 72: s13s.update()
  .update 0,
  -- 73: a42a.update()
  .update 1,
  -- 74: a23a.update()
  .update 2,
  -- 75: s41s.update()
  .update 3,
  -- 76: s143a.update()
  .update 4,
  -- 78: a21a.update()
  .update 5,
  -- 79: s43s.update()
  .update 6,
  -- 80: a13a.update()
  .update 7,
  -- 81: s341a.update()
  .update 8,
  -- 88: pDenT=propW.denominator(propTP)
  .den .c 0 0 (.sub 0 2),
  -- 89: pDenU=prope.denominator(propUP)
  .den .c 1 1 (.sub 0 3)]

/-- `cdouble amp(ds1,ds3,ds4)` (SM/AnWe.cpp:95-138); variables: i 0 `ds1`, i 1 `ds3`, i 2 `ds4`, c 0 `amplitude`, i 3 `ds3a`, i 4 `ds3b`, i 5 `nCombs`, r 0 `normFactor`, i 6 `i` -/
def m_amp : Method := ⟨3, 
  -- 96: cdouble amplitude
  .seq (.set .c 0 (.ofR (.lit 0))) <|
  -- 100: int nCombs
  .seq (.seti 5 (.loops [1])) <|
  -- 101: ldouble normFactor
  .seq (.set .r 0 (.norm [1])) <|
  -- 103: for(int i=0;i<nCombs;i++)
  .seq (.loop 6 0 false (.var 5) 1 (
    -- 104: get_spinor_spins(ds3,ds3a,ds3b,i)
    .seq (.spins [(1, 3, 4)] (.var 6)) <|
    -- 106: if(ds1>0)
    .ite (.lt (.lit 0) (.var 0)) (
      -- 116: amplitude+=normFactor*pre*(me*s13s.v(ds3a)*a42a.v(ds4)+MW*a23a.v(ds3a)*s41s.v(ds4))*(MW*s13s.v(ds3b)-s143a.v(ds3b))/pDenT/pDenU
      .set .c 0 (.add (.loc .c 0) (.div (.div (.mul (.smul (.mul (.loc .r 0) (.mem .r 5)) (.add (.mul (.smul (.mem .r 1) (.v 0 [.var 3])) (.v 1 [.var 2])) (.mul (.smul (.mem .r 2) (.v 2 [.var 3])) (.v 3 [.var 2])))) (.sub (.smul (.mem .r 2) (.v 0 [.var 4])) (.v 4 [.var 4]))) (.mem .c 0)) (.mem .c 1)))) (
      -- 120: if(ds1<0)
      .ite (.lt (.var 0) (.lit 0)) (
        -- 130: amplitude+=normFactor*pre*a21a.v()*s43s.v(ds4,ds3a)*(me*me*a13a.v(ds3b)-MW*s341a.v(ds3b))/pDenT/pDenU
        .set .c 0 (.add (.loc .c 0) (.div (.div (.mul (.mul (.smul (.mul (.loc .r 0) (.mem .r 5)) (.v 5 [])) (.v 6 [.var 2, .var 3])) (.sub (.smul (.mul (.mem .r 1) (.mem .r 1)) (.v 7 [.var 4])) (.smul (.mem .r 2) (.v 8 [.var 4])))) (.mem .c 0)) (.mem .c 1)))) (
        .skip)))) <|
  -- 137: return amplitude
  .ret .c (.loc .c 0)⟩

/-- `ldouble amp2()` (SM/AnWe.cpp:141-154); variables: r 0 `amp2`, c 0 `M`, i 0 `j1`, i 1 `j3`, i 2 `j4` -/
def m_amp2 : Method := ⟨0, 
  -- 142: ldouble amp2
  .seq (.set .r 0 (.lit 0)) <|
  -- 143: cdouble M
  .seq (.set .c 0 (.ofR (.lit 0))) <|
  -- 146: for(int j1=-2;j1<=2;j1+=4)
  .seq (.loop 0 (-2) true (.lit 2) 4 (
    -- 147: for(int j3=-2;j3<=2;j3+=2)
    .loop 1 (-2) true (.lit 2) 2 (
      -- 148: for(int j4=-1;j4<=1;j4+=2)
      .loop 2 (-1) true (.lit 1) 2 (
        -- 149: M=amp(j1,j3,j4)
        .seq (.set .c 0 (.call 0 [.var 0, .var 1, .var 2])) <|
        -- 150: amp2+=std::pow(std::abs(M),2)
        .set .r 0 (.add (.loc .r 0) (.pow (.abs (.loc .c 0)) 2)))))) <|
  -- 153: return amp2/2.0
  .ret .r (.div (.loc .r 0) (.lit 2))⟩

/-- `ldouble amp2_Aplus()` (SM/AnWe.cpp:159-171); variables: r 0 `amp2`, c 0 `M`, i 0 `j3`, i 1 `j4` -/
def m_amp2_Aplus : Method := ⟨0, 
  -- 160: ldouble amp2
  .seq (.set .r 0 (.lit 0)) <|
  -- 161: cdouble M
  .seq (.set .c 0 (.ofR (.lit 0))) <|
  -- 164: for(int j3=-2;j3<=2;j3+=2)
  .seq (.loop 0 (-2) true (.lit 2) 2 (
    -- 165: for(int j4=-1;j4<=1;j4+=2)
    .loop 1 (-1) true (.lit 1) 2 (
      -- 166: M=amp(1,j3,j4)
      .seq (.set .c 0 (.call 0 [.lit 1, .var 0, .var 1])) <|
      -- 167: amp2+=std::pow(std::abs(M),2)
      .set .r 0 (.add (.loc .r 0) (.pow (.abs (.loc .c 0)) 2))))) <|
  -- 170: return amp2
  .ret .r (.loc .r 0)⟩

end AnWe

/-- `class AnWe` (SM/AnWe.cpp, SM/include/AnWe.h:25-35).  Members:
* ldouble: 0 `e`, 1 `me`, 2 `MW`, 3 `SW`, 4 `WW`, 5 `pre`
* cdouble: 0 `pDenT`, 1 `pDenU`
* propagator: 0 `propW`, 1 `prope`
* sproduct: 0 `s13s`, 1 `a42a`, 2 `a23a`, 3 `s41s`, 4 `s143a`, 5 `a21a`, 6 `s43s`, 7 `a13a`, 8 `s341a` -/
def AnWe : Proc where
  name := "AnWe"
  nPar := 5
  ctor := AnWe.ctor
  setMasses := AnWe.setMasses
  massPar := [1, 2]
  setMomenta := AnWe.setMomenta
  methods := [AnWe.m_amp2_Aplus, AnWe.m_amp2, AnWe.m_amp]
  amp2 := 1
  others := [("amp2_Aplus", 2)]

namespace AuZu

/-- constructor (SM/AuZu.cpp:32-65); parameters: 0 `echarge`, 1 `massu`, 2 `massW`, 3 `sinW` -/
def ctor : List SInstr := [
  -- 32: e(echarge)
  .set .r 0 (.loc .r 0),
  -- 32: Qu(2.0/3.0)
  .set .r 1 (.div (.lit 2) (.lit 3)),
  -- 32: mu(massu)
  .set .r 2 (.loc .r 1),
  -- 32: MW(massW)
  .set .r 3 (.loc .r 2),
  -- 32: SW(sinW)
  .set .r 4 (.loc .r 3),
  -- 32: CW(std::sqrt(1.0-sinW*sinW))
  .set .r 5 (.sqrt (.sub (.lit 1) (.mul (.loc .r 3) (.loc .r 3)))),
  -- 32: MZ(massW/CW)
  .set .r 6 (.div (.loc .r 2) (.mem .r 5)),
  -- 32: prope(massu,0)
  .prop 0 (.loc .r 1) (.lit 0),
  -- 35: sqrt2=std::sqrt(two)
  .set .r 7 (.sqrt (.lit 2)),
  -- 36: MZ=MW/CW
  .set .r 6 (.div (.mem .r 3) (.mem .r 5)),
  -- 37: p1=particle(0)
  .part 0 (.lit 0),
  -- 38: p2=particle(mu)
  .part 1 (.mem .r 2),
  -- 39: p3=particle(MZ)
  .part 2 (.mem .r 6),
  -- 40: p4=particle(mu)
  .part 3 (.mem .r 2),
  -- 42: s12s=sproduct(SQUARE,&p1,&p2)
  .sprod 0 ⟨false, 0, true, [], 1, true⟩,
  -- 43: s13s=sproduct(SQUARE,&p1,&p3)
  .sprod 1 ⟨false, 0, true, [], 2, true⟩,
  -- 44: s14s=sproduct(SQUARE,&p1,&p4)
  .sprod 2 ⟨false, 0, true, [], 3, true⟩,
  -- 45: a23a=sproduct(ANGLE,&p2,&p3)
  .sprod 3 ⟨true, 1, true, [], 2, true⟩,
  -- 46: a34a=sproduct(ANGLE,&p3,&p4)
  .sprod 4 ⟨true, 2, true, [], 3, true⟩,
  -- 47: s123a=sproduct(SQUARE,&p1,&p2,&p3)
  .sprod 5 ⟨false, 0, true, [1], 2, true⟩,
  -- 48: s132a=sproduct(SQUARE,&p1,&p3,&p2)
  .sprod 6 ⟨false, 0, true, [2], 1, true⟩,
  -- 49: s134a=sproduct(SQUARE,&p1,&p3,&p4)
  .sprod 7 ⟨false, 0, true, [2], 3, true⟩,
  -- 50: s143a=sproduct(SQUARE,&p1,&p4,&p3)
  .sprod 8 ⟨false, 0, true, [3], 2, true⟩,
  -- 52: a12a=sproduct(ANGLE,&p1,&p2)
  .sprod 9 ⟨true, 0, true, [], 1, true⟩,
  -- 53: a13a=sproduct(ANGLE,&p1,&p3)
  .sprod 10 ⟨true, 0, true, [], 2, true⟩,
  -- 54: a14a=sproduct(ANGLE,&p1,&p4)
  .sprod 11 ⟨true, 0, true, [], 3, true⟩,
  -- 55: s23s=sproduct(SQUARE,&p2,&p3)
  .sprod 12 ⟨false, 1, true, [], 2, true⟩,
  -- 56: s34s=sproduct(SQUARE,&p3,&p4)
  .sprod 13 ⟨false, 2, true, [], 3, true⟩,
  -- 57: a123s=sproduct(ANGLE,&p1,&p2,&p3)
  .sprod 14 ⟨true, 0, true, [1], 2, true⟩,
  -- 58: a132s=sproduct(ANGLE,&p1,&p3,&p2)
  .sprod 15 ⟨true, 0, true, [2], 1, true⟩,
  -- 59: a134s=sproduct(ANGLE,&p1,&p3,&p4)
  .sprod 16 ⟨true, 0, true, [2], 3, true⟩,
  -- 60: a143s=sproduct(ANGLE,&p1,&p4,&p3)
  .sprod 17 ⟨true, 0, true, [3], 2, true⟩,
  -- 62: preTU=e*e*Qu/(MW*SW)
  .set .r 8 (.div (.mul (.mul (.mem .r 0) (.mem .r 0)) (.mem .r 1)) (.mul (.mem .r 3) (.mem .r 4))),
  -- 63: gLu=-2.0*Qu*SW*SW+1.0
  .set .r 10 (.add (.mul (.mul (.mul (.neg (.lit 2)) (.mem .r 1)) (.mem .r 4)) (.mem .r 4)) (.lit 1)),
  -- 64: gRu=-2.0*Qu*SW*SW
  .set .r 11 (.mul (.mul (.mul (.neg (.lit 2)) (.mem .r 1)) (.mem .r 4)) (.mem .r 4))]

/-- `set_masses` (SM/AuZu.cpp:66-77); parameters: 0 `massu`, 1 `massW` -/
def setMasses : List SInstr := [
  -- 67: mu=massu
  .set .r 2 (.loc .r 0),
  -- 68: MW=massW
  .set .r 3 (.loc .r 1),
  -- 69: MZ=MW/CW
  .set .r 6 (.div (.mem .r 3) (.mem .r 5)),
  -- 70: p1.set_mass(0)
  .setMass 0 (.lit 0),
  -- 71: p2.set_mass(mu)
  .setMass 1 (.mem .r 2),
  -- 72: p3.set_mass(MZ)
  .setMass 2 (.mem .r 6),
  -- 73: p4.set_mass(mu)
  .setMass 3 (.mem .r 2),
  -- 74: prope.set_mass(mu)
  .propMass 0 (.mem .r 2),
  -- 76: preTU=e*e*Qu/(MW*SW)
  .set .r 8 (.div (.mul (.mul (.mem .r 0) (.mem .r 0)) (.mem .r 1)) (.mul (.mem .r 3) (.mem .r 4)))]

/-- `set_momenta` (SM/AuZu.cpp:78-112); parameters: 0 `mom1`, 1 `mom2`, 2 `mom3`, 3 `mom4` -/
def setMomenta : List SInstr := [
  -- 80: p1.set_momentum(mom1)
  .setMom 0 0,
  -- 81: p2.set_momentum(mom2)
  .setMom 1 1,
  -- 82: p3.set_momentum(mom3)
  .setMom 2 2,
  -- 83: p4.set_momentum(mom4)
  .setMom 3 3,
  -- 85: s12s.update()
  .update 0,
  -- 86: s13s.update()
  .update 1,
  -- 87: s14s.update()
  .update 2,
  -- 88: a23a.update()
  .update 3,
  -- 89: a34a.update()
  .update 4,
  -- 90: s123a.update()
  .update 5,
  -- 91: s132a.update()
  .update 6,
  -- 92: s134a.update()
  .update 7,
  -- 93: s143a.update()
  .update 8,
  -- 95: a12a.update()
  .update 9,
  -- 96: a13a.update()
  .update 10,
  -- 97: a14a.update()
  .update 11,
  -- 98: s23s.update()
  .update 12,
  -- 99: s34s.update()
  .update 13,
  -- 100: a123s.update()
  .update 14,
  -- 101: a132s.update()
  .update 15,
  -- 102: a134s.update()
  .update 16,
  -- 103: a143s.update()
  .update 17,
  -- 110: pDenS=prope.denominator(propSP)
  .den .c 0 0 (.add 0 1),
  -- 111: pDenU=prope.denominator(propUP)
  .den .c 1 0 (.sub 0 3)]

/-- `cdouble amp(ds1,ds2,ds3,ds4)` (SM/AuZu.cpp:117-154); variables: i 0 `ds1`, i 1 `ds2`, i 2 `ds3`, i 3 `ds4`, c 0 `amplitude`, i 4 `ds3a`, i 5 `ds3b`, i 6 `nCombs`, r 0 `normFactor`, i 7 `i` -/
def m_amp : Method := ⟨4, 
  -- 118: cdouble amplitude
  .seq (.set .c 0 (.ofR (.lit 0))) <|
  -- 123: int nCombs
  .seq (.seti 6 (.loops [2])) <|
  -- 124: ldouble normFactor
  .seq (.set .r 0 (.norm [2])) <|
  -- 125: for(int i=0;i<nCombs;i++)
  .seq (.loop 7 0 false (.var 6) 1 (
    -- 126: get_spinor_spins(ds3,ds3a,ds3b,i)
    .seq (.spins [(2, 4, 5)] (.var 7)) <|
    -- 128: if(ds1>0)
    .ite (.lt (.lit 0) (.var 0)) (
      -- 134: amplitude+=normFactor*preTU*(-gLu*a23a.v(ds2,ds3a)*(MZ*s14s.v(ds4)*s123a.v(ds3b)+mu*s13s.v(ds3b)*s134a.v(ds4))-gRu*a34a.v(ds3a,ds4)*(mu*s13s.v(ds3b)*s132a.v(ds2)+MZ*s12s.v(ds2)*s143a.v(ds3b)))/pDenU/pDenS
      .set .c 0 (.add (.loc .c 0) (.div (.div (.smul (.mul (.loc .r 0) (.mem .r 8)) (.sub (.mul (.smul (.neg (.mem .r 10)) (.v 3 [.var 1, .var 4])) (.add (.mul (.smul (.mem .r 6) (.v 2 [.var 3])) (.v 5 [.var 5])) (.mul (.smul (.mem .r 2) (.v 1 [.var 5])) (.v 7 [.var 3])))) (.mul (.smul (.mem .r 11) (.v 4 [.var 4, .var 3])) (.add (.mul (.smul (.mem .r 2) (.v 1 [.var 5])) (.v 6 [.var 1])) (.mul (.smul (.mem .r 6) (.v 0 [.var 1])) (.v 8 [.var 5])))))) (.mem .c 1)) (.mem .c 0)))) (
      -- 141: if(ds1<0)
      .ite (.lt (.var 0) (.lit 0)) (
        -- 142: amplitude+=normFactor*preTU*(-gRu*s23s.v(ds2,ds3a)*(MZ*a14a.v(ds4)*a123s.v(ds3b)+mu*a13a.v(ds3b)*a134s.v(ds4))-gLu*s34s.v(ds3a,ds4)*(mu*a13a.v(ds3b)*a132s.v(ds2)+MZ*a12a.v(ds2)*a143s.v(ds3b)))/pDenU/pDenS
        .set .c 0 (.add (.loc .c 0) (.div (.div (.smul (.mul (.loc .r 0) (.mem .r 8)) (.sub (.mul (.smul (.neg (.mem .r 11)) (.v 12 [.var 1, .var 4])) (.add (.mul (.smul (.mem .r 6) (.v 11 [.var 3])) (.v 14 [.var 5])) (.mul (.smul (.mem .r 2) (.v 10 [.var 5])) (.v 16 [.var 3])))) (.mul (.smul (.mem .r 10) (.v 13 [.var 4, .var 3])) (.add (.mul (.smul (.mem .r 2) (.v 10 [.var 5])) (.v 15 [.var 1])) (.mul (.smul (.mem .r 6) (.v 9 [.var 1])) (.v 17 [.var 5])))))) (.mem .c 1)) (.mem .c 0)))) (
        .skip)))) <|
  -- 153: return amplitude
  .ret .c (.loc .c 0)⟩

/-- `ldouble amp2()` (SM/AuZu.cpp:157-172); variables: r 0 `amp2`, c 0 `M`, i 0 `j1`, i 1 `j2`, i 2 `j3`, i 3 `j4` -/
def m_amp2 : Method := ⟨0, 
  -- 158: ldouble amp2
  .seq (.set .r 0 (.lit 0)) <|
  -- 159: cdouble M
  .seq (.set .c 0 (.ofR (.lit 0))) <|
  -- 162: for(int j1=-2;j1<=2;j1+=4)
  .seq (.loop 0 (-2) true (.lit 2) 4 (
    -- 163: for(int j2=-1;j2<=1;j2+=2)
    .loop 1 (-1) true (.lit 1) 2 (
      -- 164: for(int j3=-2;j3<=2;j3+=2)
      .loop 2 (-2) true (.lit 2) 2 (
        -- 165: for(int j4=-1;j4<=1;j4+=2)
        .loop 3 (-1) true (.lit 1) 2 (
          -- 166: M=amp(j1,j2,j3,j4)
          .seq (.set .c 0 (.call 0 [.var 0, .var 1, .var 2, .var 3])) <|
          -- 167: amp2+=3.0*std::pow(std::abs(M),2)
          .set .r 0 (.add (.loc .r 0) (.mul (.lit 3) (.pow (.abs (.loc .c 0)) 2)))))))) <|
  -- 171: return amp2/12.0
  .ret .r (.div (.loc .r 0) (.lit 12))⟩

/-- `ldouble amp2_Aplus()` (SM/AuZu.cpp:174-188); variables: r 0 `amp2`, c 0 `M`, i 0 `j2`, i 1 `j3`, i 2 `j4` -/
def m_amp2_Aplus : Method := ⟨0, 
  -- 175: ldouble amp2
  .seq (.set .r 0 (.lit 0)) <|
  -- 176: cdouble M
  .seq (.set .c 0 (.ofR (.lit 0))) <|
  -- 179: for(int j2=-1;j2<=1;j2+=2)
  .seq (.loop 0 (-1) true (.lit 1) 2 (
    -- 180: for(int j3=-2;j3<=2;j3+=2)
    .loop 1 (-2) true (.lit 2) 2 (
      -- 181: for(int j4=-1;j4<=1;j4+=2)
      .loop 2 (-1) true (.lit 1) 2 (
        -- 182: M=amp(2,j2,j3,j4)
        .seq (.set .c 0 (.call 0 [.lit 2, .var 0, .var 1, .var 2])) <|
        -- 183: amp2+=3.0*std::pow(std::abs(M),2)
        .set .r 0 (.add (.loc .r 0) (.mul (.lit 3) (.pow (.abs (.loc .c 0)) 2))))))) <|
  -- 187: return amp2/6.0
  .ret .r (.div (.loc .r 0) (.lit 6))⟩

/-- `ldouble amp2_Aminus()` (SM/AuZu.cpp:190-204); variables: r 0 `amp2`, c 0 `M`, i 0 `j2`, i 1 `j3`, i 2 `j4` -/
def m_amp2_Aminus : Method := ⟨0, 
  -- 191: ldouble amp2
  .seq (.set .r 0 (.lit 0)) <|
  -- 192: cdouble M
  .seq (.set .c 0 (.ofR (.lit 0))) <|
  -- 195: for(int j2=-1;j2<=1;j2+=2)
  .seq (.loop 0 (-1) true (.lit 1) 2 (
    -- 196: for(int j3=-2;j3<=2;j3+=2)
    .loop 1 (-2) true (.lit 2) 2 (
      -- 197: for(int j4=-1;j4<=1;j4+=2)
      .loop 2 (-1) true (.lit 1) 2 (
        -- 198: M=amp(-2,j2,j3,j4)
        .seq (.set .c 0 (.call 0 [.lit (-2), .var 0, .var 1, .var 2])) <|
        -- 199: amp2+=3.0*std::pow(std::abs(M),2)
        .set .r 0 (.add (.loc .r 0) (.mul (.lit 3) (.pow (.abs (.loc .c 0)) 2))))))) <|
  -- 203: return amp2/6.0
  .ret .r (.div (.loc .r 0) (.lit 6))⟩

end AuZu

/-- `class AuZu` (SM/AuZu.cpp, SM/include/AuZu.h:25-35).  Members:
* ldouble: 0 `e`, 1 `Qu`, 2 `mu`, 3 `MW`, 4 `SW`, 5 `CW`, 6 `MZ`, 7 `sqrt2`, 8 `preTU`, 9 `preh`, 10 `gLu`, 11 `gRu`
* cdouble: 0 `pDenS`, 1 `pDenU`
* propagator: 0 `prope`
* sproduct: 0 `s12s`, 1 `s13s`, 2 `s14s`, 3 `a23a`, 4 `a34a`, 5 `s123a`, 6 `s132a`, 7 `s134a`, 8 `s143a`, 9 `a12a`, 10 `a13a`, 11 `a14a`, 12 `s23s`, 13 `s34s`, 14 `a123s`, 15 `a132s`, 16 `a134s`, 17 `a143s` -/
def AuZu : Proc where
  name := "AuZu"
  nPar := 4
  ctor := AuZu.ctor
  setMasses := AuZu.setMasses
  massPar := [1, 2]
  setMomenta := AuZu.setMomenta
  methods := [AuZu.m_amp2_Aminus, AuZu.m_amp2_Aplus, AuZu.m_amp2, AuZu.m_amp]
  amp2 := 1
  others := [("amp2_Aplus", 2), ("amp2_Aminus", 3)]

namespace WWWW

/-- constructor (SM/WWWW.cpp:32-67); parameters: 0 `echarge`, 1 `massh`, 2 `widthh`, 3 `massW`, 4 `widthZ`, 5 `sinW` -/
def ctor : List SInstr := [
  -- 32: e(echarge)
  .set .r 0 (.loc .r 0),
  -- 32: mh(massh)
  .set .r 1 (.loc .r 1),
  -- 32: wh(widthh)
  .set .r 2 (.loc .r 2),
  -- 32: MW(massW)
  .set .r 3 (.loc .r 3),
  -- 32: WZ(widthZ)
  .set .r 4 (.loc .r 4),
  -- 32: SW(sinW)
  .set .r 5 (.loc .r 5),
  -- 32: CW(std::sqrt(1.0-sinW*sinW))
  .set .r 6 (.sqrt (.sub (.lit 1) (.mul (.loc .r 5) (.loc .r 5)))),
  -- 32: MZ(massW/CW)
  .set .r 7 (.div (.loc .r 3) (.mem .r 6)),
  -- 34: CW=std::sqrt(1.0-sinW*sinW)
  .set .r 6 (.sqrt (.sub (.lit 1) (.mul (.loc .r 5) (.loc .r 5)))),
  -- 35: MZ=MW/CW
  .set .r 7 (.div (.mem .r 3) (.mem .r 6)),
  -- 36: proph=propagator(mh,wh)
  .prop 0 (.mem .r 1) (.mem .r 2),
  -- 37: propZ=propagator(MZ,WZ)
  .prop 1 (.mem .r 7) (.mem .r 4),
  -- 38: propA=propagator(0,0)
  .prop 2 (.lit 0) (.lit 0),
  -- 39: p1=particle(MW)
  .part 0 (.mem .r 3),
  -- 40: p2=particle(MW)
  .part 1 (.mem .r 3),
  -- 41: p3=particle(MW)
  .part 2 (.mem .r 3),
  -- 42: p4=particle(MW)
  .part 3 (.mem .r 3),
  -- 44: s12s=sproduct(SQUARE,&p1,&p2)
  .sprod 0 ⟨false, 0, true, [], 1, true⟩,
  -- 45: a12a=sproduct(ANGLE,&p1,&p2)
  .sprod 1 ⟨true, 0, true, [], 1, true⟩,
  -- 46: s34s=sproduct(SQUARE,&p3,&p4)
  .sprod 3 ⟨false, 2, true, [], 3, true⟩,
  -- 47: a34a=sproduct(ANGLE,&p3,&p4)
  .sprod 2 ⟨true, 2, true, [], 3, true⟩,
  -- 48: s23s=sproduct(SQUARE,&p2,&p3)
  .sprod 6 ⟨false, 1, true, [], 2, true⟩,
  -- 49: a23a=sproduct(ANGLE,&p2,&p3)
  .sprod 7 ⟨true, 1, true, [], 2, true⟩,
  -- 50: s24s=sproduct(SQUARE,&p2,&p4)
  .sprod 4 ⟨false, 1, true, [], 3, true⟩,
  -- 51: a24a=sproduct(ANGLE,&p2,&p4)
  .sprod 5 ⟨true, 1, true, [], 3, true⟩,
  -- 52: s14s=sproduct(SQUARE,&p1,&p4)
  .sprod 9 ⟨false, 0, true, [], 3, true⟩,
  -- 53: a14a=sproduct(ANGLE,&p1,&p4)
  .sprod 8 ⟨true, 0, true, [], 3, true⟩,
  -- 54: s13s=sproduct(SQUARE,&p1,&p3)
  .sprod 11 ⟨false, 0, true, [], 2, true⟩,
  -- 55: a13a=sproduct(ANGLE,&p1,&p3)
  .sprod 10 ⟨true, 0, true, [], 2, true⟩,
  -- 57: s431a=sproduct(SQUARE,&p4,&p3,&p1)
  .sprod 12 ⟨false, 3, true, [2], 0, true⟩,
  -- 58: s134a=sproduct(SQUARE,&p1,&p3,&p4)
  .sprod 13 ⟨false, 0, true, [2], 3, true⟩,
  -- 59: s341a=sproduct(SQUARE,&p3,&p4,&p1)
  .sprod 14 ⟨false, 2, true, [3], 0, true⟩,
  -- 60: s143a=sproduct(SQUARE,&p1,&p4,&p3)
  .sprod 15 ⟨false, 0, true, [3], 2, true⟩,
  -- 61: s43s=sproduct(SQUARE,&p4,&p3)
  .sprod 16 ⟨false, 3, true, [], 2, true⟩,
  -- 62: a43a=sproduct(ANGLE,&p4,&p3)
  .sprod 17 ⟨true, 3, true, [], 2, true⟩,
  -- 64: preh=e*e/(MW*MW*SW*SW)
  .set .r 8 (.div (.mul (.mem .r 0) (.mem .r 0)) (.mul (.mul (.mul (.mem .r 3) (.mem .r 3)) (.mem .r 5)) (.mem .r 5))),
  -- 65: preA=e*e/(MW*MW*MW)
  .set .r 9 (.div (.mul (.mem .r 0) (.mem .r 0)) (.mul (.mul (.mem .r 3) (.mem .r 3)) (.mem .r 3))),
  -- 66: preZ=e*e/(2.0*MW*MW*MZ*SW*SW)
  .set .r 10 (.div (.mul (.mem .r 0) (.mem .r 0)) (.mul (.mul (.mul (.mul (.mul (.lit 2) (.mem .r 3)) (.mem .r 3)) (.mem .r 7)) (.mem .r 5)) (.mem .r 5)))]

/-- `set_masses` (SM/WWWW.cpp:68-82); parameters: 0 `massh`, 1 `massW` -/
def setMasses : List SInstr := [
  -- 69: mh=massh
  .set .r 1 (.loc .r 0),
  -- 70: MW=massW
  .set .r 3 (.loc .r 1),
  -- 71: MZ=MW/CW
  .set .r 7 (.div (.mem .r 3) (.mem .r 6)),
  -- 72: p1.set_mass(MW)
  .setMass 0 (.mem .r 3),
  -- 73: p2.set_mass(MW)
  .setMass 1 (.mem .r 3),
  -- 74: p3.set_mass(MW)
  .setMass 2 (.mem .r 3),
  -- 75: p4.set_mass(MW)
  .setMass 3 (.mem .r 3),
  -- 76: proph.set_mass(mh)
  .propMass 0 (.mem .r 1),
  -- 77: propZ.set_mass(MZ)
  .propMass 1 (.mem .r 7),
  -- 79: preh=e*e/(MW*MW*SW*SW)
  .set .r 8 (.div (.mul (.mem .r 0) (.mem .r 0)) (.mul (.mul (.mul (.mem .r 3) (.mem .r 3)) (.mem .r 5)) (.mem .r 5))),
  -- 80: preA=e*e/(MW*MW*MW)
  .set .r 9 (.div (.mul (.mem .r 0) (.mem .r 0)) (.mul (.mul (.mem .r 3) (.mem .r 3)) (.mem .r 3))),
  -- 81: preZ=e*e/(2.0*MW*MW*MZ*SW*SW)
  .set .r 10 (.div (.mul (.mem .r 0) (.mem .r 0)) (.mul (.mul (.mul (.mul (.mul (.lit 2) (.mem .r 3)) (.mem .r 3)) (.mem .r 7)) (.mem .r 5)) (.mem .r 5)))]

/-- `set_momenta` (SM/WWWW.cpp:83-120); parameters: 0 `mom1`, 1 `mom2`, 2 `mom3`, 3 `mom4` -/
def setMomenta : List SInstr := [
  -- 85: p1.set_momentum(mom1)
  .setMom 0 0,
  -- 86: p2.set_momentum(mom2)
  .setMom 1 1,
  -- 87: p3.set_momentum(mom3)
  .setMom 2 2,
  -- 88: p4.set_momentum(mom4)
  .setMom 3 3,
  -- 90: s12s.update()
  .update 0,
  -- 91: a12a.update()
  .update 1,
  -- 92: s34s.update()
  .update 3,
  -- 93: a34a.update()
  .update 2,
  -- 94: s23s.update()
  .update 6,
  -- 95: a23a.update()
  .update 7,
  -- 96: s24s.update()
  .update 4,
  -- 97: a24a.update()
  .update 5,
  -- 98: s14s.update()
  .update 9,
  -- 99: a14a.update()
  .update 8,
  -- 100: s13s.update()
  .update 11,
  -- 101: a13a.update()
  .update 10,
  -- 103: s431a.update()
  .update 12,
  -- 104: s134a.update()
  .update 13,
  -- 105: s341a.update()
  .update 14,
  -- 106: s143a.update()
  .update 15,
  -- 114: pDenTh=proph.denominator(propTP)
  .den .c 0 0 (.sub 0 2),
  -- 115: pDenUh=proph.denominator(propUP)
  .den .c 1 0 (.sub 0 3),
  -- 116: pDenTZ=propZ.denominator(propTP)
  .den .c 2 1 (.sub 0 2),
  -- 117: pDenUZ=propZ.denominator(propUP)
  .den .c 3 1 (.sub 0 3),
  -- 118: pDenTA=propA.denominator(propTP)
  .den .c 4 2 (.sub 0 2),
  -- 119: pDenUA=propA.denominator(propUP)
  .den .c 5 2 (.sub 0 3)]

/-- `cdouble amp(ds1,ds2,ds3,ds4)` (SM/WWWW.cpp:125-270); variables: i 0 `ds1`, i 1 `ds2`, i 2 `ds3`, i 3 `ds4`, c 0 `amplitude`, i 4 `ds1a`, i 5 `ds1b`, i 6 `ds2a`, i 7 `ds2b`, i 8 `ds3a`, i 9 `ds3b`, i 10 `ds4a`, i 11 `ds4b`, i 12 `nCombs`, r 0 `normFactor`, i 13 `i` -/
def m_amp : Method := ⟨4, 
  -- 126: cdouble amplitude
  .seq (.set .c 0 (.ofR (.lit 0))) <|
  -- 131: int nCombs
  .seq (.seti 12 (.loops [0, 1, 2, 3])) <|
  -- 132: ldouble normFactor
  .seq (.set .r 0 (.norm [0, 1, 2, 3])) <|
  -- 134: for(int i=0;i<nCombs;i++)
  .seq (.loop 13 0 false (.var 12) 1 (
    -- 135: get_spinor_spins(ds1,ds1a,ds1b,ds2,ds2a,ds2b,ds3,ds3a,ds3b,ds4,ds4a,ds4b,i)
    .seq (.spins [(0, 4, 5), (1, 6, 7), (2, 8, 9), (3, 10, 11)] (.var 13)) <|
    -- 142: amplitude+=-normFactor*preh*s13s.v(ds1a,ds3a)*a13a.v(ds1b,ds3b)*s24s.v(ds2a,ds4a)*a24a.v(ds2b,ds4b)/pDenTh
    .seq (.set .c 0 (.add (.loc .c 0) (.div (.mul (.mul (.mul (.smul (.mul (.neg (.loc .r 0)) (.mem .r 8)) (.v 11 [.var 4, .var 8])) (.v 10 [.var 5, .var 9])) (.v 4 [.var 6, .var 10])) (.v 5 [.var 7, .var 11])) (.mem .c 0)))) <|
    -- 148: amplitude+=-normFactor*preh*s14s.v(ds1a,ds4a)*a14a.v(ds1b,ds4b)*s23s.v(ds2a,ds3a)*a23a.v(ds2b,ds3b)/pDenUh
    .seq (.set .c 0 (.add (.loc .c 0) (.div (.mul (.mul (.mul (.smul (.mul (.neg (.loc .r 0)) (.mem .r 8)) (.v 9 [.var 4, .var 10])) (.v 8 [.var 5, .var 11])) (.v 6 [.var 6, .var 8])) (.v 7 [.var 7, .var 9])) (.mem .c 1)))) <|
    -- 152: amplitude+=normFactor*preA*(two*MW*a24a.v(ds2a,ds4a)*a34a.v(ds3a,ds4b)*s12s.v(ds1a,ds2b)*s13s.v(ds1b,ds3b)-MW*a13a.v(ds1a,ds3a)*a23a.v(ds2a,ds3b)*a24a.v(ds2b,ds4a)*s14s.v(ds1b,ds4b)+two*MW*a23a.v(ds2a,ds3a)*a24a.v(ds2b,ds4a)*s13s.v(ds1a,ds3b)*s14s.v(ds1b,ds4b)+MW*a12a.v(ds1a,ds2b)*a34a.v(ds3a,ds4a)*s13s.v(ds1b,ds3b)*s24s.v(ds2a,ds4b)+MW*a14a.v(ds1a,ds4a)*a24a.v(ds2a,ds4b)*s13s.v(ds1b,ds3a)*s23s.v(ds2b,ds3b)+two*MW*a13a.v(ds1a,ds3a)*a24a.v(ds2a,ds4a)*s14s.v(ds1b,ds4b)*s23s.v(ds2b,ds3b)-MW*a24a.v(ds2a,ds4a)*s13s.v(ds1a,ds3a)*s14s.v(ds1b,ds4b)*s23s.v(ds2b,ds3b)-MW*a13a.v(ds1a,ds3a)*a14a.v(ds1b,ds4a)*a23a.v(ds2a,ds3b)*s24s.v(ds2b,ds4b)+two*MW*a14a.v(ds1a,ds4a)*a23a.v(ds2a,ds3a)*s13s.v(ds1b,ds3b)*s24s.v(ds2b,ds4b)-two*MW*a13a.v(ds1a,ds3a)*a24a.v(ds2a,ds4a)*s13s.v(ds1b,ds3b)*s24s.v(ds2b,ds4b)+MW*a13a.v(ds1a,ds3a)*a23a.v(ds2a,ds3b)*s14s.v(ds1b,ds4a)*s24s.v(ds2b,ds4b)+two*MW*a13a.v(ds1a,ds3a)*a14a.v(ds1b,ds4a)*s23s.v(ds2a,ds3b)*s24s.v(ds2b,ds4b)-MW*a14a.v(ds1a,ds4a)*s13s.v(ds1b,ds3a)*s23s.v(ds2a,ds3b)*s24s.v(ds2b,ds4b)+MW*a13a.v(ds1a,ds3b)*a24a.v(ds2a,ds4a)*s12s.v(ds1b,ds2b)*s34s.v(ds3a,ds4b)+two*MW*a12a.v(ds1a,ds2b)*a13a.v(ds1b,ds3b)*s24s.v(ds2a,ds4a)*s34s.v(ds3a,ds4b)+a13a.v(ds1a,ds3a)*a24a.v(ds2a,ds4a)*s23s.v(ds2b,ds3b)*s134a.v(ds1b,ds4b)+a13a.v(ds1a,ds3a)*a23a.v(ds2a,ds3b)*s24s.v(ds2b,ds4a)*s134a.v(ds1b,ds4b)-a23a.v(ds2a,ds3a)*s13s.v(ds1a,ds3b)*s24s.v(ds2b,ds4a)*s134a.v(ds1b,ds4b)-a13a.v(ds1a,ds3a)*s23s.v(ds2a,ds3b)*s24s.v(ds2b,ds4a)*s134a.v(ds1b,ds4b)-a23a.v(ds2a,ds3a)*a24a.v(ds2b,ds4a)*s13s.v(ds1a,ds3b)*s431a.v(ds4b,ds1b)-a13a.v(ds1a,ds3a)*a24a.v(ds2a,ds4a)*s23s.v(ds2b,ds3b)*s431a.v(ds4b,ds1b)+a24a.v(ds2a,ds4a)*s13s.v(ds1a,ds3a)*s23s.v(ds2b,ds3b)*s431a.v(ds4b,ds1b)+a23a.v(ds2a,ds3a)*s13s.v(ds1a,ds3b)*s24s.v(ds2b,ds4a)*s431a.v(ds4b,ds1b))/pDenTA
    .seq (.set .c 0 (.add (.loc .c 0) (.div (.smul (.mul (.loc .r 0) (.mem .r 9)) (.add (.add (.sub (.sub (.sub (.sub (.add (.add (.add (.add (.sub (.add (.add (.sub (.add (.sub (.sub (.add (.add (.add (.add (.sub (.mul (.mul (.mul (.smul (.mul (.lit 2) (.mem .r 3)) (.v 5 [.var 6, .var 10])) (.v 2 [.var 8, .var 11])) (.v 0 [.var 4, .var 7])) (.v 11 [.var 5, .var 9])) (.mul (.mul (.mul (.smul (.mem .r 3) (.v 10 [.var 4, .var 8])) (.v 7 [.var 6, .var 9])) (.v 5 [.var 7, .var 10])) (.v 9 [.var 5, .var 11]))) (.mul (.mul (.mul (.smul (.mul (.lit 2) (.mem .r 3)) (.v 7 [.var 6, .var 8])) (.v 5 [.var 7, .var 10])) (.v 11 [.var 4, .var 9])) (.v 9 [.var 5, .var 11]))) (.mul (.mul (.mul (.smul (.mem .r 3) (.v 1 [.var 4, .var 7])) (.v 2 [.var 8, .var 10])) (.v 11 [.var 5, .var 9])) (.v 4 [.var 6, .var 11]))) (.mul (.mul (.mul (.smul (.mem .r 3) (.v 8 [.var 4, .var 10])) (.v 5 [.var 6, .var 11])) (.v 11 [.var 5, .var 8])) (.v 6 [.var 7, .var 9]))) (.mul (.mul (.mul (.smul (.mul (.lit 2) (.mem .r 3)) (.v 10 [.var 4, .var 8])) (.v 5 [.var 6, .var 10])) (.v 9 [.var 5, .var 11])) (.v 6 [.var 7, .var 9]))) (.mul (.mul (.mul (.smul (.mem .r 3) (.v 5 [.var 6, .var 10])) (.v 11 [.var 4, .var 8])) (.v 9 [.var 5, .var 11])) (.v 6 [.var 7, .var 9]))) (.mul (.mul (.mul (.smul (.mem .r 3) (.v 10 [.var 4, .var 8])) (.v 8 [.var 5, .var 10])) (.v 7 [.var 6, .var 9])) (.v 4 [.var 7, .var 11]))) (.mul (.mul (.mul (.smul (.mul (.lit 2) (.mem .r 3)) (.v 8 [.var 4, .var 10])) (.v 7 [.var 6, .var 8])) (.v 11 [.var 5, .var 9])) (.v 4 [.var 7, .var 11]))) (.mul (.mul (.mul (.smul (.mul (.lit 2) (.mem .r 3)) (.v 10 [.var 4, .var 8])) (.v 5 [.var 6, .var 10])) (.v 11 [.var 5, .var 9])) (.v 4 [.var 7, .var 11]))) (.mul (.mul (.mul (.smul (.mem .r 3) (.v 10 [.var 4, .var 8])) (.v 7 [.var 6, .var 9])) (.v 9 [.var 5, .var 10])) (.v 4 [.var 7, .var 11]))) (.mul (.mul (.mul (.smul (.mul (.lit 2) (.mem .r 3)) (.v 10 [.var 4, .var 8])) (.v 8 [.var 5, .var 10])) (.v 6 [.var 6, .var 9])) (.v 4 [.var 7, .var 11]))) (.mul (.mul (.mul (.smul (.mem .r 3) (.v 8 [.var 4, .var 10])) (.v 11 [.var 5, .var 8])) (.v 6 [.var 6, .var 9])) (.v 4 [.var 7, .var 11]))) (.mul (.mul (.mul (.smul (.mem .r 3) (.v 10 [.var 4, .var 9])) (.v 5 [.var 6, .var 10])) (.v 0 [.var 5, .var 7])) (.v 3 [.var 8, .var 11]))) (.mul (.mul (.mul (.smul (.mul (.lit 2) (.mem .r 3)) (.v 1 [.var 4, .var 7])) (.v 10 [.var 5, .var 9])) (.v 4 [.var 6, .var 10])) (.v 3 [.var 8, .var 11]))) (.mul (.mul (.mul (.v 10 [.var 4, .var 8]) (.v 5 [.var 6, .var 10])) (.v 6 [.var 7, .var 9])) (.v 13 [.var 5, .var 11]))) (.mul (.mul (.mul (.v 10 [.var 4, .var 8]) (.v 7 [.var 6, .var 9])) (.v 4 [.var 7, .var 10])) (.v 13 [.var 5, .var 11]))) (.mul (.mul (.mul (.v 7 [.var 6, .var 8]) (.v 11 [.var 4, .var 9])) (.v 4 [.var 7, .var 10])) (.v 13 [.var 5, .var 11]))) (.mul (.mul (.mul (.v 10 [.var 4, .var 8]) (.v 6 [.var 6, .var 9])) (.v 4 [.var 7, .var 10])) (.v 13 [.var 5, .var 11]))) (.mul (.mul (.mul (.v 7 [.var 6, .var 8]) (.v 5 [.var 7, .var 10])) (.v 11 [.var 4, .var 9])) (.v 12 [.var 11, .var 5]))) (.mul (.mul (.mul (.v 10 [.var 4, .var 8]) (.v 5 [.var 6, .var 10])) (.v 6 [.var 7, .var 9])) (.v 12 [.var 11, .var 5]))) (.mul (.mul (.mul (.v 5 [.var 6, .var 10]) (.v 11 [.var 4, .var 8])) (.v 6 [.var 7, .var 9])) (.v 12 [.var 11, .var 5]))) (.mul (.mul (.mul (.v 7 [.var 6, .var 8]) (.v 11 [.var 4, .var 9])) (.v 4 [.var 7, .var 10])) (.v 12 [.var 11, .var 5])))) (.mem .c 4)))) <|
    -- 179: amplitude+=normFactor*preA*(-MW*a14a.v(ds1a,ds4a)*a23a.v(ds2a,ds3a)*a24a.v(ds2b,ds4b)*s13s.v(ds1b,ds3b)-two*MW*a23a.v(ds2a,ds3b)*a34a.v(ds3a,ds4a)*s12s.v(ds1a,ds2b)*s14s.v(ds1b,ds4b)+two*MW*a23a.v(ds2a,ds3a)*a24a.v(ds2b,ds4a)*s13s.v(ds1a,ds3b)*s14s.v(ds1b,ds4b)-MW*a12a.v(ds1a,ds2b)*a34a.v(ds3a,ds4a)*s14s.v(ds1b,ds4b)*s23s.v(ds2a,ds3b)-MW*a13a.v(ds1a,ds3a)*a14a.v(ds1b,ds4a)*a24a.v(ds2a,ds4b)*s23s.v(ds2b,ds3b)+MW*a14a.v(ds1a,ds4a)*a24a.v(ds2a,ds4b)*s13s.v(ds1b,ds3a)*s23s.v(ds2b,ds3b)-two*MW*a14a.v(ds1a,ds4a)*a23a.v(ds2a,ds3a)*s14s.v(ds1b,ds4b)*s23s.v(ds2b,ds3b)+two*MW*a13a.v(ds1a,ds3a)*a24a.v(ds2a,ds4a)*s14s.v(ds1b,ds4b)*s23s.v(ds2b,ds3b)+two*MW*a14a.v(ds1a,ds4a)*a23a.v(ds2a,ds3a)*s13s.v(ds1b,ds3b)*s24s.v(ds2b,ds4b)+MW*a13a.v(ds1a,ds3a)*a23a.v(ds2a,ds3b)*s14s.v(ds1b,ds4a)*s24s.v(ds2b,ds4b)-MW*a23a.v(ds2a,ds3a)*s13s.v(ds1a,ds3b)*s14s.v(ds1b,ds4a)*s24s.v(ds2b,ds4b)+two*MW*a13a.v(ds1a,ds3a)*a14a.v(ds1b,ds4a)*s23s.v(ds2a,ds3b)*s24s.v(ds2b,ds4b)-MW*a13a.v(ds1a,ds3a)*s14s.v(ds1b,ds4a)*s23s.v(ds2a,ds3b)*s24s.v(ds2b,ds4b)-MW*a14a.v(ds1a,ds4a)*a23a.v(ds2a,ds3b)*s12s.v(ds1b,ds2b)*s34s.v(ds3a,ds4b)-two*MW*a12a.v(ds1a,ds2b)*a14a.v(ds1b,ds4a)*s23s.v(ds2a,ds3b)*s34s.v(ds3a,ds4b)+a14a.v(ds1a,ds4a)*a24a.v(ds2a,ds4b)*s23s.v(ds2b,ds3a)*s143a.v(ds1b,ds3b)-a24a.v(ds2a,ds4a)*s14s.v(ds1a,ds4b)*s23s.v(ds2b,ds3a)*s143a.v(ds1b,ds3b)+a14a.v(ds1a,ds4a)*a23a.v(ds2a,ds3a)*s24s.v(ds2b,ds4b)*s143a.v(ds1b,ds3b)-a14a.v(ds1a,ds4a)*s23s.v(ds2a,ds3a)*s24s.v(ds2b,ds4b)*s143a.v(ds1b,ds3b)-a23a.v(ds2a,ds3a)*a24a.v(ds2b,ds4a)*s14s.v(ds1a,ds4b)*s341a.v(ds3b,ds1b)+a24a.v(ds2a,ds4a)*s14s.v(ds1a,ds4b)*s23s.v(ds2b,ds3a)*s341a.v(ds3b,ds1b)-a14a.v(ds1a,ds4a)*a23a.v(ds2a,ds3a)*s24s.v(ds2b,ds4b)*s341a.v(ds3b,ds1b)+a23a.v(ds2a,ds3a)*s14s.v(ds1a,ds4a)*s24s.v(ds2b,ds4b)*s341a.v(ds3b,ds1b))/pDenUA
    .seq (.set .c 0 (.add (.loc .c 0) (.div (.smul (.mul (.loc .r 0) (.mem .r 9)) (.add (.sub (.add (.sub (.sub (.add (.sub (.add (.sub (.sub (.sub (.add (.sub (.add (.add (.add (.sub (.add (.sub (.sub (.add (.sub (.mul (.mul (.mul (.smul (.neg (.mem .r 3)) (.v 8 [.var 4, .var 10])) (.v 7 [.var 6, .var 8])) (.v 5 [.var 7, .var 11])) (.v 11 [.var 5, .var 9])) (.mul (.mul (.mul (.smul (.mul (.lit 2) (.mem .r 3)) (.v 7 [.var 6, .var 9])) (.v 2 [.var 8, .var 10])) (.v 0 [.var 4, .var 7])) (.v 9 [.var 5, .var 11]))) (.mul (.mul (.mul (.smul (.mul (.lit 2) (.mem .r 3)) (.v 7 [.var 6, .var 8])) (.v 5 [.var 7, .var 10])) (.v 11 [.var 4, .var 9])) (.v 9 [.var 5, .var 11]))) (.mul (.mul (.mul (.smul (.mem .r 3) (.v 1 [.var 4, .var 7])) (.v 2 [.var 8, .var 10])) (.v 9 [.var 5, .var 11])) (.v 6 [.var 6, .var 9]))) (.mul (.mul (.mul (.smul (.mem .r 3) (.v 10 [.var 4, .var 8])) (.v 8 [.var 5, .var 10])) (.v 5 [.var 6, .var 11])) (.v 6 [.var 7, .var 9]))) (.mul (.mul (.mul (.smul (.mem .r 3) (.v 8 [.var 4, .var 10])) (.v 5 [.var 6, .var 11])) (.v 11 [.var 5, .var 8])) (.v 6 [.var 7, .var 9]))) (.mul (.mul (.mul (.smul (.mul (.lit 2) (.mem .r 3)) (.v 8 [.var 4, .var 10])) (.v 7 [.var 6, .var 8])) (.v 9 [.var 5, .var 11])) (.v 6 [.var 7, .var 9]))) (.mul (.mul (.mul (.smul (.mul (.lit 2) (.mem .r 3)) (.v 10 [.var 4, .var 8])) (.v 5 [.var 6, .var 10])) (.v 9 [.var 5, .var 11])) (.v 6 [.var 7, .var 9]))) (.mul (.mul (.mul (.smul (.mul (.lit 2) (.mem .r 3)) (.v 8 [.var 4, .var 10])) (.v 7 [.var 6, .var 8])) (.v 11 [.var 5, .var 9])) (.v 4 [.var 7, .var 11]))) (.mul (.mul (.mul (.smul (.mem .r 3) (.v 10 [.var 4, .var 8])) (.v 7 [.var 6, .var 9])) (.v 9 [.var 5, .var 10])) (.v 4 [.var 7, .var 11]))) (.mul (.mul (.mul (.smul (.mem .r 3) (.v 7 [.var 6, .var 8])) (.v 11 [.var 4, .var 9])) (.v 9 [.var 5, .var 10])) (.v 4 [.var 7, .var 11]))) (.mul (.mul (.mul (.smul (.mul (.lit 2) (.mem .r 3)) (.v 10 [.var 4, .var 8])) (.v 8 [.var 5, .var 10])) (.v 6 [.var 6, .var 9])) (.v 4 [.var 7, .var 11]))) (.mul (.mul (.mul (.smul (.mem .r 3) (.v 10 [.var 4, .var 8])) (.v 9 [.var 5, .var 10])) (.v 6 [.var 6, .var 9])) (.v 4 [.var 7, .var 11]))) (.mul (.mul (.mul (.smul (.mem .r 3) (.v 8 [.var 4, .var 10])) (.v 7 [.var 6, .var 9])) (.v 0 [.var 5, .var 7])) (.v 3 [.var 8, .var 11]))) (.mul (.mul (.mul (.smul (.mul (.lit 2) (.mem .r 3)) (.v 1 [.var 4, .var 7])) (.v 8 [.var 5, .var 10])) (.v 6 [.var 6, .var 9])) (.v 3 [.var 8, .var 11]))) (.mul (.mul (.mul (.v 8 [.var 4, .var 10]) (.v 5 [.var 6, .var 11])) (.v 6 [.var 7, .var 8])) (.v 15 [.var 5, .var 9]))) (.mul (.mul (.mul (.v 5 [.var 6, .var 10]) (.v 9 [.var 4, .var 11])) (.v 6 [.var 7, .var 8])) (.v 15 [.var 5, .var 9]))) (.mul (.mul (.mul (.v 8 [.var 4, .var 10]) (.v 7 [.var 6, .var 8])) (.v 4 [.var 7, .var 11])) (.v 15 [.var 5, .var 9]))) (.mul (.mul (.mul (.v 8 [.var 4, .var 10]) (.v 6 [.var 6, .var 8])) (.v 4 [.var 7, .var 11])) (.v 15 [.var 5, .var 9]))) (.mul (.mul (.mul (.v 7 [.var 6, .var 8]) (.v 5 [.var 7, .var 10])) (.v 9 [.var 4, .var 11])) (.v 14 [.var 9, .var 5]))) (.mul (.mul (.mul (.v 5 [.var 6, .var 10]) (.v 9 [.var 4, .var 11])) (.v 6 [.var 7, .var 8])) (.v 14 [.var 9, .var 5]))) (.mul (.mul (.mul (.v 8 [.var 4, .var 10]) (.v 7 [.var 6, .var 8])) (.v 4 [.var 7, .var 11])) (.v 14 [.var 9, .var 5]))) (.mul (.mul (.mul (.v 7 [.var 6, .var 8]) (.v 9 [.var 4, .var 10])) (.v 4 [.var 7, .var 11])) (.v 14 [.var 9, .var 5])))) (.mem .c 5)))) <|
    -- 207: amplitude+=-normFactor*preZ*((two*a12a.v(ds1a,ds2b)*a34a.v(ds3a,ds4a)*s13s.v(ds1b,ds3b)*s24s.v(ds2a,ds4b)-a13a.v(ds1a,ds3a)*a24a.v(ds2a,ds4a)*s14s.v(ds1b,ds4b)*s23s.v(ds2b,ds3b)-a14a.v(ds1a,ds4a)*a23a.v(ds2a,ds3a)*s13s.v(ds1b,ds3b)*s24s.v(ds2b,ds4b)+(-four*a24a.v(ds2a,ds4a)*a34a.v(ds3a,ds4b)*s12s.v(ds1a,ds2b)*s13s.v(ds1b,ds3b)+three*a13a.v(ds1a,ds3a)*a23a.v(ds2a,ds3b)*a24a.v(ds2b,ds4a)*s14s.v(ds1b,ds4b)-four*a23a.v(ds2a,ds3a)*a24a.v(ds2b,ds4a)*s13s.v(ds1a,ds3b)*s14s.v(ds1b,ds4b)-two*a12a.v(ds1a,ds2b)*a34a.v(ds3a,ds4a)*s13s.v(ds1b,ds3b)*s24s.v(ds2a,ds4b)-three*a14a.v(ds1a,ds4a)*a24a.v(ds2a,ds4b)*s13s.v(ds1b,ds3a)*s23s.v(ds2b,ds3b)-three*a13a.v(ds1a,ds3a)*a24a.v(ds2a,ds4a)*s14s.v(ds1b,ds4b)*s23s.v(ds2b,ds3b)+a24a.v(ds2a,ds4a)*s13s.v(ds1a,ds3a)*s14s.v(ds1b,ds4b)*s23s.v(ds2b,ds3b)+three*a13a.v(ds1a,ds3a)*a14a.v(ds1b,ds4a)*a23a.v(ds2a,ds3b)*s24s.v(ds2b,ds4b)-three*a14a.v(ds1a,ds4a)*a23a.v(ds2a,ds3a)*s13s.v(ds1b,ds3b)*s24s.v(ds2b,ds4b)+two*a13a.v(ds1a,ds3a)*a24a.v(ds2a,ds4a)*s13s.v(ds1b,ds3b)*s24s.v(ds2b,ds4b)-a13a.v(ds1a,ds3a)*a23a.v(ds2a,ds3b)*s14s.v(ds1b,ds4a)*s24s.v(ds2b,ds4b)-four*a13a.v(ds1a,ds3a)*a14a.v(ds1b,ds4a)*s23s.v(ds2a,ds3b)*s24s.v(ds2b,ds4b)+a14a.v(ds1a,ds4a)*s13s.v(ds1b,ds3a)*s23s.v(ds2a,ds3b)*s24s.v(ds2b,ds4b)-four*a12a.v(ds1a,ds2b)*a13a.v(ds1b,ds3b)*s24s.v(ds2a,ds4a)*s34s.v(ds3a,ds4b))*CW*CW)*MZ+(-three*a13a.v(ds1a,ds3a)*a24a.v(ds2a,ds4a)*s23s.v(ds2b,ds3b)*s134a.v(ds1b,ds4b)-three*a13a.v(ds1a,ds3a)*a23a.v(ds2a,ds3b)*s24s.v(ds2b,ds4a)*s134a.v(ds1b,ds4b)+a23a.v(ds2a,ds3a)*s13s.v(ds1a,ds3b)*s24s.v(ds2b,ds4a)*s134a.v(ds1b,ds4b)+a13a.v(ds1a,ds3a)*s23s.v(ds2a,ds3b)*s24s.v(ds2b,ds4a)*s134a.v(ds1b,ds4b)+three*a23a.v(ds2a,ds3a)*a24a.v(ds2b,ds4a)*s13s.v(ds1a,ds3b)*s431a.v(ds4b,ds1b)+three*a13a.v(ds1a,ds3a)*a24a.v(ds2a,ds4a)*s23s.v(ds2b,ds3b)*s431a.v(ds4b,ds1b)-a24a.v(ds2a,ds4a)*s13s.v(ds1a,ds3a)*s23s.v(ds2b,ds3b)*s431a.v(ds4b,ds1b)-a23a.v(ds2a,ds3a)*s13s.v(ds1a,ds3b)*s24s.v(ds2b,ds4a)*s431a.v(ds4b,ds1b))*CW)/pDenTZ
    .seq (.set .c 0 (.add (.loc .c 0) (.div (.smul (.mul (.neg (.loc .r 0)) (.mem .r 10)) (.add (.smul (.mem .r 7) (.add (.sub (.sub (.mul (.mul (.mul (.smul (.lit 2) (.v 1 [.var 4, .var 7])) (.v 2 [.var 8, .var 10])) (.v 11 [.var 5, .var 9])) (.v 4 [.var 6, .var 11])) (.mul (.mul (.mul (.v 10 [.var 4, .var 8]) (.v 5 [.var 6, .var 10])) (.v 9 [.var 5, .var 11])) (.v 6 [.var 7, .var 9]))) (.mul (.mul (.mul (.v 8 [.var 4, .var 10]) (.v 7 [.var 6, .var 8])) (.v 11 [.var 5, .var 9])) (.v 4 [.var 7, .var 11]))) (.smul (.mem .r 6) (.smul (.mem .r 6) (.sub (.add (.sub (.sub (.add (.sub (.add (.add (.sub (.sub (.sub (.sub (.add (.mul (.mul (.mul (.smul (.neg (.lit 4)) (.v 5 [.var 6, .var 10])) (.v 2 [.var 8, .var 11])) (.v 0 [.var 4, .var 7])) (.v 11 [.var 5, .var 9])) (.mul (.mul (.mul (.smul (.lit 3) (.v 10 [.var 4, .var 8])) (.v 7 [.var 6, .var 9])) (.v 5 [.var 7, .var 10])) (.v 9 [.var 5, .var 11]))) (.mul (.mul (.mul (.smul (.lit 4) (.v 7 [.var 6, .var 8])) (.v 5 [.var 7, .var 10])) (.v 11 [.var 4, .var 9])) (.v 9 [.var 5, .var 11]))) (.mul (.mul (.mul (.smul (.lit 2) (.v 1 [.var 4, .var 7])) (.v 2 [.var 8, .var 10])) (.v 11 [.var 5, .var 9])) (.v 4 [.var 6, .var 11]))) (.mul (.mul (.mul (.smul (.lit 3) (.v 8 [.var 4, .var 10])) (.v 5 [.var 6, .var 11])) (.v 11 [.var 5, .var 8])) (.v 6 [.var 7, .var 9]))) (.mul (.mul (.mul (.smul (.lit 3) (.v 10 [.var 4, .var 8])) (.v 5 [.var 6, .var 10])) (.v 9 [.var 5, .var 11])) (.v 6 [.var 7, .var 9]))) (.mul (.mul (.mul (.v 5 [.var 6, .var 10]) (.v 11 [.var 4, .var 8])) (.v 9 [.var 5, .var 11])) (.v 6 [.var 7, .var 9]))) (.mul (.mul (.mul (.smul (.lit 3) (.v 10 [.var 4, .var 8])) (.v 8 [.var 5, .var 10])) (.v 7 [.var 6, .var 9])) (.v 4 [.var 7, .var 11]))) (.mul (.mul (.mul (.smul (.lit 3) (.v 8 [.var 4, .var 10])) (.v 7 [.var 6, .var 8])) (.v 11 [.var 5, .var 9])) (.v 4 [.var 7, .var 11]))) (.mul (.mul (.mul (.smul (.lit 2) (.v 10 [.var 4, .var 8])) (.v 5 [.var 6, .var 10])) (.v 11 [.var 5, .var 9])) (.v 4 [.var 7, .var 11]))) (.mul (.mul (.mul (.v 10 [.var 4, .var 8]) (.v 7 [.var 6, .var 9])) (.v 9 [.var 5, .var 10])) (.v 4 [.var 7, .var 11]))) (.mul (.mul (.mul (.smul (.lit 4) (.v 10 [.var 4, .var 8])) (.v 8 [.var 5, .var 10])) (.v 6 [.var 6, .var 9])) (.v 4 [.var 7, .var 11]))) (.mul (.mul (.mul (.v 8 [.var 4, .var 10]) (.v 11 [.var 5, .var 8])) (.v 6 [.var 6, .var 9])) (.v 4 [.var 7, .var 11]))) (.mul (.mul (.mul (.smul (.lit 4) (.v 1 [.var 4, .var 7])) (.v 10 [.var 5, .var 9])) (.v 4 [.var 6, .var 10])) (.v 3 [.var 8, .var 11]))))))) (.smul (.mem .r 6) (.sub (.sub (.add (.add (.add (.add (.sub (.mul (.mul (.mul (.smul (.neg (.lit 3)) (.v 10 [.var 4, .var 8])) (.v 5 [.var 6, .var 10])) (.v 6 [.var 7, .var 9])) (.v 13 [.var 5, .var 11])) (.mul (.mul (.mul (.smul (.lit 3) (.v 10 [.var 4, .var 8])) (.v 7 [.var 6, .var 9])) (.v 4 [.var 7, .var 10])) (.v 13 [.var 5, .var 11]))) (.mul (.mul (.mul (.v 7 [.var 6, .var 8]) (.v 11 [.var 4, .var 9])) (.v 4 [.var 7, .var 10])) (.v 13 [.var 5, .var 11]))) (.mul (.mul (.mul (.v 10 [.var 4, .var 8]) (.v 6 [.var 6, .var 9])) (.v 4 [.var 7, .var 10])) (.v 13 [.var 5, .var 11]))) (.mul (.mul (.mul (.smul (.lit 3) (.v 7 [.var 6, .var 8])) (.v 5 [.var 7, .var 10])) (.v 11 [.var 4, .var 9])) (.v 12 [.var 11, .var 5]))) (.mul (.mul (.mul (.smul (.lit 3) (.v 10 [.var 4, .var 8])) (.v 5 [.var 6, .var 10])) (.v 6 [.var 7, .var 9])) (.v 12 [.var 11, .var 5]))) (.mul (.mul (.mul (.v 5 [.var 6, .var 10]) (.v 11 [.var 4, .var 8])) (.v 6 [.var 7, .var 9])) (.v 12 [.var 11, .var 5]))) (.mul (.mul (.mul (.v 7 [.var 6, .var 8]) (.v 11 [.var 4, .var 9])) (.v 4 [.var 7, .var 10])) (.v 12 [.var 11, .var 5])))))) (.mem .c 2)))) <|
    -- 237: amplitude+=-normFactor*preZ*((-two*a12a.v(ds1a,ds2b)*a34a.v(ds3a,ds4a)*s14s.v(ds1b,ds4b)*s23s.v(ds2a,ds3b)-a13a.v(ds1a,ds3a)*a24a.v(ds2a,ds4a)*s14s.v(ds1b,ds4b)*s23s.v(ds2b,ds3b)-a14a.v(ds1a,ds4a)*a23a.v(ds2a,ds3a)*s13s.v(ds1b,ds3b)*s24s.v(ds2b,ds4b)+(three*a14a.v(ds1a,ds4a)*a23a.v(ds2a,ds3a)*a24a.v(ds2b,ds4b)*s13s.v(ds1b,ds3b)+four*a23a.v(ds2a,ds3b)*a34a.v(ds3a,ds4a)*s12s.v(ds1a,ds2b)*s14s.v(ds1b,ds4b)-four*a23a.v(ds2a,ds3a)*a24a.v(ds2b,ds4a)*s13s.v(ds1a,ds3b)*s14s.v(ds1b,ds4b)+two*a12a.v(ds1a,ds2b)*a34a.v(ds3a,ds4a)*s14s.v(ds1b,ds4b)*s23s.v(ds2a,ds3b)+three*a13a.v(ds1a,ds3a)*a14a.v(ds1b,ds4a)*a24a.v(ds2a,ds4b)*s23s.v(ds2b,ds3b)-a14a.v(ds1a,ds4a)*a24a.v(ds2a,ds4b)*s13s.v(ds1b,ds3a)*s23s.v(ds2b,ds3b)+two*a14a.v(ds1a,ds4a)*a23a.v(ds2a,ds3a)*s14s.v(ds1b,ds4b)*s23s.v(ds2b,ds3b)-three*a13a.v(ds1a,ds3a)*a24a.v(ds2a,ds4a)*s14s.v(ds1b,ds4b)*s23s.v(ds2b,ds3b)-three*a14a.v(ds1a,ds4a)*a23a.v(ds2a,ds3a)*s13s.v(ds1b,ds3b)*s24s.v(ds2b,ds4b)-three*a13a.v(ds1a,ds3a)*a23a.v(ds2a,ds3b)*s14s.v(ds1b,ds4a)*s24s.v(ds2b,ds4b)+a23a.v(ds2a,ds3a)*s13s.v(ds1a,ds3b)*s14s.v(ds1b,ds4a)*s24s.v(ds2b,ds4b)-four*a13a.v(ds1a,ds3a)*a14a.v(ds1b,ds4a)*s23s.v(ds2a,ds3b)*s24s.v(ds2b,ds4b)+a13a.v(ds1a,ds3a)*s14s.v(ds1b,ds4a)*s23s.v(ds2a,ds3b)*s24s.v(ds2b,ds4b)+four*a12a.v(ds1a,ds2b)*a14a.v(ds1b,ds4a)*s23s.v(ds2a,ds3b)*s34s.v(ds3a,ds4b))*CW*CW)*MZ+(-three*a14a.v(ds1a,ds4a)*a24a.v(ds2a,ds4b)*s23s.v(ds2b,ds3a)*s143a.v(ds1b,ds3b)+a24a.v(ds2a,ds4a)*s14s.v(ds1a,ds4b)*s23s.v(ds2b,ds3a)*s143a.v(ds1b,ds3b)-three*a14a.v(ds1a,ds4a)*a23a.v(ds2a,ds3a)*s24s.v(ds2b,ds4b)*s143a.v(ds1b,ds3b)+a14a.v(ds1a,ds4a)*s23s.v(ds2a,ds3a)*s24s.v(ds2b,ds4b)*s143a.v(ds1b,ds3b)+three*a23a.v(ds2a,ds3a)*a24a.v(ds2b,ds4a)*s14s.v(ds1a,ds4b)*s341a.v(ds3b,ds1b)-a24a.v(ds2a,ds4a)*s14s.v(ds1a,ds4b)*s23s.v(ds2b,ds3a)*s341a.v(ds3b,ds1b)+three*a14a.v(ds1a,ds4a)*a23a.v(ds2a,ds3a)*s24s.v(ds2b,ds4b)*s341a.v(ds3b,ds1b)-a23a.v(ds2a,ds3a)*s14s.v(ds1a,ds4a)*s24s.v(ds2b,ds4b)*s341a.v(ds3b,ds1b))*CW)/pDenUZ
    .set .c 0 (.add (.loc .c 0) (.div (.smul (.mul (.neg (.loc .r 0)) (.mem .r 10)) (.add (.smul (.mem .r 7) (.add (.sub (.sub (.mul (.mul (.mul (.smul (.neg (.lit 2)) (.v 1 [.var 4, .var 7])) (.v 2 [.var 8, .var 10])) (.v 9 [.var 5, .var 11])) (.v 6 [.var 6, .var 9])) (.mul (.mul (.mul (.v 10 [.var 4, .var 8]) (.v 5 [.var 6, .var 10])) (.v 9 [.var 5, .var 11])) (.v 6 [.var 7, .var 9]))) (.mul (.mul (.mul (.v 8 [.var 4, .var 10]) (.v 7 [.var 6, .var 8])) (.v 11 [.var 5, .var 9])) (.v 4 [.var 7, .var 11]))) (.smul (.mem .r 6) (.smul (.mem .r 6) (.add (.add (.sub (.add (.sub (.sub (.sub (.add (.sub (.add (.add (.sub (.add (.mul (.mul (.mul (.smul (.lit 3) (.v 8 [.var 4, .var 10])) (.v 7 [.var 6, .var 8])) (.v 5 [.var 7, .var 11])) (.v 11 [.var 5, .var 9])) (.mul (.mul (.mul (.smul (.lit 4) (.v 7 [.var 6, .var 9])) (.v 2 [.var 8, .var 10])) (.v 0 [.var 4, .var 7])) (.v 9 [.var 5, .var 11]))) (.mul (.mul (.mul (.smul (.lit 4) (.v 7 [.var 6, .var 8])) (.v 5 [.var 7, .var 10])) (.v 11 [.var 4, .var 9])) (.v 9 [.var 5, .var 11]))) (.mul (.mul (.mul (.smul (.lit 2) (.v 1 [.var 4, .var 7])) (.v 2 [.var 8, .var 10])) (.v 9 [.var 5, .var 11])) (.v 6 [.var 6, .var 9]))) (.mul (.mul (.mul (.smul (.lit 3) (.v 10 [.var 4, .var 8])) (.v 8 [.var 5, .var 10])) (.v 5 [.var 6, .var 11])) (.v 6 [.var 7, .var 9]))) (.mul (.mul (.mul (.v 8 [.var 4, .var 10]) (.v 5 [.var 6, .var 11])) (.v 11 [.var 5, .var 8])) (.v 6 [.var 7, .var 9]))) (.mul (.mul (.mul (.smul (.lit 2) (.v 8 [.var 4, .var 10])) (.v 7 [.var 6, .var 8])) (.v 9 [.var 5, .var 11])) (.v 6 [.var 7, .var 9]))) (.mul (.mul (.mul (.smul (.lit 3) (.v 10 [.var 4, .var 8])) (.v 5 [.var 6, .var 10])) (.v 9 [.var 5, .var 11])) (.v 6 [.var 7, .var 9]))) (.mul (.mul (.mul (.smul (.lit 3) (.v 8 [.var 4, .var 10])) (.v 7 [.var 6, .var 8])) (.v 11 [.var 5, .var 9])) (.v 4 [.var 7, .var 11]))) (.mul (.mul (.mul (.smul (.lit 3) (.v 10 [.var 4, .var 8])) (.v 7 [.var 6, .var 9])) (.v 9 [.var 5, .var 10])) (.v 4 [.var 7, .var 11]))) (.mul (.mul (.mul (.v 7 [.var 6, .var 8]) (.v 11 [.var 4, .var 9])) (.v 9 [.var 5, .var 10])) (.v 4 [.var 7, .var 11]))) (.mul (.mul (.mul (.smul (.lit 4) (.v 10 [.var 4, .var 8])) (.v 8 [.var 5, .var 10])) (.v 6 [.var 6, .var 9])) (.v 4 [.var 7, .var 11]))) (.mul (.mul (.mul (.v 10 [.var 4, .var 8]) (.v 9 [.var 5, .var 10])) (.v 6 [.var 6, .var 9])) (.v 4 [.var 7, .var 11]))) (.mul (.mul (.mul (.smul (.lit 4) (.v 1 [.var 4, .var 7])) (.v 8 [.var 5, .var 10])) (.v 6 [.var 6, .var 9])) (.v 3 [.var 8, .var 11]))))))) (.smul (.mem .r 6) (.sub (.add (.sub (.add (.add (.sub (.add (.mul (.mul (.mul (.smul (.neg (.lit 3)) (.v 8 [.var 4, .var 10])) (.v 5 [.var 6, .var 11])) (.v 6 [.var 7, .var 8])) (.v 15 [.var 5, .var 9])) (.mul (.mul (.mul (.v 5 [.var 6, .var 10]) (.v 9 [.var 4, .var 11])) (.v 6 [.var 7, .var 8])) (.v 15 [.var 5, .var 9]))) (.mul (.mul (.mul (.smul (.lit 3) (.v 8 [.var 4, .var 10])) (.v 7 [.var 6, .var 8])) (.v 4 [.var 7, .var 11])) (.v 15 [.var 5, .var 9]))) (.mul (.mul (.mul (.v 8 [.var 4, .var 10]) (.v 6 [.var 6, .var 8])) (.v 4 [.var 7, .var 11])) (.v 15 [.var 5, .var 9]))) (.mul (.mul (.mul (.smul (.lit 3) (.v 7 [.var 6, .var 8])) (.v 5 [.var 7, .var 10])) (.v 9 [.var 4, .var 11])) (.v 14 [.var 9, .var 5]))) (.mul (.mul (.mul (.v 5 [.var 6, .var 10]) (.v 9 [.var 4, .var 11])) (.v 6 [.var 7, .var 8])) (.v 14 [.var 9, .var 5]))) (.mul (.mul (.mul (.smul (.lit 3) (.v 8 [.var 4, .var 10])) (.v 7 [.var 6, .var 8])) (.v 4 [.var 7, .var 11])) (.v 14 [.var 9, .var 5]))) (.mul (.mul (.mul (.v 7 [.var 6, .var 8]) (.v 9 [.var 4, .var 10])) (.v 4 [.var 7, .var 11])) (.v 14 [.var 9, .var 5])))))) (.mem .c 3))))) <|
  -- 269: return amplitude
  .ret .c (.loc .c 0)⟩

/-- `ldouble amp2()` (SM/WWWW.cpp:273-288); variables: r 0 `amp2`, c 0 `M`, i 0 `j1`, i 1 `j2`, i 2 `j3`, i 3 `j4` -/
def m_amp2 : Method := ⟨0, 
  -- 274: ldouble amp2
  .seq (.set .r 0 (.lit 0)) <|
  -- 275: cdouble M
  .seq (.set .c 0 (.ofR (.lit 0))) <|
  -- 278: for(int j1=-2;j1<=2;j1+=2)
  .seq (.loop 0 (-2) true (.lit 2) 2 (
    -- 279: for(int j2=-2;j2<=2;j2+=2)
    .loop 1 (-2) true (.lit 2) 2 (
      -- 280: for(int j3=-2;j3<=2;j3+=2)
      .loop 2 (-2) true (.lit 2) 2 (
        -- 281: for(int j4=-2;j4<=2;j4+=2)
        .loop 3 (-2) true (.lit 2) 2 (
          -- 282: M=amp(j1,j2,j3,j4)
          .seq (.set .c 0 (.call 0 [.var 0, .var 1, .var 2, .var 3])) <|
          -- 283: amp2+=std::pow(std::abs(M),2)
          .set .r 0 (.add (.loc .r 0) (.pow (.abs (.loc .c 0)) 2))))))) <|
  -- 287: return amp2/18.0
  .ret .r (.div (.loc .r 0) (.lit 18))⟩

end WWWW

/-- `class WWWW` (SM/WWWW.cpp, SM/include/WWWW.h:25-34).  Members:
* ldouble: 0 `e`, 1 `mh`, 2 `wh`, 3 `MW`, 4 `WZ`, 5 `SW`, 6 `CW`, 7 `MZ`, 8 `preh`, 9 `preA`, 10 `preZ`
* cdouble: 0 `pDenTh`, 1 `pDenUh`, 2 `pDenTZ`, 3 `pDenUZ`, 4 `pDenTA`, 5 `pDenUA`
* propagator: 0 `proph`, 1 `propZ`, 2 `propA`
* sproduct: 0 `s12s`, 1 `a12a`, 2 `a34a`, 3 `s34s`, 4 `s24s`, 5 `a24a`, 6 `s23s`, 7 `a23a`, 8 `a14a`, 9 `s14s`, 10 `a13a`, 11 `s13s`, 12 `s431a`, 13 `s134a`, 14 `s341a`, 15 `s143a`, 16 `s43s`, 17 `a43a` -/
def WWWW : Proc where
  name := "WWWW"
  nPar := 6
  ctor := WWWW.ctor
  setMasses := WWWW.setMasses
  massPar := [1, 3]
  setMomenta := WWWW.setMomenta
  methods := [WWWW.m_amp2, WWWW.m_amp]
  amp2 := 1
  others := []

namespace WWWW2

/-- constructor (SM/WWWW2.cpp:32-65); parameters: 0 `echarge`, 1 `massh`, 2 `widthh`, 3 `massW`, 4 `widthZ`, 5 `sinW` -/
def ctor : List SInstr := [
  -- 32: e(echarge)
  .set .r 0 (.loc .r 0),
  -- 32: mh(massh)
  .set .r 1 (.loc .r 1),
  -- 32: wh(widthh)
  .set .r 2 (.loc .r 2),
  -- 32: MW(massW)
  .set .r 3 (.loc .r 3),
  -- 32: WZ(widthZ)
  .set .r 4 (.loc .r 4),
  -- 32: SW(sinW)
  .set .r 5 (.loc .r 5),
  -- 32: CW(std::sqrt(1.0-sinW*sinW))
  .set .r 6 (.sqrt (.sub (.lit 1) (.mul (.loc .r 5) (.loc .r 5)))),
  -- 32: MZ(massW/CW)
  .set .r 7 (.div (.loc .r 3) (.mem .r 6)),
  -- 34: CW=std::sqrt(1.0-sinW*sinW)
  .set .r 6 (.sqrt (.sub (.lit 1) (.mul (.loc .r 5) (.loc .r 5)))),
  -- 35: MZ=MW/CW
  .set .r 7 (.div (.mem .r 3) (.mem .r 6)),
  -- 36: proph=propagator(mh,wh)
  .prop 0 (.mem .r 1) (.mem .r 2),
  -- 37: propZ=propagator(MZ,WZ)
  .prop 1 (.mem .r 7) (.mem .r 4),
  -- 38: propA=propagator(0,0)
  .prop 2 (.lit 0) (.lit 0),
  -- 39: p1=particle(MW)
  .part 0 (.mem .r 3),
  -- 40: p2=particle(MW)
  .part 1 (.mem .r 3),
  -- 41: p3=particle(MW)
  .part 2 (.mem .r 3),
  -- 42: p4=particle(MW)
  .part 3 (.mem .r 3),
  -- 44: s14s=sproduct(SQUARE,&p1,&p4)
  .sprod 0 ⟨false, 0, true, [], 3, true⟩,
  -- 45: a14a=sproduct(ANGLE,&p1,&p4)
  .sprod 1 ⟨true, 0, true, [], 3, true⟩,
  -- 46: s32s=sproduct(SQUARE,&p3,&p2)
  .sprod 3 ⟨false, 2, true, [], 1, true⟩,
  -- 47: a32a=sproduct(ANGLE,&p3,&p2)
  .sprod 2 ⟨true, 2, true, [], 1, true⟩,
  -- 48: s43s=sproduct(SQUARE,&p4,&p3)
  .sprod 6 ⟨false, 3, true, [], 2, true⟩,
  -- 49: a43a=sproduct(ANGLE,&p4,&p3)
  .sprod 7 ⟨true, 3, true, [], 2, true⟩,
  -- 50: s42s=sproduct(SQUARE,&p4,&p2)
  .sprod 4 ⟨false, 3, true, [], 1, true⟩,
  -- 51: a42a=sproduct(ANGLE,&p4,&p2)
  .sprod 5 ⟨true, 3, true, [], 1, true⟩,
  -- 52: s12s=sproduct(SQUARE,&p1,&p2)
  .sprod 9 ⟨false, 0, true, [], 1, true⟩,
  -- 53: a12a=sproduct(ANGLE,&p1,&p2)
  .sprod 8 ⟨true, 0, true, [], 1, true⟩,
  -- 54: s13s=sproduct(SQUARE,&p1,&p3)
  .sprod 11 ⟨false, 0, true, [], 2, true⟩,
  -- 55: a13a=sproduct(ANGLE,&p1,&p3)
  .sprod 10 ⟨true, 0, true, [], 2, true⟩,
  -- 57: s132a=sproduct(SQUARE,&p1,&p3,&p2)
  .sprod 13 ⟨false, 0, true, [2], 1, true⟩,
  -- 58: s231a=sproduct(SQUARE,&p2,&p3,&p1)
  .sprod 12 ⟨false, 1, true, [2], 0, true⟩,
  -- 59: s123a=sproduct(SQUARE,&p1,&p2,&p3)
  .sprod 14 ⟨false, 0, true, [1], 2, true⟩,
  -- 60: s321a=sproduct(SQUARE,&p3,&p2,&p1)
  .sprod 15 ⟨false, 2, true, [1], 0, true⟩,
  -- 62: preh=e*e/(MW*MW*SW*SW)
  .set .r 8 (.div (.mul (.mem .r 0) (.mem .r 0)) (.mul (.mul (.mul (.mem .r 3) (.mem .r 3)) (.mem .r 5)) (.mem .r 5))),
  -- 63: preA=e*e/(2.0*MW*MW*MW)
  .set .r 9 (.div (.mul (.mem .r 0) (.mem .r 0)) (.mul (.mul (.mul (.lit 2) (.mem .r 3)) (.mem .r 3)) (.mem .r 3))),
  -- 64: preZ=e*e/(2.0*MW*MW*MZ*SW*SW)
  .set .r 10 (.div (.mul (.mem .r 0) (.mem .r 0)) (.mul (.mul (.mul (.mul (.mul (.lit 2) (.mem .r 3)) (.mem .r 3)) (.mem .r 7)) (.mem .r 5)) (.mem .r 5)))]

/-- `set_masses` (SM/WWWW2.cpp:66-80); parameters: 0 `massh`, 1 `massW` -/
def setMasses : List SInstr := [
  -- 67: mh=massh
  .set .r 1 (.loc .r 0),
  -- 68: MW=massW
  .set .r 3 (.loc .r 1),
  -- 69: MZ=MW/CW
  .set .r 7 (.div (.mem .r 3) (.mem .r 6)),
  -- 70: p1.set_mass(MW)
  .setMass 0 (.mem .r 3),
  -- 71: p2.set_mass(MW)
  .setMass 1 (.mem .r 3),
  -- 72: p3.set_mass(MW)
  .setMass 2 (.mem .r 3),
  -- 73: p4.set_mass(MW)
  .setMass 3 (.mem .r 3),
  -- 74: proph.set_mass(mh)
  .propMass 0 (.mem .r 1),
  -- 75: propZ.set_mass(MZ)
  .propMass 1 (.mem .r 7),
  -- 77: preh=e*e/(MW*MW*SW*SW)
  .set .r 8 (.div (.mul (.mem .r 0) (.mem .r 0)) (.mul (.mul (.mul (.mem .r 3) (.mem .r 3)) (.mem .r 5)) (.mem .r 5))),
  -- 78: preA=e*e/(2.0*MW*MW*MW)
  .set .r 9 (.div (.mul (.mem .r 0) (.mem .r 0)) (.mul (.mul (.mul (.lit 2) (.mem .r 3)) (.mem .r 3)) (.mem .r 3))),
  -- 79: preZ=e*e/(2.0*MW*MW*MZ*SW*SW)
  .set .r 10 (.div (.mul (.mem .r 0) (.mem .r 0)) (.mul (.mul (.mul (.mul (.mul (.lit 2) (.mem .r 3)) (.mem .r 3)) (.mem .r 7)) (.mem .r 5)) (.mem .r 5)))]

/-- `set_momenta` (SM/WWWW2.cpp:81-118); parameters: 0 `mom1`, 1 `mom2`, 2 `mom3`, 3 `mom4` -/
def setMomenta : List SInstr := [
  -- 83: p1.set_momentum(mom1)
  .setMom 0 0,
  -- 84: p2.set_momentum(mom2)
  .setMom 1 1,
  -- 85: p3.set_momentum(mom3)
  .setMom 2 2,
  -- 86: p4.set_momentum(mom4)
  .setMom 3 3,
  -- 88: s14s.update()
  .update 0,
  -- 89: a14a.update()
  .update 1,
  -- 90: s32s.update()
  .update 3,
  -- 91: a32a.update()
  .update 2,
  -- 92: s43s.update()
  .update 6,
  -- 93: a43a.update()
  .update 7,
  -- 94: s42s.update()
  .update 4,
  -- 95: a42a.update()
  .update 5,
  -- 96: s12s.update()
  .update 9,
  -- 97: a12a.update()
  .update 8,
  -- 98: s13s.update()
  .update 11,
  -- 99: a13a.update()
  .update 10,
  -- 101: s231a.update()
  .update 12,
  -- 102: s132a.update()
  .update 13,
  -- 103: s123a.update()
  .update 14,
  -- 104: s321a.update()
  .update 15,
  -- 112: pDenTh=proph.denominator(propTP)
  .den .c 0 0 (.sub 0 2),
  -- 113: pDenSh=proph.denominator(propSP)
  .den .c 1 0 (.add 0 1),
  -- 114: pDenTZ=propZ.denominator(propTP)
  .den .c 2 1 (.sub 0 2),
  -- 115: pDenSZ=propZ.denominator(propSP)
  .den .c 3 1 (.add 0 1),
  -- 116: pDenTA=propA.denominator(propTP)
  .den .c 4 2 (.sub 0 2),
  -- 117: pDenSA=propA.denominator(propSP)
  .den .c 5 2 (.add 0 1)]

/-- `cdouble amp(ds1,ds2,ds3,ds4)` (SM/WWWW2.cpp:123-275); variables: i 0 `ds1`, i 1 `ds2`, i 2 `ds3`, i 3 `ds4`, c 0 `amplitude`, i 4 `ds1a`, i 5 `ds1b`, i 6 `ds2a`, i 7 `ds2b`, i 8 `ds3a`, i 9 `ds3b`, i 10 `ds4a`, i 11 `ds4b`, i 12 `nCombs`, r 0 `normFactor`, i 13 `i` -/
def m_amp : Method := ⟨4, 
  -- 124: cdouble amplitude
  .seq (.set .c 0 (.ofR (.lit 0))) <|
  -- 129: int nCombs
  .seq (.seti 12 (.loops [0, 1, 2, 3])) <|
  -- 130: ldouble normFactor
  .seq (.set .r 0 (.norm [0, 1, 2, 3])) <|
  -- 132: for(int i=0;i<nCombs;i++)
  .seq (.loop 13 0 false (.var 12) 1 (
    -- 133: get_spinor_spins(ds1,ds1a,ds1b,ds2,ds2a,ds2b,ds3,ds3a,ds3b,ds4,ds4a,ds4b,i)
    .seq (.spins [(0, 4, 5), (1, 6, 7), (2, 8, 9), (3, 10, 11)] (.var 13)) <|
    -- 144: amplitude+=-normFactor*preh*s13s.v(ds1a,ds3a)*a13a.v(ds1b,ds3b)*s42s.v(ds4a,ds2a)*a42a.v(ds4b,ds2b)/pDenTh
    .seq (.set .c 0 (.add (.loc .c 0) (.div (.mul (.mul (.mul (.smul (.mul (.neg (.loc .r 0)) (.mem .r 8)) (.v 11 [.var 4, .var 8])) (.v 10 [.var 5, .var 9])) (.v 4 [.var 10, .var 6])) (.v 5 [.var 11, .var 7])) (.mem .c 0)))) <|
    -- 154: amplitude+=-normFactor*preh*s12s.v(ds1a,ds2a)*a12a.v(ds1b,ds2b)*s43s.v(ds4a,ds3a)*a43a.v(ds4b,ds3b)/pDenSh
    .seq (.set .c 0 (.add (.loc .c 0) (.div (.mul (.mul (.mul (.smul (.mul (.neg (.loc .r 0)) (.mem .r 8)) (.v 9 [.var 4, .var 6])) (.v 8 [.var 5, .var 7])) (.v 6 [.var 10, .var 8])) (.v 7 [.var 11, .var 9])) (.mem .c 1)))) <|
    -- 158: amplitude+=-normFactor*preZ*((two*a14a.v(ds1a,ds4b)*a32a.v(ds3a,ds2a)*s13s.v(ds1b,ds3b)*s42s.v(ds4a,ds2b)-a12a.v(ds1a,ds2b)*a43a.v(ds4a,ds3a)*s13s.v(ds1b,ds3b)*s42s.v(ds4b,ds2a)-a13a.v(ds1a,ds3b)*a42a.v(ds4a,ds2a)*s12s.v(ds1b,ds2b)*s43s.v(ds4b,ds3a)+(-three*a13a.v(ds1a,ds3b)*a42a.v(ds4a,ds2a)*a43a.v(ds4b,ds3a)*s12s.v(ds1b,ds2b)+four*a42a.v(ds4a,ds2a)*a43a.v(ds4b,ds3a)*s12s.v(ds1a,ds2b)*s13s.v(ds1b,ds3b)+four*a32a.v(ds3a,ds2a)*a42a.v(ds4a,ds2b)*s13s.v(ds1a,ds3b)*s14s.v(ds1b,ds4b)-two*a14a.v(ds1a,ds4b)*a32a.v(ds3a,ds2a)*s13s.v(ds1b,ds3b)*s42s.v(ds4a,ds2b)+four*a13a.v(ds1a,ds3b)*a14a.v(ds1b,ds4b)*s32s.v(ds3a,ds2a)*s42s.v(ds4a,ds2b)+three*a12a.v(ds1a,ds2b)*a13a.v(ds1b,ds3b)*a43a.v(ds4a,ds3a)*s42s.v(ds4b,ds2a)+a13a.v(ds1a,ds3b)*a43a.v(ds4a,ds3a)*s12s.v(ds1b,ds2b)*s42s.v(ds4b,ds2a)-three*a12a.v(ds1a,ds2b)*a43a.v(ds4a,ds3a)*s13s.v(ds1b,ds3b)*s42s.v(ds4b,ds2a)+two*a13a.v(ds1a,ds3a)*a42a.v(ds4a,ds2a)*s13s.v(ds1b,ds3b)*s42s.v(ds4b,ds2b)-three*a13a.v(ds1a,ds3b)*a42a.v(ds4a,ds2a)*s12s.v(ds1b,ds2b)*s43s.v(ds4b,ds3a)+three*a12a.v(ds1a,ds2b)*a42a.v(ds4a,ds2a)*s13s.v(ds1b,ds3b)*s43s.v(ds4b,ds3a)+a42a.v(ds4a,ds2a)*s12s.v(ds1a,ds2b)*s13s.v(ds1b,ds3b)*s43s.v(ds4b,ds3a)+four*a12a.v(ds1a,ds2b)*a13a.v(ds1b,ds3b)*s42s.v(ds4a,ds2a)*s43s.v(ds4b,ds3a)-a12a.v(ds1a,ds2b)*s13s.v(ds1b,ds3b)*s42s.v(ds4a,ds2a)*s43s.v(ds4b,ds3a))*CW*CW)*MZ+(-three*a13a.v(ds1a,ds3b)*a43a.v(ds4a,ds3a)*s42s.v(ds4b,ds2a)*s132a.v(ds1b,ds2b)+a43a.v(ds4a,ds3a)*s13s.v(ds1a,ds3b)*s42s.v(ds4b,ds2a)*s132a.v(ds1b,ds2b)+three*a13a.v(ds1a,ds3b)*a42a.v(ds4a,ds2a)*s43s.v(ds4b,ds3a)*s132a.v(ds1b,ds2b)-a13a.v(ds1a,ds3b)*s42s.v(ds4a,ds2a)*s43s.v(ds4b,ds3a)*s132a.v(ds1b,ds2b)-three*a42a.v(ds4a,ds2a)*a43a.v(ds4b,ds3a)*s13s.v(ds1a,ds3b)*s231a.v(ds2b,ds1b)+a43a.v(ds4a,ds3a)*s13s.v(ds1a,ds3b)*s42s.v(ds4b,ds2a)*s231a.v(ds2b,ds1b)+three*a13a.v(ds1a,ds3b)*a42a.v(ds4a,ds2a)*s43s.v(ds4b,ds3a)*s231a.v(ds2b,ds1b)-a42a.v(ds4a,ds2a)*s13s.v(ds1a,ds3b)*s43s.v(ds4b,ds3a)*s231a.v(ds2b,ds1b))*CW)/pDenTZ
    .seq (.set .c 0 (.add (.loc .c 0) (.div (.smul (.mul (.neg (.loc .r 0)) (.mem .r 10)) (.add (.smul (.mem .r 7) (.add (.sub (.sub (.mul (.mul (.mul (.smul (.lit 2) (.v 1 [.var 4, .var 11])) (.v 2 [.var 8, .var 6])) (.v 11 [.var 5, .var 9])) (.v 4 [.var 10, .var 7])) (.mul (.mul (.mul (.v 8 [.var 4, .var 7]) (.v 7 [.var 10, .var 8])) (.v 11 [.var 5, .var 9])) (.v 4 [.var 11, .var 6]))) (.mul (.mul (.mul (.v 10 [.var 4, .var 9]) (.v 5 [.var 10, .var 6])) (.v 9 [.var 5, .var 7])) (.v 6 [.var 11, .var 8]))) (.smul (.mem .r 6) (.smul (.mem .r 6) (.sub (.add (.add (.add (.sub (.add (.sub (.add (.add (.add (.sub (.add (.add (.mul (.mul (.mul (.smul (.neg (.lit 3)) (.v 10 [.var 4, .var 9])) (.v 5 [.var 10, .var 6])) (.v 7 [.var 11, .var 8])) (.v 9 [.var 5, .var 7])) (.mul (.mul (.mul (.smul (.lit 4) (.v 5 [.var 10, .var 6])) (.v 7 [.var 11, .var 8])) (.v 9 [.var 4, .var 7])) (.v 11 [.var 5, .var 9]))) (.mul (.mul (.mul (.smul (.lit 4) (.v 2 [.var 8, .var 6])) (.v 5 [.var 10, .var 7])) (.v 11 [.var 4, .var 9])) (.v 0 [.var 5, .var 11]))) (.mul (.mul (.mul (.smul (.lit 2) (.v 1 [.var 4, .var 11])) (.v 2 [.var 8, .var 6])) (.v 11 [.var 5, .var 9])) (.v 4 [.var 10, .var 7]))) (.mul (.mul (.mul (.smul (.lit 4) (.v 10 [.var 4, .var 9])) (.v 1 [.var 5, .var 11])) (.v 3 [.var 8, .var 6])) (.v 4 [.var 10, .var 7]))) (.mul (.mul (.mul (.smul (.lit 3) (.v 8 [.var 4, .var 7])) (.v 10 [.var 5, .var 9])) (.v 7 [.var 10, .var 8])) (.v 4 [.var 11, .var 6]))) (.mul (.mul (.mul (.v 10 [.var 4, .var 9]) (.v 7 [.var 10, .var 8])) (.v 9 [.var 5, .var 7])) (.v 4 [.var 11, .var 6]))) (.mul (.mul (.mul (.smul (.lit 3) (.v 8 [.var 4, .var 7])) (.v 7 [.var 10, .var 8])) (.v 11 [.var 5, .var 9])) (.v 4 [.var 11, .var 6]))) (.mul (.mul (.mul (.smul (.lit 2) (.v 10 [.var 4, .var 8])) (.v 5 [.var 10, .var 6])) (.v 11 [.var 5, .var 9])) (.v 4 [.var 11, .var 7]))) (.mul (.mul (.mul (.smul (.lit 3) (.v 10 [.var 4, .var 9])) (.v 5 [.var 10, .var 6])) (.v 9 [.var 5, .var 7])) (.v 6 [.var 11, .var 8]))) (.mul (.mul (.mul (.smul (.lit 3) (.v 8 [.var 4, .var 7])) (.v 5 [.var 10, .var 6])) (.v 11 [.var 5, .var 9])) (.v 6 [.var 11, .var 8]))) (.mul (.mul (.mul (.v 5 [.var 10, .var 6]) (.v 9 [.var 4, .var 7])) (.v 11 [.var 5, .var 9])) (.v 6 [.var 11, .var 8]))) (.mul (.mul (.mul (.smul (.lit 4) (.v 8 [.var 4, .var 7])) (.v 10 [.var 5, .var 9])) (.v 4 [.var 10, .var 6])) (.v 6 [.var 11, .var 8]))) (.mul (.mul (.mul (.v 8 [.var 4, .var 7]) (.v 11 [.var 5, .var 9])) (.v 4 [.var 10, .var 6])) (.v 6 [.var 11, .var 8]))))))) (.smul (.mem .r 6) (.sub (.add (.add (.sub (.sub (.add (.add (.mul (.mul (.mul (.smul (.neg (.lit 3)) (.v 10 [.var 4, .var 9])) (.v 7 [.var 10, .var 8])) (.v 4 [.var 11, .var 6])) (.v 13 [.var 5, .var 7])) (.mul (.mul (.mul (.v 7 [.var 10, .var 8]) (.v 11 [.var 4, .var 9])) (.v 4 [.var 11, .var 6])) (.v 13 [.var 5, .var 7]))) (.mul (.mul (.mul (.smul (.lit 3) (.v 10 [.var 4, .var 9])) (.v 5 [.var 10, .var 6])) (.v 6 [.var 11, .var 8])) (.v 13 [.var 5, .var 7]))) (.mul (.mul (.mul (.v 10 [.var 4, .var 9]) (.v 4 [.var 10, .var 6])) (.v 6 [.var 11, .var 8])) (.v 13 [.var 5, .var 7]))) (.mul (.mul (.mul (.smul (.lit 3) (.v 5 [.var 10, .var 6])) (.v 7 [.var 11, .var 8])) (.v 11 [.var 4, .var 9])) (.v 12 [.var 7, .var 5]))) (.mul (.mul (.mul (.v 7 [.var 10, .var 8]) (.v 11 [.var 4, .var 9])) (.v 4 [.var 11, .var 6])) (.v 12 [.var 7, .var 5]))) (.mul (.mul (.mul (.smul (.lit 3) (.v 10 [.var 4, .var 9])) (.v 5 [.var 10, .var 6])) (.v 6 [.var 11, .var 8])) (.v 12 [.var 7, .var 5]))) (.mul (.mul (.mul (.v 5 [.var 10, .var 6]) (.v 11 [.var 4, .var 9])) (.v 6 [.var 11, .var 8])) (.v 12 [.var 7, .var 5])))))) (.mem .c 2)))) <|
    -- 188: amplitude+=-normFactor*preZ*((-two*a14a.v(ds1a,ds4b)*a32a.v(ds3a,ds2a)*s12s.v(ds1b,ds2b)*s43s.v(ds4a,ds3b)-a12a.v(ds1a,ds2b)*a43a.v(ds4a,ds3a)*s13s.v(ds1b,ds3b)*s42s.v(ds4b,ds2a)-a13a.v(ds1a,ds3b)*a42a.v(ds4a,ds2a)*s12s.v(ds1b,ds2b)*s43s.v(ds4b,ds3a)+(three*a12a.v(ds1a,ds2b)*a42a.v(ds4a,ds2a)*a43a.v(ds4b,ds3a)*s13s.v(ds1b,ds3b)+four*a42a.v(ds4a,ds2a)*a43a.v(ds4b,ds3a)*s12s.v(ds1a,ds2b)*s13s.v(ds1b,ds3b)+four*a32a.v(ds3a,ds2a)*a43a.v(ds4a,ds3b)*s12s.v(ds1a,ds2b)*s14s.v(ds1b,ds4b)+two*a14a.v(ds1a,ds4b)*a32a.v(ds3a,ds2a)*s12s.v(ds1b,ds2b)*s43s.v(ds4a,ds3b)+four*a12a.v(ds1a,ds2b)*a14a.v(ds1b,ds4b)*s32s.v(ds3a,ds2a)*s43s.v(ds4a,ds3b)+three*a13a.v(ds1a,ds3b)*a43a.v(ds4a,ds3a)*s12s.v(ds1b,ds2b)*s42s.v(ds4b,ds2a)-three*a12a.v(ds1a,ds2b)*a43a.v(ds4a,ds3a)*s13s.v(ds1b,ds3b)*s42s.v(ds4b,ds2a)-a43a.v(ds4a,ds3a)*s12s.v(ds1a,ds2b)*s13s.v(ds1b,ds3b)*s42s.v(ds4b,ds2a)-three*a12a.v(ds1a,ds2b)*a13a.v(ds1b,ds3b)*a42a.v(ds4a,ds2a)*s43s.v(ds4b,ds3a)-three*a13a.v(ds1a,ds3b)*a42a.v(ds4a,ds2a)*s12s.v(ds1b,ds2b)*s43s.v(ds4b,ds3a)+a12a.v(ds1a,ds2b)*a42a.v(ds4a,ds2a)*s13s.v(ds1b,ds3b)*s43s.v(ds4b,ds3a)+four*a12a.v(ds1a,ds2b)*a13a.v(ds1b,ds3b)*s42s.v(ds4a,ds2a)*s43s.v(ds4b,ds3a)+a13a.v(ds1a,ds3b)*s12s.v(ds1b,ds2b)*s42s.v(ds4a,ds2a)*s43s.v(ds4b,ds3a)+two*a12a.v(ds1a,ds2a)*a43a.v(ds4a,ds3a)*s12s.v(ds1b,ds2b)*s43s.v(ds4b,ds3b))*CW*CW)*MZ+(three*a12a.v(ds1a,ds2b)*a43a.v(ds4a,ds3a)*s42s.v(ds4b,ds2a)*s123a.v(ds1b,ds3b)-three*a12a.v(ds1a,ds2b)*a42a.v(ds4a,ds2a)*s43s.v(ds4b,ds3a)*s123a.v(ds1b,ds3b)-a42a.v(ds4a,ds2a)*s12s.v(ds1a,ds2b)*s43s.v(ds4b,ds3a)*s123a.v(ds1b,ds3b)+a12a.v(ds1a,ds2b)*s42s.v(ds4a,ds2a)*s43s.v(ds4b,ds3a)*s123a.v(ds1b,ds3b)+three*a42a.v(ds4a,ds2a)*a43a.v(ds4b,ds3a)*s12s.v(ds1a,ds2b)*s321a.v(ds3b,ds1b)-three*a12a.v(ds1a,ds2b)*a43a.v(ds4a,ds3a)*s42s.v(ds4b,ds2a)*s321a.v(ds3b,ds1b)-a43a.v(ds4a,ds3a)*s12s.v(ds1a,ds2b)*s42s.v(ds4b,ds2a)*s321a.v(ds3b,ds1b)+a42a.v(ds4a,ds2a)*s12s.v(ds1a,ds2b)*s43s.v(ds4b,ds3a)*s321a.v(ds3b,ds1b))*CW)/pDenSZ
    .seq (.set .c 0 (.add (.loc .c 0) (.div (.smul (.mul (.neg (.loc .r 0)) (.mem .r 10)) (.add (.smul (.mem .r 7) (.add (.sub (.sub (.mul (.mul (.mul (.smul (.neg (.lit 2)) (.v 1 [.var 4, .var 11])) (.v 2 [.var 8, .var 6])) (.v 9 [.var 5, .var 7])) (.v 6 [.var 10, .var 9])) (.mul (.mul (.mul (.v 8 [.var 4, .var 7]) (.v 7 [.var 10, .var 8])) (.v 11 [.var 5, .var 9])) (.v 4 [.var 11, .var 6]))) (.mul (.mul (.mul (.v 10 [.var 4, .var 9]) (.v 5 [.var 10, .var 6])) (.v 9 [.var 5, .var 7])) (.v 6 [.var 11, .var 8]))) (.smul (.mem .r 6) (.smul (.mem .r 6) (.add (.add (.add (.add (.sub (.sub (.sub (.sub (.add (.add (.add (.add (.add (.mul (.mul (.mul (.smul (.lit 3) (.v 8 [.var 4, .var 7])) (.v 5 [.var 10, .var 6])) (.v 7 [.var 11, .var 8])) (.v 11 [.var 5, .var 9])) (.mul (.mul (.mul (.smul (.lit 4) (.v 5 [.var 10, .var 6])) (.v 7 [.var 11, .var 8])) (.v 9 [.var 4, .var 7])) (.v 11 [.var 5, .var 9]))) (.mul (.mul (.mul (.smul (.lit 4) (.v 2 [.var 8, .var 6])) (.v 7 [.var 10, .var 9])) (.v 9 [.var 4, .var 7])) (.v 0 [.var 5, .var 11]))) (.mul (.mul (.mul (.smul (.lit 2) (.v 1 [.var 4, .var 11])) (.v 2 [.var 8, .var 6])) (.v 9 [.var 5, .var 7])) (.v 6 [.var 10, .var 9]))) (.mul (.mul (.mul (.smul (.lit 4) (.v 8 [.var 4, .var 7])) (.v 1 [.var 5, .var 11])) (.v 3 [.var 8, .var 6])) (.v 6 [.var 10, .var 9]))) (.mul (.mul (.mul (.smul (.lit 3) (.v 10 [.var 4, .var 9])) (.v 7 [.var 10, .var 8])) (.v 9 [.var 5, .var 7])) (.v 4 [.var 11, .var 6]))) (.mul (.mul (.mul (.smul (.lit 3) (.v 8 [.var 4, .var 7])) (.v 7 [.var 10, .var 8])) (.v 11 [.var 5, .var 9])) (.v 4 [.var 11, .var 6]))) (.mul (.mul (.mul (.v 7 [.var 10, .var 8]) (.v 9 [.var 4, .var 7])) (.v 11 [.var 5, .var 9])) (.v 4 [.var 11, .var 6]))) (.mul (.mul (.mul (.smul (.lit 3) (.v 8 [.var 4, .var 7])) (.v 10 [.var 5, .var 9])) (.v 5 [.var 10, .var 6])) (.v 6 [.var 11, .var 8]))) (.mul (.mul (.mul (.smul (.lit 3) (.v 10 [.var 4, .var 9])) (.v 5 [.var 10, .var 6])) (.v 9 [.var 5, .var 7])) (.v 6 [.var 11, .var 8]))) (.mul (.mul (.mul (.v 8 [.var 4, .var 7]) (.v 5 [.var 10, .var 6])) (.v 11 [.var 5, .var 9])) (.v 6 [.var 11, .var 8]))) (.mul (.mul (.mul (.smul (.lit 4) (.v 8 [.var 4, .var 7])) (.v 10 [.var 5, .var 9])) (.v 4 [.var 10, .var 6])) (.v 6 [.var 11, .var 8]))) (.mul (.mul (.mul (.v 10 [.var 4, .var 9]) (.v 9 [.var 5, .var 7])) (.v 4 [.var 10, .var 6])) (.v 6 [.var 11, .var 8]))) (.mul (.mul (.mul (.smul (.lit 2) (.v 8 [.var 4, .var 6])) (.v 7 [.var 10, .var 8])) (.v 9 [.var 5, .var 7])) (.v 6 [.var 11, .var 9]))))))) (.smul (.mem .r 6) (.add (.sub (.sub (.add (.add (.sub (.sub (.mul (.mul (.mul (.smul (.lit 3) (.v 8 [.var 4, .var 7])) (.v 7 [.var 10, .var 8])) (.v 4 [.var 11, .var 6])) (.v 14 [.var 5, .var 9])) (.mul (.mul (.mul (.smul (.lit 3) (.v 8 [.var 4, .var 7])) (.v 5 [.var 10, .var 6])) (.v 6 [.var 11, .var 8])) (.v 14 [.var 5, .var 9]))) (.mul (.mul (.mul (.v 5 [.var 10, .var 6]) (.v 9 [.var 4, .var 7])) (.v 6 [.var 11, .var 8])) (.v 14 [.var 5, .var 9]))) (.mul (.mul (.mul (.v 8 [.var 4, .var 7]) (.v 4 [.var 10, .var 6])) (.v 6 [.var 11, .var 8])) (.v 14 [.var 5, .var 9]))) (.mul (.mul (.mul (.smul (.lit 3) (.v 5 [.var 10, .var 6])) (.v 7 [.var 11, .var 8])) (.v 9 [.var 4, .var 7])) (.v 15 [.var 9, .var 5]))) (.mul (.mul (.mul (.smul (.lit 3) (.v 8 [.var 4, .var 7])) (.v 7 [.var 10, .var 8])) (.v 4 [.var 11, .var 6])) (.v 15 [.var 9, .var 5]))) (.mul (.mul (.mul (.v 7 [.var 10, .var 8]) (.v 9 [.var 4, .var 7])) (.v 4 [.var 11, .var 6])) (.v 15 [.var 9, .var 5]))) (.mul (.mul (.mul (.v 5 [.var 10, .var 6]) (.v 9 [.var 4, .var 7])) (.v 6 [.var 11, .var 8])) (.v 15 [.var 9, .var 5])))))) (.mem .c 3)))) <|
    -- 218: amplitude+=normFactor*preA*((three*a13a.v(ds1a,ds3b)*a42a.v(ds4a,ds2a)*a43a.v(ds4b,ds3a)*s12s.v(ds1b,ds2b)-four*a42a.v(ds4a,ds2a)*a43a.v(ds4b,ds3a)*s12s.v(ds1a,ds2b)*s13s.v(ds1b,ds3b)-four*a32a.v(ds3a,ds2a)*a42a.v(ds4a,ds2b)*s13s.v(ds1a,ds3b)*s14s.v(ds1b,ds4b)+two*a14a.v(ds1a,ds4b)*a32a.v(ds3a,ds2a)*s13s.v(ds1b,ds3b)*s42s.v(ds4a,ds2b)-four*a13a.v(ds1a,ds3b)*a14a.v(ds1b,ds4b)*s32s.v(ds3a,ds2a)*s42s.v(ds4a,ds2b)-three*a12a.v(ds1a,ds2b)*a13a.v(ds1b,ds3b)*a43a.v(ds4a,ds3a)*s42s.v(ds4b,ds2a)-a13a.v(ds1a,ds3b)*a43a.v(ds4a,ds3a)*s12s.v(ds1b,ds2b)*s42s.v(ds4b,ds2a)+three*a12a.v(ds1a,ds2b)*a43a.v(ds4a,ds3a)*s13s.v(ds1b,ds3b)*s42s.v(ds4b,ds2a)-two*a13a.v(ds1a,ds3a)*a42a.v(ds4a,ds2a)*s13s.v(ds1b,ds3b)*s42s.v(ds4b,ds2b)+three*a13a.v(ds1a,ds3b)*a42a.v(ds4a,ds2a)*s12s.v(ds1b,ds2b)*s43s.v(ds4b,ds3a)-three*a12a.v(ds1a,ds2b)*a42a.v(ds4a,ds2a)*s13s.v(ds1b,ds3b)*s43s.v(ds4b,ds3a)-a42a.v(ds4a,ds2a)*s12s.v(ds1a,ds2b)*s13s.v(ds1b,ds3b)*s43s.v(ds4b,ds3a)-four*a12a.v(ds1a,ds2b)*a13a.v(ds1b,ds3b)*s42s.v(ds4a,ds2a)*s43s.v(ds4b,ds3a)+a12a.v(ds1a,ds2b)*s13s.v(ds1b,ds3b)*s42s.v(ds4a,ds2a)*s43s.v(ds4b,ds3a))*MW+three*a13a.v(ds1a,ds3b)*a43a.v(ds4a,ds3a)*s42s.v(ds4b,ds2a)*s132a.v(ds1b,ds2b)-a43a.v(ds4a,ds3a)*s13s.v(ds1a,ds3b)*s42s.v(ds4b,ds2a)*s132a.v(ds1b,ds2b)-three*a13a.v(ds1a,ds3b)*a42a.v(ds4a,ds2a)*s43s.v(ds4b,ds3a)*s132a.v(ds1b,ds2b)+a13a.v(ds1a,ds3b)*s42s.v(ds4a,ds2a)*s43s.v(ds4b,ds3a)*s132a.v(ds1b,ds2b)+three*a42a.v(ds4a,ds2a)*a43a.v(ds4b,ds3a)*s13s.v(ds1a,ds3b)*s231a.v(ds2b,ds1b)-a43a.v(ds4a,ds3a)*s13s.v(ds1a,ds3b)*s42s.v(ds4b,ds2a)*s231a.v(ds2b,ds1b)-three*a13a.v(ds1a,ds3b)*a42a.v(ds4a,ds2a)*s43s.v(ds4b,ds3a)*s231a.v(ds2b,ds1b)+a42a.v(ds4a,ds2a)*s13s.v(ds1a,ds3b)*s43s.v(ds4b,ds3a)*s231a.v(ds2b,ds1b))/pDenTA
    .seq (.set .c 0 (.add (.loc .c 0) (.div (.smul (.mul (.loc .r 0) (.mem .r 9)) (.add (.sub (.sub (.add (.add (.sub (.sub (.add (.smul (.mem .r 3) (.add (.sub (.sub (.sub (.add (.sub (.add (.sub (.sub (.sub (.add (.sub (.sub (.mul (.mul (.mul (.smul (.lit 3) (.v 10 [.var 4, .var 9])) (.v 5 [.var 10, .var 6])) (.v 7 [.var 11, .var 8])) (.v 9 [.var 5, .var 7])) (.mul (.mul (.mul (.smul (.lit 4) (.v 5 [.var 10, .var 6])) (.v 7 [.var 11, .var 8])) (.v 9 [.var 4, .var 7])) (.v 11 [.var 5, .var 9]))) (.mul (.mul (.mul (.smul (.lit 4) (.v 2 [.var 8, .var 6])) (.v 5 [.var 10, .var 7])) (.v 11 [.var 4, .var 9])) (.v 0 [.var 5, .var 11]))) (.mul (.mul (.mul (.smul (.lit 2) (.v 1 [.var 4, .var 11])) (.v 2 [.var 8, .var 6])) (.v 11 [.var 5, .var 9])) (.v 4 [.var 10, .var 7]))) (.mul (.mul (.mul (.smul (.lit 4) (.v 10 [.var 4, .var 9])) (.v 1 [.var 5, .var 11])) (.v 3 [.var 8, .var 6])) (.v 4 [.var 10, .var 7]))) (.mul (.mul (.mul (.smul (.lit 3) (.v 8 [.var 4, .var 7])) (.v 10 [.var 5, .var 9])) (.v 7 [.var 10, .var 8])) (.v 4 [.var 11, .var 6]))) (.mul (.mul (.mul (.v 10 [.var 4, .var 9]) (.v 7 [.var 10, .var 8])) (.v 9 [.var 5, .var 7])) (.v 4 [.var 11, .var 6]))) (.mul (.mul (.mul (.smul (.lit 3) (.v 8 [.var 4, .var 7])) (.v 7 [.var 10, .var 8])) (.v 11 [.var 5, .var 9])) (.v 4 [.var 11, .var 6]))) (.mul (.mul (.mul (.smul (.lit 2) (.v 10 [.var 4, .var 8])) (.v 5 [.var 10, .var 6])) (.v 11 [.var 5, .var 9])) (.v 4 [.var 11, .var 7]))) (.mul (.mul (.mul (.smul (.lit 3) (.v 10 [.var 4, .var 9])) (.v 5 [.var 10, .var 6])) (.v 9 [.var 5, .var 7])) (.v 6 [.var 11, .var 8]))) (.mul (.mul (.mul (.smul (.lit 3) (.v 8 [.var 4, .var 7])) (.v 5 [.var 10, .var 6])) (.v 11 [.var 5, .var 9])) (.v 6 [.var 11, .var 8]))) (.mul (.mul (.mul (.v 5 [.var 10, .var 6]) (.v 9 [.var 4, .var 7])) (.v 11 [.var 5, .var 9])) (.v 6 [.var 11, .var 8]))) (.mul (.mul (.mul (.smul (.lit 4) (.v 8 [.var 4, .var 7])) (.v 10 [.var 5, .var 9])) (.v 4 [.var 10, .var 6])) (.v 6 [.var 11, .var 8]))) (.mul (.mul (.mul (.v 8 [.var 4, .var 7]) (.v 11 [.var 5, .var 9])) (.v 4 [.var 10, .var 6])) (.v 6 [.var 11, .var 8])))) (.mul (.mul (.mul (.smul (.lit 3) (.v 10 [.var 4, .var 9])) (.v 7 [.var 10, .var 8])) (.v 4 [.var 11, .var 6])) (.v 13 [.var 5, .var 7]))) (.mul (.mul (.mul (.v 7 [.var 10, .var 8]) (.v 11 [.var 4, .var 9])) (.v 4 [.var 11, .var 6])) (.v 13 [.var 5, .var 7]))) (.mul (.mul (.mul (.smul (.lit 3) (.v 10 [.var 4, .var 9])) (.v 5 [.var 10, .var 6])) (.v 6 [.var 11, .var 8])) (.v 13 [.var 5, .var 7]))) (.mul (.mul (.mul (.v 10 [.var 4, .var 9]) (.v 4 [.var 10, .var 6])) (.v 6 [.var 11, .var 8])) (.v 13 [.var 5, .var 7]))) (.mul (.mul (.mul (.smul (.lit 3) (.v 5 [.var 10, .var 6])) (.v 7 [.var 11, .var 8])) (.v 11 [.var 4, .var 9])) (.v 12 [.var 7, .var 5]))) (.mul (.mul (.mul (.v 7 [.var 10, .var 8]) (.v 11 [.var 4, .var 9])) (.v 4 [.var 11, .var 6])) (.v 12 [.var 7, .var 5]))) (.mul (.mul (.mul (.smul (.lit 3) (.v 10 [.var 4, .var 9])) (.v 5 [.var 10, .var 6])) (.v 6 [.var 11, .var 8])) (.v 12 [.var 7, .var 5]))) (.mul (.mul (.mul (.v 5 [.var 10, .var 6]) (.v 11 [.var 4, .var 9])) (.v 6 [.var 11, .var 8])) (.v 12 [.var 7, .var 5])))) (.mem .c 4)))) <|
    -- 245: amplitude+=normFactor*preA*((-three*a12a.v(ds1a,ds2b)*a42a.v(ds4a,ds2a)*a43a.v(ds4b,ds3a)*s13s.v(ds1b,ds3b)-four*a42a.v(ds4a,ds2a)*a43a.v(ds4b,ds3a)*s12s.v(ds1a,ds2b)*s13s.v(ds1b,ds3b)-four*a32a.v(ds3a,ds2a)*a43a.v(ds4a,ds3b)*s12s.v(ds1a,ds2b)*s14s.v(ds1b,ds4b)-two*a14a.v(ds1a,ds4b)*a32a.v(ds3a,ds2a)*s12s.v(ds1b,ds2b)*s43s.v(ds4a,ds3b)-four*a12a.v(ds1a,ds2b)*a14a.v(ds1b,ds4b)*s32s.v(ds3a,ds2a)*s43s.v(ds4a,ds3b)-three*a13a.v(ds1a,ds3b)*a43a.v(ds4a,ds3a)*s12s.v(ds1b,ds2b)*s42s.v(ds4b,ds2a)+three*a12a.v(ds1a,ds2b)*a43a.v(ds4a,ds3a)*s13s.v(ds1b,ds3b)*s42s.v(ds4b,ds2a)+a43a.v(ds4a,ds3a)*s12s.v(ds1a,ds2b)*s13s.v(ds1b,ds3b)*s42s.v(ds4b,ds2a)+three*a12a.v(ds1a,ds2b)*a13a.v(ds1b,ds3b)*a42a.v(ds4a,ds2a)*s43s.v(ds4b,ds3a)+three*a13a.v(ds1a,ds3b)*a42a.v(ds4a,ds2a)*s12s.v(ds1b,ds2b)*s43s.v(ds4b,ds3a)-a12a.v(ds1a,ds2b)*a42a.v(ds4a,ds2a)*s13s.v(ds1b,ds3b)*s43s.v(ds4b,ds3a)-four*a12a.v(ds1a,ds2b)*a13a.v(ds1b,ds3b)*s42s.v(ds4a,ds2a)*s43s.v(ds4b,ds3a)-a13a.v(ds1a,ds3b)*s12s.v(ds1b,ds2b)*s42s.v(ds4a,ds2a)*s43s.v(ds4b,ds3a)-two*a12a.v(ds1a,ds2a)*a43a.v(ds4a,ds3a)*s12s.v(ds1b,ds2b)*s43s.v(ds4b,ds3b))*MW-three*a12a.v(ds1a,ds2b)*a43a.v(ds4a,ds3a)*s42s.v(ds4b,ds2a)*s123a.v(ds1b,ds3b)+three*a12a.v(ds1a,ds2b)*a42a.v(ds4a,ds2a)*s43s.v(ds4b,ds3a)*s123a.v(ds1b,ds3b)+a42a.v(ds4a,ds2a)*s12s.v(ds1a,ds2b)*s43s.v(ds4b,ds3a)*s123a.v(ds1b,ds3b)-a12a.v(ds1a,ds2b)*s42s.v(ds4a,ds2a)*s43s.v(ds4b,ds3a)*s123a.v(ds1b,ds3b)-three*a42a.v(ds4a,ds2a)*a43a.v(ds4b,ds3a)*s12s.v(ds1a,ds2b)*s321a.v(ds3b,ds1b)+three*a12a.v(ds1a,ds2b)*a43a.v(ds4a,ds3a)*s42s.v(ds4b,ds2a)*s321a.v(ds3b,ds1b)+a43a.v(ds4a,ds3a)*s12s.v(ds1a,ds2b)*s42s.v(ds4b,ds2a)*s321a.v(ds3b,ds1b)-a42a.v(ds4a,ds2a)*s12s.v(ds1a,ds2b)*s43s.v(ds4b,ds3a)*s321a.v(ds3b,ds1b))/pDenSA
    .set .c 0 (.add (.loc .c 0) (.div (.smul (.mul (.loc .r 0) (.mem .r 9)) (.sub (.add (.add (.sub (.sub (.add (.add (.sub (.smul (.mem .r 3) (.sub (.sub (.sub (.sub (.add (.add (.add (.add (.sub (.sub (.sub (.sub (.sub (.mul (.mul (.mul (.smul (.neg (.lit 3)) (.v 8 [.var 4, .var 7])) (.v 5 [.var 10, .var 6])) (.v 7 [.var 11, .var 8])) (.v 11 [.var 5, .var 9])) (.mul (.mul (.mul (.smul (.lit 4) (.v 5 [.var 10, .var 6])) (.v 7 [.var 11, .var 8])) (.v 9 [.var 4, .var 7])) (.v 11 [.var 5, .var 9]))) (.mul (.mul (.mul (.smul (.lit 4) (.v 2 [.var 8, .var 6])) (.v 7 [.var 10, .var 9])) (.v 9 [.var 4, .var 7])) (.v 0 [.var 5, .var 11]))) (.mul (.mul (.mul (.smul (.lit 2) (.v 1 [.var 4, .var 11])) (.v 2 [.var 8, .var 6])) (.v 9 [.var 5, .var 7])) (.v 6 [.var 10, .var 9]))) (.mul (.mul (.mul (.smul (.lit 4) (.v 8 [.var 4, .var 7])) (.v 1 [.var 5, .var 11])) (.v 3 [.var 8, .var 6])) (.v 6 [.var 10, .var 9]))) (.mul (.mul (.mul (.smul (.lit 3) (.v 10 [.var 4, .var 9])) (.v 7 [.var 10, .var 8])) (.v 9 [.var 5, .var 7])) (.v 4 [.var 11, .var 6]))) (.mul (.mul (.mul (.smul (.lit 3) (.v 8 [.var 4, .var 7])) (.v 7 [.var 10, .var 8])) (.v 11 [.var 5, .var 9])) (.v 4 [.var 11, .var 6]))) (.mul (.mul (.mul (.v 7 [.var 10, .var 8]) (.v 9 [.var 4, .var 7])) (.v 11 [.var 5, .var 9])) (.v 4 [.var 11, .var 6]))) (.mul (.mul (.mul (.smul (.lit 3) (.v 8 [.var 4, .var 7])) (.v 10 [.var 5, .var 9])) (.v 5 [.var 10, .var 6])) (.v 6 [.var 11, .var 8]))) (.mul (.mul (.mul (.smul (.lit 3) (.v 10 [.var 4, .var 9])) (.v 5 [.var 10, .var 6])) (.v 9 [.var 5, .var 7])) (.v 6 [.var 11, .var 8]))) (.mul (.mul (.mul (.v 8 [.var 4, .var 7]) (.v 5 [.var 10, .var 6])) (.v 11 [.var 5, .var 9])) (.v 6 [.var 11, .var 8]))) (.mul (.mul (.mul (.smul (.lit 4) (.v 8 [.var 4, .var 7])) (.v 10 [.var 5, .var 9])) (.v 4 [.var 10, .var 6])) (.v 6 [.var 11, .var 8]))) (.mul (.mul (.mul (.v 10 [.var 4, .var 9]) (.v 9 [.var 5, .var 7])) (.v 4 [.var 10, .var 6])) (.v 6 [.var 11, .var 8]))) (.mul (.mul (.mul (.smul (.lit 2) (.v 8 [.var 4, .var 6])) (.v 7 [.var 10, .var 8])) (.v 9 [.var 5, .var 7])) (.v 6 [.var 11, .var 9])))) (.mul (.mul (.mul (.smul (.lit 3) (.v 8 [.var 4, .var 7])) (.v 7 [.var 10, .var 8])) (.v 4 [.var 11, .var 6])) (.v 14 [.var 5, .var 9]))) (.mul (.mul (.mul (.smul (.lit 3) (.v 8 [.var 4, .var 7])) (.v 5 [.var 10, .var 6])) (.v 6 [.var 11, .var 8])) (.v 14 [.var 5, .var 9]))) (.mul (.mul (.mul (.v 5 [.var 10, .var 6]) (.v 9 [.var 4, .var 7])) (.v 6 [.var 11, .var 8])) (.v 14 [.var 5, .var 9]))) (.mul (.mul (.mul (.v 8 [.var 4, .var 7]) (.v 4 [.var 10, .var 6])) (.v 6 [.var 11, .var 8])) (.v 14 [.var 5, .var 9]))) (.mul (.mul (.mul (.smul (.lit 3) (.v 5 [.var 10, .var 6])) (.v 7 [.var 11, .var 8])) (.v 9 [.var 4, .var 7])) (.v 15 [.var 9, .var 5]))) (.mul (.mul (.mul (.smul (.lit 3) (.v 8 [.var 4, .var 7])) (.v 7 [.var 10, .var 8])) (.v 4 [.var 11, .var 6])) (.v 15 [.var 9, .var 5]))) (.mul (.mul (.mul (.v 7 [.var 10, .var 8]) (.v 9 [.var 4, .var 7])) (.v 4 [.var 11, .var 6])) (.v 15 [.var 9, .var 5]))) (.mul (.mul (.mul (.v 5 [.var 10, .var 6]) (.v 9 [.var 4, .var 7])) (.v 6 [.var 11, .var 8])) (.v 15 [.var 9, .var 5])))) (.mem .c 5))))) <|
  -- 274: return amplitude
  .ret .c (.loc .c 0)⟩

/-- `ldouble amp2()` (SM/WWWW2.cpp:278-292); variables: r 0 `amp2`, c 0 `M`, i 0 `j1`, i 1 `j2`, i 2 `j3`, i 3 `j4` -/
def m_amp2 : Method := ⟨0, 
  -- 279: ldouble amp2
  .seq (.set .r 0 (.lit 0)) <|
  -- 280: cdouble M
  .seq (.set .c 0 (.ofR (.lit 0))) <|
  -- 283: for(int j1=-2;j1<=2;j1+=2)
  .seq (.loop 0 (-2) true (.lit 2) 2 (
    -- 284: for(int j2=-2;j2<=2;j2+=2)
    .loop 1 (-2) true (.lit 2) 2 (
      -- 285: for(int j3=-2;j3<=2;j3+=2)
      .loop 2 (-2) true (.lit 2) 2 (
        -- 286: for(int j4=-2;j4<=2;j4+=2)
        .loop 3 (-2) true (.lit 2) 2 (
          -- 287: M=amp(j1,j2,j3,j4)
          .seq (.set .c 0 (.call 0 [.var 0, .var 1, .var 2, .var 3])) <|
          -- 288: amp2+=std::pow(std::abs(M),2)
          .set .r 0 (.add (.loc .r 0) (.pow (.abs (.loc .c 0)) 2))))))) <|
  -- 291: return amp2/9.0
  .ret .r (.div (.loc .r 0) (.lit 9))⟩

end WWWW2

/-- `class WWWW2` (SM/WWWW2.cpp, SM/include/WWWW2.h:25-34).  Members:
* ldouble: 0 `e`, 1 `mh`, 2 `wh`, 3 `MW`, 4 `WZ`, 5 `SW`, 6 `CW`, 7 `MZ`, 8 `preh`, 9 `preA`, 10 `preZ`
* cdouble: 0 `pDenTh`, 1 `pDenSh`, 2 `pDenTZ`, 3 `pDenSZ`, 4 `pDenTA`, 5 `pDenSA`
* propagator: 0 `proph`, 1 `propZ`, 2 `propA`
* sproduct: 0 `s14s`, 1 `a14a`, 2 `a32a`, 3 `s32s`, 4 `s42s`, 5 `a42a`, 6 `s43s`, 7 `a43a`, 8 `a12a`, 9 `s12s`, 10 `a13a`, 11 `s13s`, 12 `s231a`, 13 `s132a`, 14 `s123a`, 15 `s321a` -/
def WWWW2 : Proc where
  name := "WWWW2"
  nPar := 6
  ctor := WWWW2.ctor
  setMasses := WWWW2.setMasses
  massPar := [1, 3]
  setMomenta := WWWW2.setMomenta
  methods := [WWWW2.m_amp2, WWWW2.m_amp]
  amp2 := 1
  others := []

namespace WdWd

/-- constructor (SM/WdWd.cpp:32-67); parameters: 0 `echarge`, 1 `massd`, 2 `massu`, 3 `massh`, 4 `widthh`, 5 `massW`, 6 `sinW`, 7 `widthZ` -/
def ctor : List SInstr := [
  -- 32: e(echarge)
  .set .r 0 (.loc .r 0),
  -- 32: Qf(-1.0/3.0)
  .set .r 1 (.div (.neg (.lit 1)) (.lit 3)),
  -- 32: mu(massu)
  .set .r 2 (.loc .r 2),
  -- 32: md(massd)
  .set .r 3 (.loc .r 1),
  -- 32: mh(massh)
  .set .r 4 (.loc .r 3),
  -- 32: wh(widthh)
  .set .r 5 (.loc .r 4),
  -- 32: MW(massW)
  .set .r 6 (.loc .r 5),
  -- 32: SW(sinW)
  .set .r 7 (.loc .r 6),
  -- 32: CW(std::sqrt(1.0-sinW*sinW))
  .set .r 8 (.sqrt (.sub (.lit 1) (.mul (.loc .r 6) (.loc .r 6)))),
  -- 32: MZ(massW/CW)
  .set .r 9 (.div (.loc .r 5) (.mem .r 8)),
  -- 32: WZ(widthZ)
  .set .r 10 (.loc .r 7),
  -- 32: propu(mu,0)
  .prop 1 (.mem .r 2) (.lit 0),
  -- 32: propA(0,0)
  .prop 3 (.lit 0) (.lit 0),
  -- 35: sqrt2=std::sqrt(two)
  .set .r 11 (.sqrt (.lit 2)),
  -- 36: MZ=MW/CW
  .set .r 9 (.div (.mem .r 6) (.mem .r 8)),
  -- 37: propZ=propagator(MZ,WZ)
  .prop 2 (.mem .r 9) (.mem .r 10),
  -- 38: proph=propagator(mh,wh)
  .prop 0 (.mem .r 4) (.mem .r 5),
  -- 39: p1=particle(MW)
  .part 0 (.mem .r 6),
  -- 40: p2=particle(md)
  .part 1 (.mem .r 3),
  -- 41: p3=particle(MW)
  .part 2 (.mem .r 6),
  -- 42: p4=particle(md)
  .part 3 (.mem .r 3),
  -- 44: s12s=sproduct(SQUARE,&p1,&p2)
  .sprod 0 ⟨false, 0, true, [], 1, true⟩,
  -- 45: a12a=sproduct(ANGLE,&p1,&p2)
  .sprod 1 ⟨true, 0, true, [], 1, true⟩,
  -- 46: s23s=sproduct(SQUARE,&p2,&p3)
  .sprod 2 ⟨false, 1, true, [], 2, true⟩,
  -- 47: a23a=sproduct(ANGLE,&p2,&p3)
  .sprod 3 ⟨true, 1, true, [], 2, true⟩,
  -- 48: s13s=sproduct(SQUARE,&p1,&p3)
  .sprod 4 ⟨false, 0, true, [], 2, true⟩,
  -- 49: a13a=sproduct(ANGLE,&p1,&p3)
  .sprod 5 ⟨true, 0, true, [], 2, true⟩,
  -- 50: s34s=sproduct(SQUARE,&p3,&p4)
  .sprod 6 ⟨false, 2, true, [], 3, true⟩,
  -- 51: a34a=sproduct(ANGLE,&p3,&p4)
  .sprod 7 ⟨true, 2, true, [], 3, true⟩,
  -- 52: s24s=sproduct(SQUARE,&p2,&p4)
  .sprod 8 ⟨false, 1, true, [], 3, true⟩,
  -- 53: a24a=sproduct(ANGLE,&p2,&p4)
  .sprod 9 ⟨true, 1, true, [], 3, true⟩,
  -- 54: s14s=sproduct(SQUARE,&p1,&p4)
  .sprod 10 ⟨false, 0, true, [], 3, true⟩,
  -- 55: a14a=sproduct(ANGLE,&p1,&p4)
  .sprod 11 ⟨true, 0, true, [], 3, true⟩,
  -- 57: s143a=sproduct(SQUARE,&p1,&p4,&p3)
  .sprod 12 ⟨false, 0, true, [3], 2, true⟩,
  -- 58: s341a=sproduct(SQUARE,&p3,&p4,&p1)
  .sprod 13 ⟨false, 2, true, [3], 0, true⟩,
  -- 59: s234a=sproduct(SQUARE,&p2,&p3,&p4)
  .sprod 14 ⟨false, 1, true, [2], 3, true⟩,
  -- 60: s432a=sproduct(SQUARE,&p4,&p3,&p2)
  .sprod 15 ⟨false, 3, true, [2], 1, true⟩,
  -- 62: pred=2.0*e*e/(2.0*MW*MW*SW*SW)
  .set .r 12 (.div (.mul (.mul (.lit 2) (.mem .r 0)) (.mem .r 0)) (.mul (.mul (.mul (.mul (.lit 2) (.mem .r 6)) (.mem .r 6)) (.mem .r 7)) (.mem .r 7))),
  -- 63: preh=2.0*e*e*md/(4.0*MW*MW*SW*SW)
  .set .r 13 (.div (.mul (.mul (.mul (.lit 2) (.mem .r 0)) (.mem .r 0)) (.mem .r 3)) (.mul (.mul (.mul (.mul (.lit 4) (.mem .r 6)) (.mem .r 6)) (.mem .r 7)) (.mem .r 7))),
  -- 64: preZ=e*e/(2.0*MW*MW*SW*SW)
  .set .r 14 (.div (.mul (.mem .r 0) (.mem .r 0)) (.mul (.mul (.mul (.mul (.lit 2) (.mem .r 6)) (.mem .r 6)) (.mem .r 7)) (.mem .r 7))),
  -- 65: gL=-2.0*Qf*SW*SW-1.0
  .set .r 15 (.sub (.mul (.mul (.mul (.neg (.lit 2)) (.mem .r 1)) (.mem .r 7)) (.mem .r 7)) (.lit 1)),
  -- 66: gR=-2.0*Qf*SW*SW
  .set .r 16 (.mul (.mul (.mul (.neg (.lit 2)) (.mem .r 1)) (.mem .r 7)) (.mem .r 7))]

/-- `set_masses` (SM/WdWd.cpp:68-85); parameters: 0 `massd`, 1 `massu`, 2 `massh`, 3 `massW` -/
def setMasses : List SInstr := [
  -- 69: md=massd
  .set .r 3 (.loc .r 0),
  -- 70: mu=massu
  .set .r 2 (.loc .r 1),
  -- 71: mh=massh
  .set .r 4 (.loc .r 2),
  -- 72: MW=massW
  .set .r 6 (.loc .r 3),
  -- 73: MZ=MW/CW
  .set .r 9 (.div (.mem .r 6) (.mem .r 8)),
  -- 74: p1.set_mass(MW)
  .setMass 0 (.mem .r 6),
  -- 75: p2.set_mass(md)
  .setMass 1 (.mem .r 3),
  -- 76: p3.set_mass(MW)
  .setMass 2 (.mem .r 6),
  -- 77: p4.set_mass(md)
  .setMass 3 (.mem .r 3),
  -- 78: propu.set_mass(mu)
  .propMass 1 (.mem .r 2),
  -- 79: proph.set_mass(mh)
  .propMass 0 (.mem .r 4),
  -- 80: propZ.set_mass(MZ)
  .propMass 2 (.mem .r 9),
  -- 82: pred=2.0*e*e/(2.0*MW*MW*SW*SW)
  .set .r 12 (.div (.mul (.mul (.lit 2) (.mem .r 0)) (.mem .r 0)) (.mul (.mul (.mul (.mul (.lit 2) (.mem .r 6)) (.mem .r 6)) (.mem .r 7)) (.mem .r 7))),
  -- 83: preh=2.0*e*e*md/(4.0*MW*MW*SW*SW)
  .set .r 13 (.div (.mul (.mul (.mul (.lit 2) (.mem .r 0)) (.mem .r 0)) (.mem .r 3)) (.mul (.mul (.mul (.mul (.lit 4) (.mem .r 6)) (.mem .r 6)) (.mem .r 7)) (.mem .r 7))),
  -- 84: preZ=e*e/(2.0*MW*MW*SW*SW)
  .set .r 14 (.div (.mul (.mem .r 0) (.mem .r 0)) (.mul (.mul (.mul (.mul (.lit 2) (.mem .r 6)) (.mem .r 6)) (.mem .r 7)) (.mem .r 7)))]

/-- `set_momenta` (SM/WdWd.cpp:86-122); parameters: 0 `mom1`, 1 `mom2`, 2 `mom3`, 3 `mom4` -/
def setMomenta : List SInstr := [
  -- 88: p1.set_momentum(mom1)
  .setMom 0 0,
  -- 89: p2.set_momentum(mom2)
  .setMom 1 1,
  -- 90: p3.set_momentum(mom3)
  .setMom 2 2,
  -- 91: p4.set_momentum(mom4)
  .setMom 3 3,
  -- 93: s12s.update()
  .update 0,
  -- 94: a12a.update()
  .update 1,
  -- 95: s23s.update()
  .update 2,
  -- 96: a23a.update()
  .update 3,
  -- 97: s13s.update()
  .update 4,
  -- 98: a13a.update()
  .update 5,
  -- 99: s34s.update()
  .update 6,
  -- 100: a34a.update()
  .update 7,
  -- 101: s24s.update()
  .update 8,
  -- 102: a24a.update()
  .update 9,
  -- 103: s14s.update()
  .update 10,
  -- 104: a14a.update()
  .update 11,
  -- 106: s143a.update()
  .update 12,
  -- 107: s341a.update()
  .update 13,
  -- 108: s234a.update()
  .update 14,
  -- 109: s432a.update()
  .update 15,
  -- 117: pDenhT=proph.denominator(propTP)
  .den .c 0 0 (.sub 0 2),
  -- 118: pDendS=propu.denominator(propSP)
  .den .c 1 1 (.add 0 1),
  -- 119: pDendU=propu.denominator(propUP)
  .den .c 2 1 (.sub 0 3),
  -- 120: pDenZT=propZ.denominator(propTP)
  .den .c 3 2 (.sub 0 2),
  -- 121: pDenAT=propA.denominator(propTP)
  .den .c 4 3 (.sub 0 2)]

/-- `cdouble amp(ds1,ds2,ds3,ds4)` (SM/WdWd.cpp:127-207); variables: i 0 `ds1`, i 1 `ds2`, i 2 `ds3`, i 3 `ds4`, c 0 `amplitude`, i 4 `ds3a`, i 5 `ds3b`, i 6 `ds1a`, i 7 `ds1b`, i 8 `nCombs`, r 0 `normFactor`, i 9 `i` -/
def m_amp : Method := ⟨4, 
  -- 128: cdouble amplitude
  .seq (.set .c 0 (.ofR (.lit 0))) <|
  -- 133: int nCombs
  .seq (.seti 8 (.loops [2, 0])) <|
  -- 134: ldouble normFactor
  .seq (.set .r 0 (.norm [2, 0])) <|
  -- 136: for(int i=0;i<nCombs;i++)
  .seq (.loop 9 0 false (.var 8) 1 (
    -- 137: get_spinor_spins(ds3,ds3a,ds3b,ds1,ds1a,ds1b,i)
    .seq (.spins [(2, 4, 5), (0, 6, 7)] (.var 9)) <|
    -- 147: amplitude+=normFactor*preh*s13s.v(ds1a,ds3a)*a13a.v(ds1b,ds3b)*(s24s.v(ds2,ds4)-a24a.v(ds2,ds4))/pDenhT
    .seq (.set .c 0 (.add (.loc .c 0) (.div (.mul (.mul (.smul (.mul (.loc .r 0) (.mem .r 13)) (.v 4 [.var 6, .var 4])) (.v 5 [.var 7, .var 5])) (.sub (.v 8 [.var 1, .var 3]) (.v 9 [.var 1, .var 3]))) (.mem .c 0)))) <|
    -- 157: amplitude+=+normFactor*pred*s12s.v(ds1a,ds2)*a34a.v(ds3a,ds4)*(-MW*a13a.v(ds1b,ds3b)+s341a.v(ds3b,ds1b))/pDendS
    .seq (.set .c 0 (.add (.loc .c 0) (.div (.mul (.mul (.smul (.mul (.loc .r 0) (.mem .r 12)) (.v 0 [.var 6, .var 1])) (.v 7 [.var 4, .var 3])) (.add (.smul (.neg (.mem .r 6)) (.v 5 [.var 7, .var 5])) (.v 13 [.var 5, .var 7]))) (.mem .c 1)))) <|
    -- 169: amplitude+=-normFactor*e*e*Qf*two/MW*(a34a.v(ds3a,ds4)*s12s.v(ds1a,ds2)+s34s.v(ds3a,ds4)*a12a.v(ds1a,ds2)+a14a.v(ds1a,ds4)*s23s.v(ds2,ds3a)+s14s.v(ds1a,ds4)*a23a.v(ds2,ds3a))*(s13s.v(ds1b,ds3b)-a13a.v(ds1b,ds3b))/pDenAT-normFactor*e*e*Qf*two/MW/MW*(s13s.v(ds1a,ds3a)*a13a.v(ds1b,ds3b)*(s234a.v(ds2,ds4)-s432a.v(ds4,ds2)))/pDenAT
    .seq (.set .c 0 (.add (.loc .c 0) (.sub (.div (.mul (.smul (.div (.mul (.mul (.mul (.mul (.neg (.loc .r 0)) (.mem .r 0)) (.mem .r 0)) (.mem .r 1)) (.lit 2)) (.mem .r 6)) (.add (.add (.add (.mul (.v 7 [.var 4, .var 3]) (.v 0 [.var 6, .var 1])) (.mul (.v 6 [.var 4, .var 3]) (.v 1 [.var 6, .var 1]))) (.mul (.v 11 [.var 6, .var 3]) (.v 2 [.var 1, .var 4]))) (.mul (.v 10 [.var 6, .var 3]) (.v 3 [.var 1, .var 4])))) (.sub (.v 4 [.var 7, .var 5]) (.v 5 [.var 7, .var 5]))) (.mem .c 4)) (.div (.smul (.div (.div (.mul (.mul (.mul (.mul (.loc .r 0) (.mem .r 0)) (.mem .r 0)) (.mem .r 1)) (.lit 2)) (.mem .r 6)) (.mem .r 6)) (.mul (.mul (.v 4 [.var 6, .var 4]) (.v 5 [.var 7, .var 5])) (.sub (.v 14 [.var 1, .var 3]) (.v 15 [.var 3, .var 1])))) (.mem .c 4))))) <|
    -- 195: amplitude+=+normFactor*preZ*(+(gL-gR)*md*s13s.v(ds1a,ds3a)*a13a.v(ds1b,ds3b)*(s24s.v(ds2,ds4)+a24a.v(ds2,ds4))-two*s13s.v(ds1a,ds3a)*a13a.v(ds1b,ds3b)*(gL*s234a.v(ds2,ds4)-gR*s432a.v(ds4,ds2))-two*MW*(s13s.v(ds1a,ds3a)-a13a.v(ds1a,ds3a))*(+gL*(s23s.v(ds2,ds3b)*a14a.v(ds1b,ds4)+s12s.v(ds1b,ds2)*a34a.v(ds3b,ds4))+gR*(s34s.v(ds3b,ds4)*a12a.v(ds1b,ds2)+s14s.v(ds1b,ds4)*a23a.v(ds2,ds3b))))/pDenZT
    .set .c 0 (.add (.loc .c 0) (.div (.smul (.mul (.loc .r 0) (.mem .r 14)) (.sub (.sub (.mul (.mul (.smul (.mul (.sub (.mem .r 15) (.mem .r 16)) (.mem .r 3)) (.v 4 [.var 6, .var 4])) (.v 5 [.var 7, .var 5])) (.add (.v 8 [.var 1, .var 3]) (.v 9 [.var 1, .var 3]))) (.mul (.mul (.smul (.lit 2) (.v 4 [.var 6, .var 4])) (.v 5 [.var 7, .var 5])) (.sub (.smul (.mem .r 15) (.v 14 [.var 1, .var 3])) (.smul (.mem .r 16) (.v 15 [.var 3, .var 1]))))) (.mul (.smul (.mul (.lit 2) (.mem .r 6)) (.sub (.v 4 [.var 6, .var 4]) (.v 5 [.var 6, .var 4]))) (.add (.smul (.mem .r 15) (.add (.mul (.v 2 [.var 1, .var 5]) (.v 11 [.var 7, .var 3])) (.mul (.v 0 [.var 7, .var 1]) (.v 7 [.var 5, .var 3])))) (.smul (.mem .r 16) (.add (.mul (.v 6 [.var 5, .var 3]) (.v 1 [.var 7, .var 1])) (.mul (.v 10 [.var 7, .var 3]) (.v 3 [.var 1, .var 5])))))))) (.mem .c 3))))) <|
  -- 206: return amplitude
  .ret .c (.loc .c 0)⟩

/-- `ldouble amp2()` (SM/WdWd.cpp:210-225); variables: r 0 `amp2`, c 0 `M`, i 0 `j1`, i 1 `j2`, i 2 `j3`, i 3 `j4` -/
def m_amp2 : Method := ⟨0, 
  -- 211: ldouble amp2
  .seq (.set .r 0 (.lit 0)) <|
  -- 212: cdouble M
  .seq (.set .c 0 (.ofR (.lit 0))) <|
  -- 215: for(int j1=-2;j1<=2;j1+=2)
  .seq (.loop 0 (-2) true (.lit 2) 2 (
    -- 216: for(int j2=-1;j2<=1;j2+=2)
    .loop 1 (-1) true (.lit 1) 2 (
      -- 217: for(int j3=-2;j3<=2;j3+=2)
      .loop 2 (-2) true (.lit 2) 2 (
        -- 218: for(int j4=-1;j4<=1;j4+=2)
        .loop 3 (-1) true (.lit 1) 2 (
          -- 219: M=amp(j1,j2,j3,j4)
          .seq (.set .c 0 (.call 0 [.var 0, .var 1, .var 2, .var 3])) <|
          -- 220: amp2+=3.0*std::pow(std::abs(M),2)
          .set .r 0 (.add (.loc .r 0) (.mul (.lit 3) (.pow (.abs (.loc .c 0)) 2)))))))) <|
  -- 224: return amp2/18.0
  .ret .r (.div (.loc .r 0) (.lit 18))⟩

end WdWd

/-- `class WdWd` (SM/WdWd.cpp, SM/include/WdWd.h:25-36).  Members:
* ldouble: 0 `e`, 1 `Qf`, 2 `mu`, 3 `md`, 4 `mh`, 5 `wh`, 6 `MW`, 7 `SW`, 8 `CW`, 9 `MZ`, 10 `WZ`, 11 `sqrt2`, 12 `pred`, 13 `preh`, 14 `preZ`, 15 `gL`, 16 `gR`
* cdouble: 0 `pDenhT`, 1 `pDendS`, 2 `pDendU`, 3 `pDenZT`, 4 `pDenAT`
* propagator: 0 `proph`, 1 `propu`, 2 `propZ`, 3 `propA`
* sproduct: 0 `s12s`, 1 `a12a`, 2 `s23s`, 3 `a23a`, 4 `s13s`, 5 `a13a`, 6 `s34s`, 7 `a34a`, 8 `s24s`, 9 `a24a`, 10 `s14s`, 11 `a14a`, 12 `s143a`, 13 `s341a`, 14 `s234a`, 15 `s432a` -/
def WdWd : Proc where
  name := "WdWd"
  nPar := 8
  ctor := WdWd.ctor
  setMasses := WdWd.setMasses
  massPar := [1, 2, 3, 5]
  setMomenta := WdWd.setMomenta
  methods := [WdWd.m_amp2, WdWd.m_amp]
  amp2 := 1
  others := []

namespace WdZu

/-- constructor (SM/WdZu.cpp:32-65); parameters: 0 `echarge`, 1 `massu`, 2 `massd`, 3 `massW`, 4 `sinW`, 5 `widthW` -/
def ctor : List SInstr := [
  -- 32: e(echarge)
  .set .r 0 (.loc .r 0),
  -- 32: Qu(2.0/3.0)
  .set .r 1 (.div (.lit 2) (.lit 3)),
  -- 32: Qd(-1.0/3.0)
  .set .r 2 (.div (.neg (.lit 1)) (.lit 3)),
  -- 32: mu(massu)
  .set .r 7 (.loc .r 1),
  -- 32: md(massd)
  .set .r 8 (.loc .r 2),
  -- 32: MW(massW)
  .set .r 9 (.loc .r 3),
  -- 32: SW(sinW)
  .set .r 10 (.loc .r 4),
  -- 32: WW(widthW)
  .set .r 11 (.loc .r 5),
  -- 35: CW=std::sqrt(1.0-SW*SW)
  .set .r 13 (.sqrt (.sub (.lit 1) (.mul (.mem .r 10) (.mem .r 10)))),
  -- 36: MZ=MW/CW
  .set .r 12 (.div (.mem .r 9) (.mem .r 13)),
  -- 37: propW=propagator(MW,WW)
  .prop 0 (.mem .r 9) (.mem .r 11),
  -- 38: propu=propagator(mu,0)
  .prop 1 (.mem .r 7) (.lit 0),
  -- 39: propd=propagator(md,0)
  .prop 2 (.mem .r 8) (.lit 0),
  -- 40: p1=particle(MW)
  .part 0 (.mem .r 9),
  -- 41: p2=particle(md)
  .part 1 (.mem .r 8),
  -- 42: p3=particle(MZ)
  .part 2 (.mem .r 12),
  -- 43: p4=particle(mu)
  .part 3 (.mem .r 7),
  -- 45: a42a=sproduct(ANGLE,&p4,&p2)
  .sprod 0 ⟨true, 3, true, [], 1, true⟩,
  -- 46: a43a=sproduct(ANGLE,&p4,&p3)
  .sprod 1 ⟨true, 3, true, [], 2, true⟩,
  -- 47: a23a=sproduct(ANGLE,&p2,&p3)
  .sprod 2 ⟨true, 1, true, [], 2, true⟩,
  -- 48: a21a=sproduct(ANGLE,&p2,&p1)
  .sprod 3 ⟨true, 1, true, [], 0, true⟩,
  -- 49: a31a=sproduct(ANGLE,&p3,&p1)
  .sprod 4 ⟨true, 2, true, [], 0, true⟩,
  -- 50: s42s=sproduct(SQUARE,&p4,&p2)
  .sprod 5 ⟨false, 3, true, [], 1, true⟩,
  -- 51: s43s=sproduct(SQUARE,&p4,&p3)
  .sprod 6 ⟨false, 3, true, [], 2, true⟩,
  -- 52: s41s=sproduct(SQUARE,&p4,&p1)
  .sprod 7 ⟨false, 3, true, [], 0, true⟩,
  -- 53: s23s=sproduct(SQUARE,&p2,&p3)
  .sprod 8 ⟨false, 1, true, [], 2, true⟩,
  -- 54: s31s=sproduct(SQUARE,&p3,&p1)
  .sprod 9 ⟨false, 2, true, [], 0, true⟩,
  -- 55: s432a=sproduct(SQUARE,&p4,&p3,&p2)
  .sprod 10 ⟨false, 3, true, [2], 1, true⟩,
  -- 56: s341a=sproduct(SQUARE,&p3,&p4,&p1)
  .sprod 11 ⟨false, 2, true, [3], 0, true⟩,
  -- 57: s143a=sproduct(SQUARE,&p1,&p4,&p3)
  .sprod 12 ⟨false, 0, true, [3], 2, true⟩,
  -- 59: preud=e*e/(std::sqrt(2.0)*MW*MW*SW*SW)
  .set .r 15 (.div (.mul (.mem .r 0) (.mem .r 0)) (.mul (.mul (.mul (.mul (.sqrt (.lit 2)) (.mem .r 9)) (.mem .r 9)) (.mem .r 10)) (.mem .r 10))),
  -- 60: preW=preud/(MZ*MZ)
  .set .r 14 (.div (.mem .r 15) (.mul (.mem .r 12) (.mem .r 12))),
  -- 61: gLu=-2.0*Qu*SW*SW+1.0
  .set .r 3 (.add (.mul (.mul (.mul (.neg (.lit 2)) (.mem .r 1)) (.mem .r 10)) (.mem .r 10)) (.lit 1)),
  -- 62: gRu=-2.0*Qu*SW*SW
  .set .r 4 (.mul (.mul (.mul (.neg (.lit 2)) (.mem .r 1)) (.mem .r 10)) (.mem .r 10)),
  -- 63: gLd=-2.0*Qd*SW*SW-1.0
  .set .r 5 (.sub (.mul (.mul (.mul (.neg (.lit 2)) (.mem .r 2)) (.mem .r 10)) (.mem .r 10)) (.lit 1)),
  -- 64: gRd=-2.0*Qd*SW*SW
  .set .r 6 (.mul (.mul (.mul (.neg (.lit 2)) (.mem .r 2)) (.mem .r 10)) (.mem .r 10))]

/-- `set_masses` (SM/WdZu.cpp:66-81); parameters: 0 `massu`, 1 `massd`, 2 `massW` -/
def setMasses : List SInstr := [
  -- 68: mu=massu
  .set .r 7 (.loc .r 0),
  -- 69: md=massd
  .set .r 8 (.loc .r 1),
  -- 70: MW=massW
  .set .r 9 (.loc .r 2),
  -- 71: MZ=MW/CW
  .set .r 12 (.div (.mem .r 9) (.mem .r 13)),
  -- 72: p1.set_mass(MW)
  .setMass 0 (.mem .r 9),
  -- 73: p2.set_mass(md)
  .setMass 1 (.mem .r 8),
  -- 74: p3.set_mass(MZ)
  .setMass 2 (.mem .r 12),
  -- 75: p4.set_mass(mu)
  .setMass 3 (.mem .r 7),
  -- 76: propW.set_mass(MW)
  .propMass 0 (.mem .r 9),
  -- 77: propu.set_mass(mu)
  .propMass 1 (.mem .r 7),
  -- 78: propd.set_mass(md)
  .propMass 2 (.mem .r 8),
  -- 79: preud=e*e/(std::sqrt(2.0)*MW*MW*SW*SW)
  .set .r 15 (.div (.mul (.mem .r 0) (.mem .r 0)) (.mul (.mul (.mul (.mul (.sqrt (.lit 2)) (.mem .r 9)) (.mem .r 9)) (.mem .r 10)) (.mem .r 10))),
  -- 80: preW=preud/(MZ*MZ)
  .set .r 14 (.div (.mem .r 15) (.mul (.mem .r 12) (.mem .r 12)))]

/-- `set_momenta` (SM/WdZu.cpp:82-113); parameters: 0 `mom1`, 1 `mom2`, 2 `mom3`, 3 `mom4` -/
def setMomenta : List SInstr := [
  -- 85: p1.set_momentum(mom1)
  .setMom 0 0,
  -- 86: p2.set_momentum(mom2)
  .setMom 1 1,
  -- 87: p3.set_momentum(mom3)
  .setMom 2 2,
  -- 88: p4.set_momentum(mom4)
  .setMom 3 3,
  -- 90: a42a.update()
  .update 0,
  -- 91: a43a.update()
  .update 1,
  -- 92: a23a.update()
  .update 2,
  -- 93: a21a.update()
  .update 3,
  -- 94: a31a.update()
  .update 4,
  -- 95: s42s.update()
  .update 5,
  -- 96: s43s.update()
  .update 6,
  -- 97: s41s.update()
  .update 7,
  -- 98: s23s.update()
  .update 8,
  -- 99: s31s.update()
  .update 9,
  -- 100: s432a.update()
  .update 10,
  -- 101: s341a.update()
  .update 11,
  -- 102: s143a.update()
  .update 12,
  -- 110: pDenS=propu.denominator(propSP)
  .den .c 0 1 (.add 0 1),
  -- 111: pDenT=propW.denominator(propTP)
  .den .c 1 0 (.sub 0 2),
  -- 112: pDenU=propd.denominator(propUP)
  .den .c 2 2 (.sub 0 3)]

/-- `cdouble amp(ds1,ds2,ds3,ds4)` (SM/WdZu.cpp:118-183); variables: i 0 `ds1`, i 1 `ds2`, i 2 `ds3`, i 3 `ds4`, c 0 `amplitude`, i 4 `ds3a`, i 5 `ds3b`, i 6 `ds1a`, i 7 `ds1b`, i 8 `nCombs`, r 0 `normFactor`, i 9 `i` -/
def m_amp : Method := ⟨4, 
  -- 120: cdouble amplitude
  .seq (.set .c 0 (.ofR (.lit 0))) <|
  -- 124: int nCombs
  .seq (.seti 8 (.loops [2, 0])) <|
  -- 125: ldouble normFactor
  .seq (.set .r 0 (.norm [2, 0])) <|
  -- 127: for(int i=0;i<nCombs;i++)
  .seq (.loop 9 0 false (.var 8) 1 (
    -- 128: get_spinor_spins(ds3,ds3a,ds3b,ds1,ds1a,ds1b,i)
    .seq (.spins [(2, 4, 5), (0, 6, 7)] (.var 9)) <|
    -- 143: amplitude+=-normFactor*preW*(+two*(+MZ*a31a.v(ds3a,ds1b)-MW*s31s.v(ds3a,ds1b))*MW*MW*a23a.v(ds2,ds3b)*s41s.v(ds4,ds1a)+two*(-MW*a31a.v(ds3a,ds1b)+MZ*s31s.v(ds3a,ds1b))*MW*MW*a21a.v(ds2,ds1a)*s43s.v(ds4,ds3b)+a31a.v(ds3a,ds1a)*s31s.v(ds3b,ds1b)*(+(two*MW*MW-MZ*MZ)*(mu*a42a.v(ds4,ds2)+md*s42s.v(ds4,ds2))+two*MW*MW*s432a.v(ds4,ds2)))/pDenT
    .seq (.set .c 0 (.add (.loc .c 0) (.div (.smul (.mul (.neg (.loc .r 0)) (.mem .r 14)) (.add (.add (.mul (.mul (.smul (.mem .r 9) (.smul (.mem .r 9) (.smul (.lit 2) (.sub (.smul (.mem .r 12) (.v 4 [.var 4, .var 7])) (.smul (.mem .r 9) (.v 9 [.var 4, .var 7])))))) (.v 2 [.var 1, .var 5])) (.v 7 [.var 3, .var 6])) (.mul (.mul (.smul (.mem .r 9) (.smul (.mem .r 9) (.smul (.lit 2) (.add (.smul (.neg (.mem .r 9)) (.v 4 [.var 4, .var 7])) (.smul (.mem .r 12) (.v 9 [.var 4, .var 7])))))) (.v 3 [.var 1, .var 6])) (.v 6 [.var 3, .var 5]))) (.mul (.mul (.v 4 [.var 4, .var 6]) (.v 9 [.var 5, .var 7])) (.add (.smul (.sub (.mul (.mul (.lit 2) (.mem .r 9)) (.mem .r 9)) (.mul (.mem .r 12) (.mem .r 12))) (.add (.smul (.mem .r 7) (.v 0 [.var 3, .var 1])) (.smul (.mem .r 8) (.v 5 [.var 3, .var 1])))) (.smul (.mul (.mul (.lit 2) (.mem .r 9)) (.mem .r 9)) (.v 10 [.var 3, .var 1])))))) (.mem .c 1)))) <|
    -- 161: amplitude+=-normFactor*preud*a21a.v(ds2,ds1a)*(+gRu*mu*a43a.v(ds4,ds3b)*s31s.v(ds3a,ds1b)+gLu*s43s.v(ds4,ds3a)*(MZ*s31s.v(ds3b,ds1b)+s143a.v(ds1b,ds3b)))/pDenS
    .seq (.set .c 0 (.add (.loc .c 0) (.div (.mul (.smul (.mul (.neg (.loc .r 0)) (.mem .r 15)) (.v 3 [.var 1, .var 6])) (.add (.mul (.smul (.mul (.mem .r 4) (.mem .r 7)) (.v 1 [.var 3, .var 5])) (.v 9 [.var 4, .var 7])) (.mul (.smul (.mem .r 3) (.v 6 [.var 3, .var 4])) (.add (.smul (.mem .r 12) (.v 9 [.var 5, .var 7])) (.v 12 [.var 7, .var 5]))))) (.mem .c 0)))) <|
    -- 174: amplitude+=-normFactor*preud*s41s.v(ds4,ds1a)*(+gRd*md*a31a.v(ds3a,ds1b)*s23s.v(ds2,ds3b)+gLd*a23a.v(ds2,ds3a)*(MW*s31s.v(ds3b,ds1b)+s341a.v(ds3b,ds1b)))/pDenU
    .set .c 0 (.add (.loc .c 0) (.div (.mul (.smul (.mul (.neg (.loc .r 0)) (.mem .r 15)) (.v 7 [.var 3, .var 6])) (.add (.mul (.smul (.mul (.mem .r 6) (.mem .r 8)) (.v 4 [.var 4, .var 7])) (.v 8 [.var 1, .var 5])) (.mul (.smul (.mem .r 5) (.v 2 [.var 1, .var 4])) (.add (.smul (.mem .r 9) (.v 9 [.var 5, .var 7])) (.v 11 [.var 5, .var 7]))))) (.mem .c 2))))) <|
  -- 182: return amplitude
  .ret .c (.loc .c 0)⟩

/-- `ldouble amp2()` (SM/WdZu.cpp:186-203); variables: r 0 `amp2`, c 0 `M`, i 0 `j1`, i 1 `j2`, i 2 `j3`, i 3 `j4` -/
def m_amp2 : Method := ⟨0, 
  -- 188: ldouble amp2
  .seq (.set .r 0 (.lit 0)) <|
  -- 189: cdouble M
  .seq (.set .c 0 (.ofR (.lit 0))) <|
  -- 192: for(int j1=-2;j1<=2;j1+=2)
  .seq (.loop 0 (-2) true (.lit 2) 2 (
    -- 193: for(int j2=-1;j2<=1;j2+=2)
    .loop 1 (-1) true (.lit 1) 2 (
      -- 194: for(int j3=-2;j3<=2;j3+=2)
      .loop 2 (-2) true (.lit 2) 2 (
        -- 195: for(int j4=-1;j4<=1;j4+=2)
        .loop 3 (-1) true (.lit 1) 2 (
          -- 196: M=amp(j1,j2,j3,j4)
          .seq (.set .c 0 (.call 0 [.var 0, .var 1, .var 2, .var 3])) <|
          -- 198: amp2+=three*std::pow(std::abs(M),2)
          .set .r 0 (.add (.loc .r 0) (.mul (.lit 3) (.pow (.abs (.loc .c 0)) 2)))))))) <|
  -- 202: return amp2/18.0
  .ret .r (.div (.loc .r 0) (.lit 18))⟩

end WdZu

/-- `class WdZu` (SM/WdZu.cpp, SM/include/WdZu.h:25-33).  Members:
* ldouble: 0 `e`, 1 `Qu`, 2 `Qd`, 3 `gLu`, 4 `gRu`, 5 `gLd`, 6 `gRd`, 7 `mu`, 8 `md`, 9 `MW`, 10 `SW`, 11 `WW`, 12 `MZ`, 13 `CW`, 14 `preW`, 15 `preud`
* cdouble: 0 `pDenS`, 1 `pDenT`, 2 `pDenU`
* propagator: 0 `propW`, 1 `propu`, 2 `propd`
* sproduct: 0 `a42a`, 1 `a43a`, 2 `a23a`, 3 `a21a`, 4 `a31a`, 5 `s42s`, 6 `s43s`, 7 `s41s`, 8 `s23s`, 9 `s31s`, 10 `s432a`, 11 `s341a`, 12 `s143a` -/
def WdZu : Proc where
  name := "WdZu"
  nPar := 6
  ctor := WdZu.ctor
  setMasses := WdZu.setMasses
  massPar := [1, 2, 3]
  setMomenta := WdZu.setMomenta
  methods := [WdZu.m_amp2, WdZu.m_amp]
  amp2 := 1
  others := []

namespace ZWWh

/-- constructor (SM/ZWWh.cpp:32-66); parameters: 0 `echarge`, 1 `massh`, 2 `massW`, 3 `sinW`, 4 `widthW`, 5 `widthZ` -/
def ctor : List SInstr := [
  -- 32: e(echarge)
  .set .r 0 (.loc .r 0),
  -- 32: mh(massh)
  .set .r 1 (.loc .r 1),
  -- 32: MW(massW)
  .set .r 2 (.loc .r 2),
  -- 32: SW(sinW)
  .set .r 4 (.loc .r 3),
  -- 32: CW(std::sqrt(1.0-sinW*sinW))
  .set .r 5 (.sqrt (.sub (.lit 1) (.mul (.loc .r 3) (.loc .r 3)))),
  -- 32: WW(widthW)
  .set .r 6 (.loc .r 4),
  -- 32: WZ(widthZ)
  .set .r 7 (.loc .r 5),
  -- 35: sqrt2=std::sqrt(two)
  .set .r 8 (.sqrt (.lit 2)),
  -- 36: CW=std::sqrt(1.0-sinW*sinW)
  .set .r 5 (.sqrt (.sub (.lit 1) (.mul (.loc .r 3) (.loc .r 3)))),
  -- 37: MZ=MW/CW
  .set .r 3 (.div (.mem .r 2) (.mem .r 5)),
  -- 38: propW=propagator(MW,WW)
  .prop 0 (.mem .r 2) (.mem .r 6),
  -- 39: propZ=propagator(MZ,WZ)
  .prop 1 (.mem .r 3) (.mem .r 7),
  -- 40: p1=particle(MZ)
  .part 0 (.mem .r 3),
  -- 41: p2=particle(MW)
  .part 1 (.mem .r 2),
  -- 42: p3=particle(MW)
  .part 2 (.mem .r 2),
  -- 43: p4=particle(mh)
  .part 3 (.mem .r 1),
  -- 45: s23s=sproduct(SQUARE,&p2,&p3)
  .sprod 1 ⟨false, 1, true, [], 2, true⟩,
  -- 46: a23a=sproduct(ANGLE,&p2,&p3)
  .sprod 0 ⟨true, 1, true, [], 2, true⟩,
  -- 47: s12s=sproduct(SQUARE,&p1,&p2)
  .sprod 3 ⟨false, 0, true, [], 1, true⟩,
  -- 48: a12a=sproduct(ANGLE,&p1,&p2)
  .sprod 2 ⟨true, 0, true, [], 1, true⟩,
  -- 49: s13s=sproduct(SQUARE,&p1,&p3)
  .sprod 5 ⟨false, 0, true, [], 2, true⟩,
  -- 50: a13a=sproduct(ANGLE,&p1,&p3)
  .sprod 4 ⟨true, 0, true, [], 2, true⟩,
  -- 52: s131a=sproduct(SQUARE,&p1,&p3,&p1)
  .sprod 6 ⟨false, 0, true, [2], 0, true⟩,
  -- 53: s121a=sproduct(SQUARE,&p1,&p2,&p1)
  .sprod 7 ⟨false, 0, true, [1], 0, true⟩,
  -- 54: s231a=sproduct(SQUARE,&p2,&p3,&p1)
  .sprod 8 ⟨false, 1, true, [2], 0, true⟩,
  -- 55: s242a=sproduct(SQUARE,&p2,&p4,&p2)
  .sprod 9 ⟨false, 1, true, [3], 1, true⟩,
  -- 56: s321a=sproduct(SQUARE,&p3,&p2,&p1)
  .sprod 10 ⟨false, 2, true, [1], 0, true⟩,
  -- 57: s343a=sproduct(SQUARE,&p3,&p4,&p3)
  .sprod 11 ⟨false, 2, true, [3], 2, true⟩,
  -- 58: s143a=sproduct(SQUARE,&p1,&p4,&p3)
  .sprod 12 ⟨false, 0, true, [3], 2, true⟩,
  -- 59: s142a=sproduct(SQUARE,&p1,&p4,&p2)
  .sprod 13 ⟨false, 0, true, [3], 1, true⟩,
  -- 60: s341a=sproduct(SQUARE,&p3,&p4,&p1)
  .sprod 14 ⟨false, 2, true, [3], 0, true⟩,
  -- 61: s241a=sproduct(SQUARE,&p2,&p4,&p1)
  .sprod 15 ⟨false, 1, true, [3], 0, true⟩,
  -- 63: pre=sqrt2*e*e/(2.0*MW*MW*SW*SW)
  .set .r 9 (.div (.mul (.mul (.mem .r 8) (.mem .r 0)) (.mem .r 0)) (.mul (.mul (.mul (.mul (.lit 2) (.mem .r 2)) (.mem .r 2)) (.mem .r 4)) (.mem .r 4))),
  -- 64: preS=pre
  .set .r 10 (.mem .r 9),
  -- 65: preTU=pre/(MZ*MZ)
  .set .r 11 (.div (.mem .r 9) (.mul (.mem .r 3) (.mem .r 3)))]

/-- `set_masses` (SM/ZWWh.cpp:67-80); parameters: 0 `massh`, 1 `massW` -/
def setMasses : List SInstr := [
  -- 68: mh=massh
  .set .r 1 (.loc .r 0),
  -- 69: MW=massW
  .set .r 2 (.loc .r 1),
  -- 70: MZ=MW/CW
  .set .r 3 (.div (.mem .r 2) (.mem .r 5)),
  -- 71: p1.set_mass(MZ)
  .setMass 0 (.mem .r 3),
  -- 72: p2.set_mass(MW)
  .setMass 1 (.mem .r 2),
  -- 73: p3.set_mass(MW)
  .setMass 2 (.mem .r 2),
  -- 74: p4.set_mass(mh)
  .setMass 3 (.mem .r 1),
  -- 75: propW.set_mass(MW)
  .propMass 0 (.mem .r 2),
  -- 77: pre=sqrt2*e*e/(2.0*MW*MW*SW*SW)
  .set .r 9 (.div (.mul (.mul (.mem .r 8) (.mem .r 0)) (.mem .r 0)) (.mul (.mul (.mul (.mul (.lit 2) (.mem .r 2)) (.mem .r 2)) (.mem .r 4)) (.mem .r 4))),
  -- 78: preS=pre
  .set .r 10 (.mem .r 9),
  -- 79: preTU=pre/(MZ*MZ)
  .set .r 11 (.div (.mem .r 9) (.mul (.mem .r 3) (.mem .r 3)))]

/-- `set_momenta` (SM/ZWWh.cpp:81-115); parameters: 0 `mom1`, 1 `mom2`, 2 `mom3`, 3 `mom4` -/
def setMomenta : List SInstr := [
  -- 83: p1.set_momentum(mom1)
  .setMom 0 0,
  -- 84: p2.set_momentum(mom2)
  .setMom 1 1,
  -- 85: p3.set_momentum(mom3)
  .setMom 2 2,
  -- 86: p4.set_momentum(mom4)
  .setMom 3 3,
  -- 88: s23s.update()
  .update 1,
  -- 89: a23a.update()
  .update 0,
  -- 90: s12s.update()
  .update 3,
  -- 91: a12a.update()
  .update 2,
  -- 92: s13s.update()
  .update 5,
  -- 93: a13a.update()
  .update 4,
  -- 95: s131a.update()
  .update 6,
  -- 96: s121a.update()
  .update 7,
  -- 97: s231a.update()
  .update 8,
  -- 98: s242a.update()
  .update 9,
  -- 99: s321a.update()
  .update 10,
  -- 100: s343a.update()
  .update 11,
  -- 101: s143a.update()
  .update 12,
  -- 102: s142a.update()
  .update 13,
  -- 103: s341a.update()
  .update 14,
  -- 104: s241a.update()
  .update 15,
  -- 112: pDenS=propW.denominator(propSP)
  .den .c 0 0 (.add 0 1),
  -- 113: pDenT=propW.denominator(propTP)
  .den .c 1 0 (.sub 0 2),
  -- 114: pDenU=propZ.denominator(propUP)
  .den .c 2 1 (.sub 0 3)]

/-- `cdouble amp(ds1,ds2,ds3)` (SM/ZWWh.cpp:120-181); variables: i 0 `ds1`, i 1 `ds2`, i 2 `ds3`, c 0 `amplitude`, i 3 `ds1a`, i 4 `ds1b`, i 5 `ds3a`, i 6 `ds3b`, i 7 `ds2a`, i 8 `ds2b`, i 9 `nCombs`, r 0 `normFactor`, i 10 `i` -/
def m_amp : Method := ⟨3, 
  -- 121: cdouble amplitude
  .seq (.set .c 0 (.ofR (.lit 0))) <|
  -- 126: int nCombs
  .seq (.seti 9 (.loops [0, 2, 1])) <|
  -- 127: ldouble normFactor
  .seq (.set .r 0 (.norm [0, 2, 1])) <|
  -- 129: for(int i=0;i<nCombs;i++)
  .seq (.loop 10 0 false (.var 9) 1 (
    -- 130: get_spinor_spins(ds1,ds1a,ds1b,ds3,ds3a,ds3b,ds2,ds2a,ds2b,i)
    .seq (.spins [(0, 3, 4), (2, 5, 6), (1, 7, 8)] (.var 10)) <|
    -- 142: amplitude+=normFactor*preS*(-s23s.v(ds2a,ds3a)*a23a.v(ds2b,ds3b)*(s131a.v(ds1a,ds1b)+s121a.v(ds1a,ds1b))+2*MW*(s13s.v(ds1a,ds3a)*a12a.v(ds1b,ds2a)-s12s.v(ds1a,ds2a)*a13a.v(ds1b,ds3a))*(s23s.v(ds2b,ds3b)-a23a.v(ds2b,ds3b)))/pDenU
    .seq (.set .c 0 (.add (.loc .c 0) (.div (.smul (.mul (.loc .r 0) (.mem .r 10)) (.add (.mul (.mul (.neg (.v 1 [.var 7, .var 5])) (.v 0 [.var 8, .var 6])) (.add (.v 6 [.var 3, .var 4]) (.v 7 [.var 3, .var 4]))) (.mul (.smul (.mul (.lit 2) (.mem .r 2)) (.sub (.mul (.v 5 [.var 3, .var 5]) (.v 2 [.var 4, .var 7])) (.mul (.v 3 [.var 3, .var 7]) (.v 4 [.var 4, .var 5])))) (.sub (.v 1 [.var 8, .var 6]) (.v 0 [.var 8, .var 6]))))) (.mem .c 2)))) <|
    -- 155: amplitude+=normFactor*preTU*(2.0*MW*MW*s13s.v(ds1a,ds3a)*a23a.v(ds2a,ds3b)*s231a.v(ds2b,ds1b)+MZ*MZ*s13s.v(ds1a,ds3a)*a13a.v(ds1b,ds3b)*s242a.v(ds2a,ds2b)+2.0*MW*MW*MW*s12s.v(ds1a,ds2a)*a13a.v(ds1b,ds3a)*a23a.v(ds2b,ds3b)-2.0*MW*MW*MZ*s13s.v(ds1a,ds3a)*s12s.v(ds1b,ds2a)*a23a.v(ds2b,ds3b)-2.0*MW*MW*MZ*a13a.v(ds1a,ds3a)*a12a.v(ds1b,ds2a)*s23s.v(ds2b,ds3b))/pDenT
    .seq (.set .c 0 (.add (.loc .c 0) (.div (.smul (.mul (.loc .r 0) (.mem .r 11)) (.sub (.sub (.add (.add (.mul (.mul (.smul (.mul (.mul (.lit 2) (.mem .r 2)) (.mem .r 2)) (.v 5 [.var 3, .var 5])) (.v 0 [.var 7, .var 6])) (.v 8 [.var 8, .var 4])) (.mul (.mul (.smul (.mul (.mem .r 3) (.mem .r 3)) (.v 5 [.var 3, .var 5])) (.v 4 [.var 4, .var 6])) (.v 9 [.var 7, .var 8]))) (.mul (.mul (.smul (.mul (.mul (.mul (.lit 2) (.mem .r 2)) (.mem .r 2)) (.mem .r 2)) (.v 3 [.var 3, .var 7])) (.v 4 [.var 4, .var 5])) (.v 0 [.var 8, .var 6]))) (.mul (.mul (.smul (.mul (.mul (.mul (.lit 2) (.mem .r 2)) (.mem .r 2)) (.mem .r 3)) (.v 5 [.var 3, .var 5])) (.v 3 [.var 4, .var 7])) (.v 0 [.var 8, .var 6]))) (.mul (.mul (.smul (.mul (.mul (.mul (.lit 2) (.mem .r 2)) (.mem .r 2)) (.mem .r 3)) (.v 4 [.var 3, .var 5])) (.v 2 [.var 4, .var 7])) (.v 1 [.var 8, .var 6])))) (.mem .c 1)))) <|
    -- 170: amplitude+=-normFactor*preTU*(+2.0*MW*MW*s12s.v(ds1a,ds2a)*a23a.v(ds2b,ds3a)*s321a.v(ds3b,ds1b)+MZ*MZ*s12s.v(ds1a,ds2a)*a12a.v(ds1b,ds2b)*s343a.v(ds3a,ds3b)+2.0*MW*MW*MW*s13s.v(ds1a,ds3a)*a12a.v(ds1b,ds2a)*a23a.v(ds2b,ds3b)+2.0*MW*MW*MZ*s12s.v(ds1a,ds2a)*s13s.v(ds1b,ds3a)*a23a.v(ds2b,ds3b)+2.0*MW*MW*MZ*a12a.v(ds1a,ds2a)*a13a.v(ds1b,ds3a)*s23s.v(ds2b,ds3b))/pDenS
    .set .c 0 (.add (.loc .c 0) (.div (.smul (.mul (.neg (.loc .r 0)) (.mem .r 11)) (.add (.add (.add (.add (.mul (.mul (.smul (.mul (.mul (.lit 2) (.mem .r 2)) (.mem .r 2)) (.v 3 [.var 3, .var 7])) (.v 0 [.var 8, .var 5])) (.v 10 [.var 6, .var 4])) (.mul (.mul (.smul (.mul (.mem .r 3) (.mem .r 3)) (.v 3 [.var 3, .var 7])) (.v 2 [.var 4, .var 8])) (.v 11 [.var 5, .var 6]))) (.mul (.mul (.smul (.mul (.mul (.mul (.lit 2) (.mem .r 2)) (.mem .r 2)) (.mem .r 2)) (.v 5 [.var 3, .var 5])) (.v 2 [.var 4, .var 7])) (.v 0 [.var 8, .var 6]))) (.mul (.mul (.smul (.mul (.mul (.mul (.lit 2) (.mem .r 2)) (.mem .r 2)) (.mem .r 3)) (.v 3 [.var 3, .var 7])) (.v 5 [.var 4, .var 5])) (.v 0 [.var 8, .var 6]))) (.mul (.mul (.smul (.mul (.mul (.mul (.lit 2) (.mem .r 2)) (.mem .r 2)) (.mem .r 3)) (.v 2 [.var 3, .var 7])) (.v 4 [.var 4, .var 5])) (.v 1 [.var 8, .var 6])))) (.mem .c 0))))) <|
  -- 180: return amplitude
  .ret .c (.loc .c 0)⟩

/-- `ldouble amp2()` (SM/ZWWh.cpp:184-197); variables: r 0 `amp2`, c 0 `M`, i 0 `j1`, i 1 `j2`, i 2 `j3` -/
def m_amp2 : Method := ⟨0, 
  -- 185: ldouble amp2
  .seq (.set .r 0 (.lit 0)) <|
  -- 186: cdouble M
  .seq (.set .c 0 (.ofR (.lit 0))) <|
  -- 189: for(int j1=-2;j1<=2;j1+=2)
  .seq (.loop 0 (-2) true (.lit 2) 2 (
    -- 190: for(int j2=-2;j2<=2;j2+=2)
    .loop 1 (-2) true (.lit 2) 2 (
      -- 191: for(int j3=-2;j3<=2;j3+=2)
      .loop 2 (-2) true (.lit 2) 2 (
        -- 192: M=amp(j1,j2,j3)
        .seq (.set .c 0 (.call 0 [.var 0, .var 1, .var 2])) <|
        -- 193: amp2+=std::pow(std::abs(M),2)
        .set .r 0 (.add (.loc .r 0) (.pow (.abs (.loc .c 0)) 2)))))) <|
  -- 196: return amp2/9.0
  .ret .r (.div (.loc .r 0) (.lit 9))⟩

end ZWWh

/-- `class ZWWh` (SM/ZWWh.cpp, SM/include/ZWWh.h:25-36).  Members:
* ldouble: 0 `e`, 1 `mh`, 2 `MW`, 3 `MZ`, 4 `SW`, 5 `CW`, 6 `WW`, 7 `WZ`, 8 `sqrt2`, 9 `pre`, 10 `preS`, 11 `preTU`
* cdouble: 0 `pDenS`, 1 `pDenT`, 2 `pDenU`
* propagator: 0 `propW`, 1 `propZ`
* sproduct: 0 `a23a`, 1 `s23s`, 2 `a12a`, 3 `s12s`, 4 `a13a`, 5 `s13s`, 6 `s131a`, 7 `s121a`, 8 `s231a`, 9 `s242a`, 10 `s321a`, 11 `s343a`, 12 `s143a`, 13 `s142a`, 14 `s341a`, 15 `s241a` -/
def ZWWh : Proc where
  name := "ZWWh"
  nPar := 6
  ctor := ZWWh.ctor
  setMasses := ZWWh.setMasses
  massPar := [1, 2]
  setMomenta := ZWWh.setMomenta
  methods := [ZWWh.m_amp2, ZWWh.m_amp]
  amp2 := 1
  others := []

namespace ZWZW

/-- constructor (SM/ZWZW.cpp:32-63); parameters: 0 `echarge`, 1 `massh`, 2 `widthh`, 3 `massW`, 4 `widthW`, 5 `sinW` -/
def ctor : List SInstr := [
  -- 32: e(echarge)
  .set .r 0 (.loc .r 0),
  -- 32: mh(massh)
  .set .r 1 (.loc .r 1),
  -- 32: wh(widthh)
  .set .r 2 (.loc .r 2),
  -- 32: MW(massW)
  .set .r 3 (.loc .r 3),
  -- 32: WW(widthW)
  .set .r 4 (.loc .r 4),
  -- 32: SW(sinW)
  .set .r 5 (.loc .r 5),
  -- 32: CW(std::sqrt(1.0-sinW*sinW))
  .set .r 6 (.sqrt (.sub (.lit 1) (.mul (.loc .r 5) (.loc .r 5)))),
  -- 32: MZ(massW/CW)
  .set .r 7 (.div (.loc .r 3) (.mem .r 6)),
  -- 34: CW=std::sqrt(1.0-sinW*sinW)
  .set .r 6 (.sqrt (.sub (.lit 1) (.mul (.loc .r 5) (.loc .r 5)))),
  -- 35: MZ=MW/CW
  .set .r 7 (.div (.mem .r 3) (.mem .r 6)),
  -- 36: proph=propagator(mh,wh)
  .prop 0 (.mem .r 1) (.mem .r 2),
  -- 37: propW=propagator(MW,WW)
  .prop 1 (.mem .r 3) (.mem .r 4),
  -- 38: p1=particle(MZ)
  .part 0 (.mem .r 7),
  -- 39: p2=particle(MW)
  .part 1 (.mem .r 3),
  -- 40: p3=particle(MZ)
  .part 2 (.mem .r 7),
  -- 41: p4=particle(MW)
  .part 3 (.mem .r 3),
  -- 43: s13s=sproduct(SQUARE,&p1,&p3)
  .sprod 0 ⟨false, 0, true, [], 2, true⟩,
  -- 44: a13a=sproduct(ANGLE,&p1,&p3)
  .sprod 1 ⟨true, 0, true, [], 2, true⟩,
  -- 45: s42s=sproduct(SQUARE,&p4,&p2)
  .sprod 3 ⟨false, 3, true, [], 1, true⟩,
  -- 46: a42a=sproduct(ANGLE,&p4,&p2)
  .sprod 2 ⟨true, 3, true, [], 1, true⟩,
  -- 47: s34s=sproduct(SQUARE,&p3,&p4)
  .sprod 6 ⟨false, 2, true, [], 3, true⟩,
  -- 48: a34a=sproduct(ANGLE,&p3,&p4)
  .sprod 7 ⟨true, 2, true, [], 3, true⟩,
  -- 49: s32s=sproduct(SQUARE,&p3,&p2)
  .sprod 4 ⟨false, 2, true, [], 1, true⟩,
  -- 50: a32a=sproduct(ANGLE,&p3,&p2)
  .sprod 5 ⟨true, 2, true, [], 1, true⟩,
  -- 51: s12s=sproduct(SQUARE,&p1,&p2)
  .sprod 9 ⟨false, 0, true, [], 1, true⟩,
  -- 52: a12a=sproduct(ANGLE,&p1,&p2)
  .sprod 8 ⟨true, 0, true, [], 1, true⟩,
  -- 53: s14s=sproduct(SQUARE,&p1,&p4)
  .sprod 11 ⟨false, 0, true, [], 3, true⟩,
  -- 54: a14a=sproduct(ANGLE,&p1,&p4)
  .sprod 10 ⟨true, 0, true, [], 3, true⟩,
  -- 56: s241a=sproduct(SQUARE,&p2,&p4,&p1)
  .sprod 12 ⟨false, 1, true, [3], 0, true⟩,
  -- 57: s142a=sproduct(SQUARE,&p1,&p4,&p2)
  .sprod 13 ⟨false, 0, true, [3], 1, true⟩,
  -- 58: s421a=sproduct(SQUARE,&p4,&p2,&p1)
  .sprod 14 ⟨false, 3, true, [1], 0, true⟩,
  -- 59: s124a=sproduct(SQUARE,&p1,&p2,&p4)
  .sprod 15 ⟨false, 0, true, [1], 3, true⟩,
  -- 61: preh=e*e/(MW*MW*SW*SW)
  .set .r 8 (.div (.mul (.mem .r 0) (.mem .r 0)) (.mul (.mul (.mul (.mem .r 3) (.mem .r 3)) (.mem .r 5)) (.mem .r 5))),
  -- 62: preW=e*e/(2.0*MW*MW*MW*SW*SW)
  .set .r 9 (.div (.mul (.mem .r 0) (.mem .r 0)) (.mul (.mul (.mul (.mul (.mul (.lit 2) (.mem .r 3)) (.mem .r 3)) (.mem .r 3)) (.mem .r 5)) (.mem .r 5)))]

/-- `set_masses` (SM/ZWZW.cpp:64-77); parameters: 0 `massh`, 1 `massW` -/
def setMasses : List SInstr := [
  -- 65: mh=massh
  .set .r 1 (.loc .r 0),
  -- 66: MW=massW
  .set .r 3 (.loc .r 1),
  -- 67: MZ=MW/CW
  .set .r 7 (.div (.mem .r 3) (.mem .r 6)),
  -- 68: p1.set_mass(MZ)
  .setMass 0 (.mem .r 7),
  -- 69: p2.set_mass(MW)
  .setMass 1 (.mem .r 3),
  -- 70: p3.set_mass(MZ)
  .setMass 2 (.mem .r 7),
  -- 71: p4.set_mass(MW)
  .setMass 3 (.mem .r 3),
  -- 72: proph.set_mass(mh)
  .propMass 0 (.mem .r 1),
  -- 73: propW.set_mass(MW)
  .propMass 1 (.mem .r 3),
  -- 75: preh=e*e/(MW*MW*SW*SW)
  .set .r 8 (.div (.mul (.mem .r 0) (.mem .r 0)) (.mul (.mul (.mul (.mem .r 3) (.mem .r 3)) (.mem .r 5)) (.mem .r 5))),
  -- 76: preW=e*e/(2.0*MW*MW*MW*SW*SW)
  .set .r 9 (.div (.mul (.mem .r 0) (.mem .r 0)) (.mul (.mul (.mul (.mul (.mul (.lit 2) (.mem .r 3)) (.mem .r 3)) (.mem .r 3)) (.mem .r 5)) (.mem .r 5)))]

/-- `set_momenta` (SM/ZWZW.cpp:78-112); parameters: 0 `mom1`, 1 `mom2`, 2 `mom3`, 3 `mom4` -/
def setMomenta : List SInstr := [
  -- 80: p1.set_momentum(mom1)
  .setMom 0 0,
  -- 81: p2.set_momentum(mom2)
  .setMom 1 1,
  -- 82: p3.set_momentum(mom3)
  .setMom 2 2,
  -- 83: p4.set_momentum(mom4)
  .setMom 3 3,
  -- 85: s13s.update()
  .update 0,
  -- 86: a13a.update()
  .update 1,
  -- 87: s42s.update()
  .update 3,
  -- 88: a42a.update()
  .update 2,
  -- 89: s34s.update()
  .update 6,
  -- 90: a34a.update()
  .update 7,
  -- 91: s32s.update()
  .update 4,
  -- 92: a32a.update()
  .update 5,
  -- 93: s12s.update()
  .update 9,
  -- 94: a12a.update()
  .update 8,
  -- 95: s14s.update()
  .update 11,
  -- 96: a14a.update()
  .update 10,
  -- 98: s241a.update()
  .update 12,
  -- 99: s142a.update()
  .update 13,
  -- 100: s421a.update()
  .update 14,
  -- 101: s124a.update()
  .update 15,
  -- 109: pDenS=propW.denominator(propSP)
  .den .c 0 1 (.add 0 1),
  -- 110: pDenT=proph.denominator(propTP)
  .den .c 1 0 (.sub 0 2),
  -- 111: pDenU=propW.denominator(propUP)
  .den .c 2 1 (.sub 0 3)]

/-- `cdouble amp(ds1,ds2,ds3,ds4)` (SM/ZWZW.cpp:117-211); variables: i 0 `ds1`, i 1 `ds2`, i 2 `ds3`, i 3 `ds4`, c 0 `amplitude`, i 4 `ds1a`, i 5 `ds1b`, i 6 `ds2a`, i 7 `ds2b`, i 8 `ds3a`, i 9 `ds3b`, i 10 `ds4a`, i 11 `ds4b`, i 12 `nCombs`, r 0 `normFactor`, i 13 `i` -/
def m_amp : Method := ⟨4, 
  -- 118: cdouble amplitude
  .seq (.set .c 0 (.ofR (.lit 0))) <|
  -- 123: int nCombs
  .seq (.seti 12 (.loops [0, 1, 2, 3])) <|
  -- 124: ldouble normFactor
  .seq (.set .r 0 (.norm [0, 1, 2, 3])) <|
  -- 126: for(int i=0;i<nCombs;i++)
  .seq (.loop 13 0 false (.var 12) 1 (
    -- 127: get_spinor_spins(ds1,ds1a,ds1b,ds2,ds2a,ds2b,ds3,ds3a,ds3b,ds4,ds4a,ds4b,i)
    .seq (.spins [(0, 4, 5), (1, 6, 7), (2, 8, 9), (3, 10, 11)] (.var 13)) <|
    -- 138: amplitude+=normFactor*preh*s13s.v(ds1a,ds3a)*a13a.v(ds1b,ds3b)*s42s.v(ds4a,ds2a)*a42a.v(ds4b,ds2b)/pDenT
    .seq (.set .c 0 (.add (.loc .c 0) (.div (.mul (.mul (.mul (.smul (.mul (.loc .r 0) (.mem .r 8)) (.v 0 [.var 4, .var 8])) (.v 1 [.var 5, .var 9])) (.v 3 [.var 10, .var 6])) (.v 2 [.var 11, .var 7])) (.mem .c 1)))) <|
    -- 144: amplitude+=normFactor*preW*(two*MW*a14a.v(ds1a,ds4a)*a32a.v(ds3a,ds2a)*s14s.v(ds1b,ds4b)*s32s.v(ds3b,ds2b)+(-four*MW*a34a.v(ds3a,ds4a)*a32a.v(ds3b,ds2a)*s12s.v(ds1a,ds2b)*s14s.v(ds1b,ds4b)+two*MW*a13a.v(ds1a,ds3b)*a42a.v(ds4a,ds2a)*s14s.v(ds1b,ds4b)*s32s.v(ds3a,ds2b)+three*MW*a12a.v(ds1a,ds2b)*a34a.v(ds3a,ds4a)*s14s.v(ds1b,ds4b)*s32s.v(ds3b,ds2a)-four*MW*a12a.v(ds1a,ds2b)*a14a.v(ds1b,ds4a)*s34s.v(ds3a,ds4b)*s32s.v(ds3b,ds2a)-six*MW*a14a.v(ds1a,ds4a)*a32a.v(ds3a,ds2a)*s14s.v(ds1b,ds4b)*s32s.v(ds3b,ds2b)+three*MW*a14a.v(ds1a,ds4a)*a32a.v(ds3a,ds2a)*s12s.v(ds1b,ds2b)*s34s.v(ds3b,ds4b))*CW*CW+(three*MW*a14a.v(ds1a,ds4a)*a34a.v(ds3a,ds4b)*a32a.v(ds3b,ds2a)*s12s.v(ds1b,ds2b)-four*MW*a32a.v(ds3a,ds2a)*a42a.v(ds4a,ds2b)*s13s.v(ds1a,ds3b)*s14s.v(ds1b,ds4b)-three*MW*a12a.v(ds1a,ds2b)*a14a.v(ds1b,ds4a)*a34a.v(ds3a,ds4b)*s32s.v(ds3b,ds2a)+MW*a12a.v(ds1a,ds2b)*s14s.v(ds1b,ds4a)*s34s.v(ds3a,ds4b)*s32s.v(ds3b,ds2a)-MW*a32a.v(ds3a,ds2a)*s12s.v(ds1a,ds2b)*s14s.v(ds1b,ds4a)*s34s.v(ds3b,ds4b)-four*MW*a13a.v(ds1a,ds3b)*a14a.v(ds1b,ds4b)*s32s.v(ds3a,ds2a)*s42s.v(ds4a,ds2b)-a34a.v(ds3a,ds4a)*s14s.v(ds1a,ds4b)*s32s.v(ds3b,ds2a)*s142a.v(ds1b,ds2b)+a14a.v(ds1a,ds4a)*s34s.v(ds3a,ds4b)*s32s.v(ds3b,ds2a)*s142a.v(ds1b,ds2b)+three*a34a.v(ds3a,ds4a)*a32a.v(ds3b,ds2a)*s14s.v(ds1a,ds4b)*s241a.v(ds2b,ds1b)-three*a14a.v(ds1a,ds4a)*a32a.v(ds3a,ds2a)*s34s.v(ds3b,ds4b)*s241a.v(ds2b,ds1b))*CW*CW*CW+(-two*MW*a13a.v(ds1a,ds3b)*a42a.v(ds4a,ds2a)*s14s.v(ds1b,ds4b)*s32s.v(ds3a,ds2b)-MW*a14a.v(ds1a,ds4a)*a34a.v(ds3a,ds4b)*s12s.v(ds1b,ds2b)*s32s.v(ds3b,ds2a)+MW*a12a.v(ds1a,ds2b)*a34a.v(ds3a,ds4a)*s14s.v(ds1b,ds4b)*s32s.v(ds3b,ds2a)+two*MW*a14a.v(ds1a,ds4a)*a32a.v(ds3a,ds2a)*s14s.v(ds1b,ds4b)*s32s.v(ds3b,ds2b)+MW*a14a.v(ds1a,ds4a)*a32a.v(ds3a,ds2a)*s12s.v(ds1b,ds2b)*s34s.v(ds3b,ds4b)-three*MW*a12a.v(ds1a,ds2b)*a32a.v(ds3a,ds2a)*s14s.v(ds1b,ds4a)*s34s.v(ds3b,ds4b)+three*a14a.v(ds1a,ds4a)*a34a.v(ds3a,ds4b)*s32s.v(ds3b,ds2a)*s142a.v(ds1b,ds2b)-three*a14a.v(ds1a,ds4a)*a32a.v(ds3a,ds2a)*s34s.v(ds3b,ds4b)*s142a.v(ds1b,ds2b)-a34a.v(ds3a,ds4a)*s14s.v(ds1a,ds4b)*s32s.v(ds3b,ds2a)*s241a.v(ds2b,ds1b)+a32a.v(ds3a,ds2a)*s14s.v(ds1a,ds4a)*s34s.v(ds3b,ds4b)*s241a.v(ds2b,ds1b))*CW*CW*CW*CW)/pDenU
    .seq (.set .c 0 (.add (.loc .c 0) (.div (.smul (.mul (.loc .r 0) (.mem .r 9)) (.add (.add (.add (.mul (.mul (.mul (.smul (.mul (.lit 2) (.mem .r 3)) (.v 10 [.var 4, .var 10])) (.v 5 [.var 8, .var 6])) (.v 11 [.var 5, .var 11])) (.v 4 [.var 9, .var 7])) (.smul (.mem .r 6) (.smul (.mem .r 6) (.add (.sub (.sub (.add (.add (.mul (.mul (.mul (.smul (.mul (.neg (.lit 4)) (.mem .r 3)) (.v 7 [.var 8, .var 10])) (.v 5 [.var 9, .var 6])) (.v 9 [.var 4, .var 7])) (.v 11 [.var 5, .var 11])) (.mul (.mul (.mul (.smul (.mul (.lit 2) (.mem .r 3)) (.v 1 [.var 4, .var 9])) (.v 2 [.var 10, .var 6])) (.v 11 [.var 5, .var 11])) (.v 4 [.var 8, .var 7]))) (.mul (.mul (.mul (.smul (.mul (.lit 3) (.mem .r 3)) (.v 8 [.var 4, .var 7])) (.v 7 [.var 8, .var 10])) (.v 11 [.var 5, .var 11])) (.v 4 [.var 9, .var 6]))) (.mul (.mul (.mul (.smul (.mul (.lit 4) (.mem .r 3)) (.v 8 [.var 4, .var 7])) (.v 10 [.var 5, .var 10])) (.v 6 [.var 8, .var 11])) (.v 4 [.var 9, .var 6]))) (.mul (.mul (.mul (.smul (.mul (.lit 6) (.mem .r 3)) (.v 10 [.var 4, .var 10])) (.v 5 [.var 8, .var 6])) (.v 11 [.var 5, .var 11])) (.v 4 [.var 9, .var 7]))) (.mul (.mul (.mul (.smul (.mul (.lit 3) (.mem .r 3)) (.v 10 [.var 4, .var 10])) (.v 5 [.var 8, .var 6])) (.v 9 [.var 5, .var 7])) (.v 6 [.var 9, .var 11])))))) (.smul (.mem .r 6) (.smul (.mem .r 6) (.smul (.mem .r 6) (.sub (.add (.add (.sub (.sub (.sub (.add (.sub (.sub (.mul (.mul (.mul (.smul (.mul (.lit 3) (.mem .r 3)) (.v 10 [.var 4, .var 10])) (.v 7 [.var 8, .var 11])) (.v 5 [.var 9, .var 6])) (.v 9 [.var 5, .var 7])) (.mul (.mul (.mul (.smul (.mul (.lit 4) (.mem .r 3)) (.v 5 [.var 8, .var 6])) (.v 2 [.var 10, .var 7])) (.v 0 [.var 4, .var 9])) (.v 11 [.var 5, .var 11]))) (.mul (.mul (.mul (.smul (.mul (.lit 3) (.mem .r 3)) (.v 8 [.var 4, .var 7])) (.v 10 [.var 5, .var 10])) (.v 7 [.var 8, .var 11])) (.v 4 [.var 9, .var 6]))) (.mul (.mul (.mul (.smul (.mem .r 3) (.v 8 [.var 4, .var 7])) (.v 11 [.var 5, .var 10])) (.v 6 [.var 8, .var 11])) (.v 4 [.var 9, .var 6]))) (.mul (.mul (.mul (.smul (.mem .r 3) (.v 5 [.var 8, .var 6])) (.v 9 [.var 4, .var 7])) (.v 11 [.var 5, .var 10])) (.v 6 [.var 9, .var 11]))) (.mul (.mul (.mul (.smul (.mul (.lit 4) (.mem .r 3)) (.v 1 [.var 4, .var 9])) (.v 10 [.var 5, .var 11])) (.v 4 [.var 8, .var 6])) (.v 3 [.var 10, .var 7]))) (.mul (.mul (.mul (.v 7 [.var 8, .var 10]) (.v 11 [.var 4, .var 11])) (.v 4 [.var 9, .var 6])) (.v 13 [.var 5, .var 7]))) (.mul (.mul (.mul (.v 10 [.var 4, .var 10]) (.v 6 [.var 8, .var 11])) (.v 4 [.var 9, .var 6])) (.v 13 [.var 5, .var 7]))) (.mul (.mul (.mul (.smul (.lit 3) (.v 7 [.var 8, .var 10])) (.v 5 [.var 9, .var 6])) (.v 11 [.var 4, .var 11])) (.v 12 [.var 7, .var 5]))) (.mul (.mul (.mul (.smul (.lit 3) (.v 10 [.var 4, .var 10])) (.v 5 [.var 8, .var 6])) (.v 6 [.var 9, .var 11])) (.v 12 [.var 7, .var 5]))))))) (.smul (.mem .r 6) (.smul (.mem .r 6) (.smul (.mem .r 6) (.smul (.mem .r 6) (.add (.sub (.sub (.add (.sub (.add (.add (.add (.sub (.mul (.mul (.mul (.smul (.mul (.neg (.lit 2)) (.mem .r 3)) (.v 1 [.var 4, .var 9])) (.v 2 [.var 10, .var 6])) (.v 11 [.var 5, .var 11])) (.v 4 [.var 8, .var 7])) (.mul (.mul (.mul (.smul (.mem .r 3) (.v 10 [.var 4, .var 10])) (.v 7 [.var 8, .var 11])) (.v 9 [.var 5, .var 7])) (.v 4 [.var 9, .var 6]))) (.mul (.mul (.mul (.smul (.mem .r 3) (.v 8 [.var 4, .var 7])) (.v 7 [.var 8, .var 10])) (.v 11 [.var 5, .var 11])) (.v 4 [.var 9, .var 6]))) (.mul (.mul (.mul (.smul (.mul (.lit 2) (.mem .r 3)) (.v 10 [.var 4, .var 10])) (.v 5 [.var 8, .var 6])) (.v 11 [.var 5, .var 11])) (.v 4 [.var 9, .var 7]))) (.mul (.mul (.mul (.smul (.mem .r 3) (.v 10 [.var 4, .var 10])) (.v 5 [.var 8, .var 6])) (.v 9 [.var 5, .var 7])) (.v 6 [.var 9, .var 11]))) (.mul (.mul (.mul (.smul (.mul (.lit 3) (.mem .r 3)) (.v 8 [.var 4, .var 7])) (.v 5 [.var 8, .var 6])) (.v 11 [.var 5, .var 10])) (.v 6 [.var 9, .var 11]))) (.mul (.mul (.mul (.smul (.lit 3) (.v 10 [.var 4, .var 10])) (.v 7 [.var 8, .var 11])) (.v 4 [.var 9, .var 6])) (.v 13 [.var 5, .var 7]))) (.mul (.mul (.mul (.smul (.lit 3) (.v 10 [.var 4, .var 10])) (.v 5 [.var 8, .var 6])) (.v 6 [.var 9, .var 11])) (.v 13 [.var 5, .var 7]))) (.mul (.mul (.mul (.v 7 [.var 8, .var 10]) (.v 11 [.var 4, .var 11])) (.v 4 [.var 9, .var 6])) (.v 12 [.var 7, .var 5]))) (.mul (.mul (.mul (.v 5 [.var 8, .var 6]) (.v 11 [.var 4, .var 10])) (.v 6 [.var 9, .var 11])) (.v 12 [.var 7, .var 5]))))))))) (.mem .c 2)))) <|
    -- 176: amplitude+=normFactor*preW*(two*MW*a12a.v(ds1a,ds2a)*a34a.v(ds3a,ds4a)*s12s.v(ds1b,ds2b)*s34s.v(ds3b,ds4b)+(-four*MW*a34a.v(ds3a,ds4a)*a32a.v(ds3b,ds2a)*s12s.v(ds1a,ds2b)*s14s.v(ds1b,ds4b)-two*MW*a13a.v(ds1a,ds3b)*a42a.v(ds4a,ds2a)*s12s.v(ds1b,ds2b)*s34s.v(ds3a,ds4b)+three*MW*a12a.v(ds1a,ds2b)*a34a.v(ds3a,ds4a)*s14s.v(ds1b,ds4b)*s32s.v(ds3b,ds2a)-four*MW*a12a.v(ds1a,ds2b)*a14a.v(ds1b,ds4a)*s34s.v(ds3a,ds4b)*s32s.v(ds3b,ds2a)+three*MW*a14a.v(ds1a,ds4a)*a32a.v(ds3a,ds2a)*s12s.v(ds1b,ds2b)*s34s.v(ds3b,ds4b)-six*MW*a12a.v(ds1a,ds2a)*a34a.v(ds3a,ds4a)*s12s.v(ds1b,ds2b)*s34s.v(ds3b,ds4b))*CW*CW+(-four*MW*a34a.v(ds3a,ds4b)*a42a.v(ds4a,ds2a)*s12s.v(ds1a,ds2b)*s13s.v(ds1b,ds3b)-three*MW*a12a.v(ds1a,ds2b)*a34a.v(ds3a,ds4a)*a32a.v(ds3b,ds2a)*s14s.v(ds1b,ds4b)+MW*a34a.v(ds3a,ds4a)*s12s.v(ds1a,ds2b)*s14s.v(ds1b,ds4b)*s32s.v(ds3b,ds2a)-MW*a14a.v(ds1a,ds4a)*s12s.v(ds1b,ds2b)*s34s.v(ds3a,ds4b)*s32s.v(ds3b,ds2a)+three*MW*a12a.v(ds1a,ds2b)*a14a.v(ds1b,ds4a)*a32a.v(ds3a,ds2a)*s34s.v(ds3b,ds4b)-four*MW*a12a.v(ds1a,ds2b)*a13a.v(ds1b,ds3b)*s34s.v(ds3a,ds4b)*s42s.v(ds4a,ds2a)-a12a.v(ds1a,ds2b)*s34s.v(ds3a,ds4a)*s32s.v(ds3b,ds2a)*s124a.v(ds1b,ds4b)+a32a.v(ds3a,ds2a)*s12s.v(ds1a,ds2b)*s34s.v(ds3b,ds4a)*s124a.v(ds1b,ds4b)-three*a34a.v(ds3a,ds4a)*a32a.v(ds3b,ds2a)*s12s.v(ds1a,ds2b)*s421a.v(ds4b,ds1b)+three*a12a.v(ds1a,ds2b)*a34a.v(ds3a,ds4a)*s32s.v(ds3b,ds2a)*s421a.v(ds4b,ds1b))*CW*CW*CW+(two*MW*a13a.v(ds1a,ds3b)*a42a.v(ds4a,ds2a)*s12s.v(ds1b,ds2b)*s34s.v(ds3a,ds4b)-three*MW*a14a.v(ds1a,ds4a)*a34a.v(ds3a,ds4b)*s12s.v(ds1b,ds2b)*s32s.v(ds3b,ds2a)+MW*a12a.v(ds1a,ds2b)*a34a.v(ds3a,ds4a)*s14s.v(ds1b,ds4b)*s32s.v(ds3b,ds2a)+MW*a14a.v(ds1a,ds4a)*a32a.v(ds3a,ds2a)*s12s.v(ds1b,ds2b)*s34s.v(ds3b,ds4b)+two*MW*a12a.v(ds1a,ds2a)*a34a.v(ds3a,ds4a)*s12s.v(ds1b,ds2b)*s34s.v(ds3b,ds4b)-MW*a12a.v(ds1a,ds2b)*a32a.v(ds3a,ds2a)*s14s.v(ds1b,ds4a)*s34s.v(ds3b,ds4b)-three*a12a.v(ds1a,ds2b)*a34a.v(ds3a,ds4a)*s32s.v(ds3b,ds2a)*s124a.v(ds1b,ds4b)+three*a12a.v(ds1a,ds2b)*a32a.v(ds3a,ds2a)*s34s.v(ds3b,ds4a)*s124a.v(ds1b,ds4b)+a34a.v(ds3a,ds4a)*s12s.v(ds1a,ds2b)*s32s.v(ds3b,ds2a)*s421a.v(ds4b,ds1b)-a32a.v(ds3a,ds2a)*s12s.v(ds1a,ds2b)*s34s.v(ds3b,ds4a)*s421a.v(ds4b,ds1b))*CW*CW*CW*CW)/pDenS
    .set .c 0 (.add (.loc .c 0) (.div (.smul (.mul (.loc .r 0) (.mem .r 9)) (.add (.add (.add (.mul (.mul (.mul (.smul (.mul (.lit 2) (.mem .r 3)) (.v 8 [.var 4, .var 6])) (.v 7 [.var 8, .var 10])) (.v 9 [.var 5, .var 7])) (.v 6 [.var 9, .var 11])) (.smul (.mem .r 6) (.smul (.mem .r 6) (.sub (.add (.sub (.add (.sub (.mul (.mul (.mul (.smul (.mul (.neg (.lit 4)) (.mem .r 3)) (.v 7 [.var 8, .var 10])) (.v 5 [.var 9, .var 6])) (.v 9 [.var 4, .var 7])) (.v 11 [.var 5, .var 11])) (.mul (.mul (.mul (.smul (.mul (.lit 2) (.mem .r 3)) (.v 1 [.var 4, .var 9])) (.v 2 [.var 10, .var 6])) (.v 9 [.var 5, .var 7])) (.v 6 [.var 8, .var 11]))) (.mul (.mul (.mul (.smul (.mul (.lit 3) (.mem .r 3)) (.v 8 [.var 4, .var 7])) (.v 7 [.var 8, .var 10])) (.v 11 [.var 5, .var 11])) (.v 4 [.var 9, .var 6]))) (.mul (.mul (.mul (.smul (.mul (.lit 4) (.mem .r 3)) (.v 8 [.var 4, .var 7])) (.v 10 [.var 5, .var 10])) (.v 6 [.var 8, .var 11])) (.v 4 [.var 9, .var 6]))) (.mul (.mul (.mul (.smul (.mul (.lit 3) (.mem .r 3)) (.v 10 [.var 4, .var 10])) (.v 5 [.var 8, .var 6])) (.v 9 [.var 5, .var 7])) (.v 6 [.var 9, .var 11]))) (.mul (.mul (.mul (.smul (.mul (.lit 6) (.mem .r 3)) (.v 8 [.var 4, .var 6])) (.v 7 [.var 8, .var 10])) (.v 9 [.var 5, .var 7])) (.v 6 [.var 9, .var 11])))))) (.smul (.mem .r 6) (.smul (.mem .r 6) (.smul (.mem .r 6) (.add (.sub (.add (.sub (.sub (.add (.sub (.add (.sub (.mul (.mul (.mul (.smul (.mul (.neg (.lit 4)) (.mem .r 3)) (.v 7 [.var 8, .var 11])) (.v 2 [.var 10, .var 6])) (.v 9 [.var 4, .var 7])) (.v 0 [.var 5, .var 9])) (.mul (.mul (.mul (.smul (.mul (.lit 3) (.mem .r 3)) (.v 8 [.var 4, .var 7])) (.v 7 [.var 8, .var 10])) (.v 5 [.var 9, .var 6])) (.v 11 [.var 5, .var 11]))) (.mul (.mul (.mul (.smul (.mem .r 3) (.v 7 [.var 8, .var 10])) (.v 9 [.var 4, .var 7])) (.v 11 [.var 5, .var 11])) (.v 4 [.var 9, .var 6]))) (.mul (.mul (.mul (.smul (.mem .r 3) (.v 10 [.var 4, .var 10])) (.v 9 [.var 5, .var 7])) (.v 6 [.var 8, .var 11])) (.v 4 [.var 9, .var 6]))) (.mul (.mul (.mul (.smul (.mul (.lit 3) (.mem .r 3)) (.v 8 [.var 4, .var 7])) (.v 10 [.var 5, .var 10])) (.v 5 [.var 8, .var 6])) (.v 6 [.var 9, .var 11]))) (.mul (.mul (.mul (.smul (.mul (.lit 4) (.mem .r 3)) (.v 8 [.var 4, .var 7])) (.v 1 [.var 5, .var 9])) (.v 6 [.var 8, .var 11])) (.v 3 [.var 10, .var 6]))) (.mul (.mul (.mul (.v 8 [.var 4, .var 7]) (.v 6 [.var 8, .var 10])) (.v 4 [.var 9, .var 6])) (.v 15 [.var 5, .var 11]))) (.mul (.mul (.mul (.v 5 [.var 8, .var 6]) (.v 9 [.var 4, .var 7])) (.v 6 [.var 9, .var 10])) (.v 15 [.var 5, .var 11]))) (.mul (.mul (.mul (.smul (.lit 3) (.v 7 [.var 8, .var 10])) (.v 5 [.var 9, .var 6])) (.v 9 [.var 4, .var 7])) (.v 14 [.var 11, .var 5]))) (.mul (.mul (.mul (.smul (.lit 3) (.v 8 [.var 4, .var 7])) (.v 7 [.var 8, .var 10])) (.v 4 [.var 9, .var 6])) (.v 14 [.var 11, .var 5]))))))) (.smul (.mem .r 6) (.smul (.mem .r 6) (.smul (.mem .r 6) (.smul (.mem .r 6) (.sub (.add (.add (.sub (.sub (.add (.add (.add (.sub (.mul (.mul (.mul (.smul (.mul (.lit 2) (.mem .r 3)) (.v 1 [.var 4, .var 9])) (.v 2 [.var 10, .var 6])) (.v 9 [.var 5, .var 7])) (.v 6 [.var 8, .var 11])) (.mul (.mul (.mul (.smul (.mul (.lit 3) (.mem .r 3)) (.v 10 [.var 4, .var 10])) (.v 7 [.var 8, .var 11])) (.v 9 [.var 5, .var 7])) (.v 4 [.var 9, .var 6]))) (.mul (.mul (.mul (.smul (.mem .r 3) (.v 8 [.var 4, .var 7])) (.v 7 [.var 8, .var 10])) (.v 11 [.var 5, .var 11])) (.v 4 [.var 9, .var 6]))) (.mul (.mul (.mul (.smul (.mem .r 3) (.v 10 [.var 4, .var 10])) (.v 5 [.var 8, .var 6])) (.v 9 [.var 5, .var 7])) (.v 6 [.var 9, .var 11]))) (.mul (.mul (.mul (.smul (.mul (.lit 2) (.mem .r 3)) (.v 8 [.var 4, .var 6])) (.v 7 [.var 8, .var 10])) (.v 9 [.var 5, .var 7])) (.v 6 [.var 9, .var 11]))) (.mul (.mul (.mul (.smul (.mem .r 3) (.v 8 [.var 4, .var 7])) (.v 5 [.var 8, .var 6])) (.v 11 [.var 5, .var 10])) (.v 6 [.var 9, .var 11]))) (.mul (.mul (.mul (.smul (.lit 3) (.v 8 [.var 4, .var 7])) (.v 7 [.var 8, .var 10])) (.v 4 [.var 9, .var 6])) (.v 15 [.var 5, .var 11]))) (.mul (.mul (.mul (.smul (.lit 3) (.v 8 [.var 4, .var 7])) (.v 5 [.var 8, .var 6])) (.v 6 [.var 9, .var 10])) (.v 15 [.var 5, .var 11]))) (.mul (.mul (.mul (.v 7 [.var 8, .var 10]) (.v 9 [.var 4, .var 7])) (.v 4 [.var 9, .var 6])) (.v 14 [.var 11, .var 5]))) (.mul (.mul (.mul (.v 5 [.var 8, .var 6]) (.v 9 [.var 4, .var 7])) (.v 6 [.var 9, .var 10])) (.v 14 [.var 11, .var 5]))))))))) (.mem .c 0))))) <|
  -- 210: return amplitude
  .ret .c (.loc .c 0)⟩

/-- `ldouble amp2()` (SM/ZWZW.cpp:214-228); variables: r 0 `amp2`, c 0 `M`, i 0 `j1`, i 1 `j2`, i 2 `j3`, i 3 `j4` -/
def m_amp2 : Method := ⟨0, 
  -- 215: ldouble amp2
  .seq (.set .r 0 (.lit 0)) <|
  -- 216: cdouble M
  .seq (.set .c 0 (.ofR (.lit 0))) <|
  -- 219: for(int j1=-2;j1<=2;j1+=2)
  .seq (.loop 0 (-2) true (.lit 2) 2 (
    -- 220: for(int j2=-2;j2<=2;j2+=2)
    .loop 1 (-2) true (.lit 2) 2 (
      -- 221: for(int j3=-2;j3<=2;j3+=2)
      .loop 2 (-2) true (.lit 2) 2 (
        -- 222: for(int j4=-2;j4<=2;j4+=2)
        .loop 3 (-2) true (.lit 2) 2 (
          -- 223: M=amp(j1,j2,j3,j4)
          .seq (.set .c 0 (.call 0 [.var 0, .var 1, .var 2, .var 3])) <|
          -- 224: amp2+=std::pow(std::abs(M),2)
          .set .r 0 (.add (.loc .r 0) (.pow (.abs (.loc .c 0)) 2))))))) <|
  -- 227: return amp2/9.0
  .ret .r (.div (.loc .r 0) (.lit 9))⟩

end ZWZW

/-- `class ZWZW` (SM/ZWZW.cpp, SM/include/ZWZW.h:25-34).  Members:
* ldouble: 0 `e`, 1 `mh`, 2 `wh`, 3 `MW`, 4 `WW`, 5 `SW`, 6 `CW`, 7 `MZ`, 8 `preh`, 9 `preW`
* cdouble: 0 `pDenS`, 1 `pDenT`, 2 `pDenU`
* propagator: 0 `proph`, 1 `propW`
* sproduct: 0 `s13s`, 1 `a13a`, 2 `a42a`, 3 `s42s`, 4 `s32s`, 5 `a32a`, 6 `s34s`, 7 `a34a`, 8 `a12a`, 9 `s12s`, 10 `a14a`, 11 `s14s`, 12 `s241a`, 13 `s142a`, 14 `s421a`, 15 `s124a` -/
def ZWZW : Proc where
  name := "ZWZW"
  nPar := 6
  ctor := ZWZW.ctor
  setMasses := ZWZW.setMasses
  massPar := [1, 3]
  setMomenta := ZWZW.setMomenta
  methods := [ZWZW.m_amp2, ZWZW.m_amp]
  amp2 := 1
  others := []

namespace ZZWW

/-- constructor (SM/ZZWW.cpp:32-63); parameters: 0 `echarge`, 1 `massh`, 2 `widthh`, 3 `massW`, 4 `widthW`, 5 `sinW` -/
def ctor : List SInstr := [
  -- 32: e(echarge)
  .set .r 0 (.loc .r 0),
  -- 32: mh(massh)
  .set .r 1 (.loc .r 1),
  -- 32: wh(widthh)
  .set .r 2 (.loc .r 2),
  -- 32: MW(massW)
  .set .r 3 (.loc .r 3),
  -- 32: WW(widthW)
  .set .r 4 (.loc .r 4),
  -- 32: SW(sinW)
  .set .r 5 (.loc .r 5),
  -- 32: CW(std::sqrt(1.0-sinW*sinW))
  .set .r 6 (.sqrt (.sub (.lit 1) (.mul (.loc .r 5) (.loc .r 5)))),
  -- 32: MZ(massW/CW)
  .set .r 7 (.div (.loc .r 3) (.mem .r 6)),
  -- 34: CW=std::sqrt(1.0-sinW*sinW)
  .set .r 6 (.sqrt (.sub (.lit 1) (.mul (.loc .r 5) (.loc .r 5)))),
  -- 35: MZ=MW/CW
  .set .r 7 (.div (.mem .r 3) (.mem .r 6)),
  -- 36: proph=propagator(mh,wh)
  .prop 0 (.mem .r 1) (.mem .r 2),
  -- 37: propW=propagator(MW,WW)
  .prop 1 (.mem .r 3) (.mem .r 4),
  -- 38: p1=particle(MZ)
  .part 0 (.mem .r 7),
  -- 39: p2=particle(MZ)
  .part 1 (.mem .r 7),
  -- 40: p3=particle(MW)
  .part 2 (.mem .r 3),
  -- 41: p4=particle(MW)
  .part 3 (.mem .r 3),
  -- 43: s12s=sproduct(SQUARE,&p1,&p2)
  .sprod 0 ⟨false, 0, true, [], 1, true⟩,
  -- 44: a12a=sproduct(ANGLE,&p1,&p2)
  .sprod 1 ⟨true, 0, true, [], 1, true⟩,
  -- 45: s34s=sproduct(SQUARE,&p3,&p4)
  .sprod 3 ⟨false, 2, true, [], 3, true⟩,
  -- 46: a34a=sproduct(ANGLE,&p3,&p4)
  .sprod 2 ⟨true, 2, true, [], 3, true⟩,
  -- 47: s23s=sproduct(SQUARE,&p2,&p3)
  .sprod 6 ⟨false, 1, true, [], 2, true⟩,
  -- 48: a23a=sproduct(ANGLE,&p2,&p3)
  .sprod 7 ⟨true, 1, true, [], 2, true⟩,
  -- 49: s24s=sproduct(SQUARE,&p2,&p4)
  .sprod 4 ⟨false, 1, true, [], 3, true⟩,
  -- 50: a24a=sproduct(ANGLE,&p2,&p4)
  .sprod 5 ⟨true, 1, true, [], 3, true⟩,
  -- 51: s14s=sproduct(SQUARE,&p1,&p4)
  .sprod 9 ⟨false, 0, true, [], 3, true⟩,
  -- 52: a14a=sproduct(ANGLE,&p1,&p4)
  .sprod 8 ⟨true, 0, true, [], 3, true⟩,
  -- 53: s13s=sproduct(SQUARE,&p1,&p3)
  .sprod 11 ⟨false, 0, true, [], 2, true⟩,
  -- 54: a13a=sproduct(ANGLE,&p1,&p3)
  .sprod 10 ⟨true, 0, true, [], 2, true⟩,
  -- 56: s431a=sproduct(SQUARE,&p4,&p3,&p1)
  .sprod 12 ⟨false, 3, true, [2], 0, true⟩,
  -- 57: s134a=sproduct(SQUARE,&p1,&p3,&p4)
  .sprod 13 ⟨false, 0, true, [2], 3, true⟩,
  -- 58: s341a=sproduct(SQUARE,&p3,&p4,&p1)
  .sprod 14 ⟨false, 2, true, [3], 0, true⟩,
  -- 59: s143a=sproduct(SQUARE,&p1,&p4,&p3)
  .sprod 15 ⟨false, 0, true, [3], 2, true⟩,
  -- 61: preh=e*e/(MW*MW*SW*SW)
  .set .r 9 (.div (.mul (.mem .r 0) (.mem .r 0)) (.mul (.mul (.mul (.mem .r 3) (.mem .r 3)) (.mem .r 5)) (.mem .r 5))),
  -- 62: preW=e*e/(2.0*MW*MW*MW*SW*SW)
  .set .r 10 (.div (.mul (.mem .r 0) (.mem .r 0)) (.mul (.mul (.mul (.mul (.mul (.lit 2) (.mem .r 3)) (.mem .r 3)) (.mem .r 3)) (.mem .r 5)) (.mem .r 5)))]

/-- `set_masses` (SM/ZZWW.cpp:64-77); parameters: 0 `massh`, 1 `massW` -/
def setMasses : List SInstr := [
  -- 65: mh=massh
  .set .r 1 (.loc .r 0),
  -- 66: MW=massW
  .set .r 3 (.loc .r 1),
  -- 67: MZ=MW/CW
  .set .r 7 (.div (.mem .r 3) (.mem .r 6)),
  -- 68: p1.set_mass(MZ)
  .setMass 0 (.mem .r 7),
  -- 69: p2.set_mass(MZ)
  .setMass 1 (.mem .r 7),
  -- 70: p3.set_mass(MW)
  .setMass 2 (.mem .r 3),
  -- 71: p4.set_mass(MW)
  .setMass 3 (.mem .r 3),
  -- 72: proph.set_mass(mh)
  .propMass 0 (.mem .r 1),
  -- 73: propW.set_mass(MW)
  .propMass 1 (.mem .r 3),
  -- 75: preh=e*e/(MW*MW*SW*SW)
  .set .r 9 (.div (.mul (.mem .r 0) (.mem .r 0)) (.mul (.mul (.mul (.mem .r 3) (.mem .r 3)) (.mem .r 5)) (.mem .r 5))),
  -- 76: preW=e*e/(2.0*MW*MW*MW*SW*SW)
  .set .r 10 (.div (.mul (.mem .r 0) (.mem .r 0)) (.mul (.mul (.mul (.mul (.mul (.lit 2) (.mem .r 3)) (.mem .r 3)) (.mem .r 3)) (.mem .r 5)) (.mem .r 5)))]

/-- `set_momenta` (SM/ZZWW.cpp:78-112); parameters: 0 `mom1`, 1 `mom2`, 2 `mom3`, 3 `mom4` -/
def setMomenta : List SInstr := [
  -- 80: p1.set_momentum(mom1)
  .setMom 0 0,
  -- 81: p2.set_momentum(mom2)
  .setMom 1 1,
  -- 82: p3.set_momentum(mom3)
  .setMom 2 2,
  -- 83: p4.set_momentum(mom4)
  .setMom 3 3,
  -- 85: s12s.update()
  .update 0,
  -- 86: a12a.update()
  .update 1,
  -- 87: s34s.update()
  .update 3,
  -- 88: a34a.update()
  .update 2,
  -- 89: s23s.update()
  .update 6,
  -- 90: a23a.update()
  .update 7,
  -- 91: s24s.update()
  .update 4,
  -- 92: a24a.update()
  .update 5,
  -- 93: s14s.update()
  .update 9,
  -- 94: a14a.update()
  .update 8,
  -- 95: s13s.update()
  .update 11,
  -- 96: a13a.update()
  .update 10,
  -- 98: s431a.update()
  .update 12,
  -- 99: s134a.update()
  .update 13,
  -- 100: s341a.update()
  .update 14,
  -- 101: s143a.update()
  .update 15,
  -- 109: pDenS=proph.denominator(propSP)
  .den .c 0 0 (.add 0 1),
  -- 110: pDenT=propW.denominator(propTP)
  .den .c 1 1 (.sub 0 2),
  -- 111: pDenU=propW.denominator(propUP)
  .den .c 2 1 (.sub 0 3)]

/-- `cdouble amp(ds1,ds2,ds3,ds4)` (SM/ZZWW.cpp:117-207); variables: i 0 `ds1`, i 1 `ds2`, i 2 `ds3`, i 3 `ds4`, c 0 `amplitude`, i 4 `ds1a`, i 5 `ds1b`, i 6 `ds2a`, i 7 `ds2b`, i 8 `ds3a`, i 9 `ds3b`, i 10 `ds4a`, i 11 `ds4b`, i 12 `nCombs`, r 0 `normFactor`, i 13 `i` -/
def m_amp : Method := ⟨4, 
  -- 118: cdouble amplitude
  .seq (.set .c 0 (.ofR (.lit 0))) <|
  -- 123: int nCombs
  .seq (.seti 12 (.loops [0, 1, 2, 3])) <|
  -- 124: ldouble normFactor
  .seq (.set .r 0 (.norm [0, 1, 2, 3])) <|
  -- 126: for(int i=0;i<nCombs;i++)
  .seq (.loop 13 0 false (.var 12) 1 (
    -- 127: get_spinor_spins(ds1,ds1a,ds1b,ds2,ds2a,ds2b,ds3,ds3a,ds3b,ds4,ds4a,ds4b,i)
    .seq (.spins [(0, 4, 5), (1, 6, 7), (2, 8, 9), (3, 10, 11)] (.var 13)) <|
    -- 134: amplitude+=normFactor*preh*s12s.v(ds1a,ds2a)*a12a.v(ds1b,ds2b)*s34s.v(ds3a,ds4a)*a34a.v(ds3b,ds4b)/pDenS
    .seq (.set .c 0 (.add (.loc .c 0) (.div (.mul (.mul (.mul (.smul (.mul (.loc .r 0) (.mem .r 9)) (.v 0 [.var 4, .var 6])) (.v 1 [.var 5, .var 7])) (.v 3 [.var 8, .var 10])) (.v 2 [.var 9, .var 11])) (.mem .c 0)))) <|
    -- 139: amplitude+=normFactor*preW*(two*MW*a13a.v(ds1a,ds3a)*a24a.v(ds2a,ds4a)*s13s.v(ds1b,ds3b)*s24s.v(ds2b,ds4b)+(four*MW*a23a.v(ds2a,ds3a)*a24a.v(ds2b,ds4a)*s13s.v(ds1a,ds3b)*s14s.v(ds1b,ds4b)+two*MW*a12a.v(ds1a,ds2b)*a34a.v(ds3a,ds4a)*s13s.v(ds1b,ds3b)*s24s.v(ds2a,ds4b)+three*MW*a13a.v(ds1a,ds3a)*a24a.v(ds2a,ds4a)*s14s.v(ds1b,ds4b)*s23s.v(ds2b,ds3b)+three*MW*a14a.v(ds1a,ds4a)*a23a.v(ds2a,ds3a)*s13s.v(ds1b,ds3b)*s24s.v(ds2b,ds4b)-six*MW*a13a.v(ds1a,ds3a)*a24a.v(ds2a,ds4a)*s13s.v(ds1b,ds3b)*s24s.v(ds2b,ds4b)+four*MW*a13a.v(ds1a,ds3a)*a14a.v(ds1b,ds4a)*s23s.v(ds2a,ds3b)*s24s.v(ds2b,ds4b))*CW*CW+(four*MW*a24a.v(ds2a,ds4a)*a34a.v(ds3a,ds4b)*s12s.v(ds1a,ds2b)*s13s.v(ds1b,ds3b)-three*MW*a13a.v(ds1a,ds3a)*a23a.v(ds2a,ds3b)*a24a.v(ds2b,ds4a)*s14s.v(ds1b,ds4b)-MW*a24a.v(ds2a,ds4a)*s13s.v(ds1a,ds3a)*s14s.v(ds1b,ds4b)*s23s.v(ds2b,ds3b)-three*MW*a13a.v(ds1a,ds3a)*a14a.v(ds1b,ds4a)*a23a.v(ds2a,ds3b)*s24s.v(ds2b,ds4b)-MW*a14a.v(ds1a,ds4a)*s13s.v(ds1b,ds3a)*s23s.v(ds2a,ds3b)*s24s.v(ds2b,ds4b)+four*MW*a12a.v(ds1a,ds2b)*a13a.v(ds1b,ds3b)*s24s.v(ds2a,ds4a)*s34s.v(ds3a,ds4b)-a23a.v(ds2a,ds3a)*s13s.v(ds1a,ds3b)*s24s.v(ds2b,ds4a)*s134a.v(ds1b,ds4b)-a13a.v(ds1a,ds3a)*s23s.v(ds2a,ds3b)*s24s.v(ds2b,ds4a)*s134a.v(ds1b,ds4b)-three*a23a.v(ds2a,ds3a)*a24a.v(ds2b,ds4a)*s13s.v(ds1a,ds3b)*s431a.v(ds4b,ds1b)+-three*a13a.v(ds1a,ds3a)*a24a.v(ds2a,ds4a)*s23s.v(ds2b,ds3b)*s431a.v(ds4b,ds1b))*CW*CW*CW+(-two*MW*a12a.v(ds1a,ds2b)*a34a.v(ds3a,ds4a)*s13s.v(ds1b,ds3b)*s24s.v(ds2a,ds4b)+three*MW*a14a.v(ds1a,ds4a)*a24a.v(ds2a,ds4b)*s13s.v(ds1b,ds3a)*s23s.v(ds2b,ds3b)+MW*a13a.v(ds1a,ds3a)*a24a.v(ds2a,ds4a)*s14s.v(ds1b,ds4b)*s23s.v(ds2b,ds3b)+MW*a14a.v(ds1a,ds4a)*a23a.v(ds2a,ds3a)*s13s.v(ds1b,ds3b)*s24s.v(ds2b,ds4b)+two*MW*a13a.v(ds1a,ds3a)*a24a.v(ds2a,ds4a)*s13s.v(ds1b,ds3b)*s24s.v(ds2b,ds4b)+MW*a13a.v(ds1a,ds3a)*a23a.v(ds2a,ds3b)*s14s.v(ds1b,ds4a)*s24s.v(ds2b,ds4b)+three*a13a.v(ds1a,ds3a)*a24a.v(ds2a,ds4a)*s23s.v(ds2b,ds3b)*s134a.v(ds1b,ds4b)+three*a13a.v(ds1a,ds3a)*a23a.v(ds2a,ds3b)*s24s.v(ds2b,ds4a)*s134a.v(ds1b,ds4b)+a24a.v(ds2a,ds4a)*s13s.v(ds1a,ds3a)*s23s.v(ds2b,ds3b)*s431a.v(ds4b,ds1b)+a23a.v(ds2a,ds3a)*s13s.v(ds1a,ds3b)*s24s.v(ds2b,ds4a)*s431a.v(ds4b,ds1b))*CW*CW*CW*CW)/pDenT
    .seq (.set .c 0 (.add (.loc .c 0) (.div (.smul (.mul (.loc .r 0) (.mem .r 10)) (.add (.add (.add (.mul (.mul (.mul (.smul (.mul (.lit 2) (.mem .r 3)) (.v 10 [.var 4, .var 8])) (.v 5 [.var 6, .var 10])) (.v 11 [.var 5, .var 9])) (.v 4 [.var 7, .var 11])) (.smul (.mem .r 6) (.smul (.mem .r 6) (.add (.sub (.add (.add (.add (.mul (.mul (.mul (.smul (.mul (.lit 4) (.mem .r 3)) (.v 7 [.var 6, .var 8])) (.v 5 [.var 7, .var 10])) (.v 11 [.var 4, .var 9])) (.v 9 [.var 5, .var 11])) (.mul (.mul (.mul (.smul (.mul (.lit 2) (.mem .r 3)) (.v 1 [.var 4, .var 7])) (.v 2 [.var 8, .var 10])) (.v 11 [.var 5, .var 9])) (.v 4 [.var 6, .var 11]))) (.mul (.mul (.mul (.smul (.mul (.lit 3) (.mem .r 3)) (.v 10 [.var 4, .var 8])) (.v 5 [.var 6, .var 10])) (.v 9 [.var 5, .var 11])) (.v 6 [.var 7, .var 9]))) (.mul (.mul (.mul (.smul (.mul (.lit 3) (.mem .r 3)) (.v 8 [.var 4, .var 10])) (.v 7 [.var 6, .var 8])) (.v 11 [.var 5, .var 9])) (.v 4 [.var 7, .var 11]))) (.mul (.mul (.mul (.smul (.mul (.lit 6) (.mem .r 3)) (.v 10 [.var 4, .var 8])) (.v 5 [.var 6, .var 10])) (.v 11 [.var 5, .var 9])) (.v 4 [.var 7, .var 11]))) (.mul (.mul (.mul (.smul (.mul (.lit 4) (.mem .r 3)) (.v 10 [.var 4, .var 8])) (.v 8 [.var 5, .var 10])) (.v 6 [.var 6, .var 9])) (.v 4 [.var 7, .var 11])))))) (.smul (.mem .r 6) (.smul (.mem .r 6) (.smul (.mem .r 6) (.add (.sub (.sub (.sub (.add (.sub (.sub (.sub (.sub (.mul (.mul (.mul (.smul (.mul (.lit 4) (.mem .r 3)) (.v 5 [.var 6, .var 10])) (.v 2 [.var 8, .var 11])) (.v 0 [.var 4, .var 7])) (.v 11 [.var 5, .var 9])) (.mul (.mul (.mul (.smul (.mul (.lit 3) (.mem .r 3)) (.v 10 [.var 4, .var 8])) (.v 7 [.var 6, .var 9])) (.v 5 [.var 7, .var 10])) (.v 9 [.var 5, .var 11]))) (.mul (.mul (.mul (.smul (.mem .r 3) (.v 5 [.var 6, .var 10])) (.v 11 [.var 4, .var 8])) (.v 9 [.var 5, .var 11])) (.v 6 [.var 7, .var 9]))) (.mul (.mul (.mul (.smul (.mul (.lit 3) (.mem .r 3)) (.v 10 [.var 4, .var 8])) (.v 8 [.var 5, .var 10])) (.v 7 [.var 6, .var 9])) (.v 4 [.var 7, .var 11]))) (.mul (.mul (.mul (.smul (.mem .r 3) (.v 8 [.var 4, .var 10])) (.v 11 [.var 5, .var 8])) (.v 6 [.var 6, .var 9])) (.v 4 [.var 7, .var 11]))) (.mul (.mul (.mul (.smul (.mul (.lit 4) (.mem .r 3)) (.v 1 [.var 4, .var 7])) (.v 10 [.var 5, .var 9])) (.v 4 [.var 6, .var 10])) (.v 3 [.var 8, .var 11]))) (.mul (.mul (.mul (.v 7 [.var 6, .var 8]) (.v 11 [.var 4, .var 9])) (.v 4 [.var 7, .var 10])) (.v 13 [.var 5, .var 11]))) (.mul (.mul (.mul (.v 10 [.var 4, .var 8]) (.v 6 [.var 6, .var 9])) (.v 4 [.var 7, .var 10])) (.v 13 [.var 5, .var 11]))) (.mul (.mul (.mul (.smul (.lit 3) (.v 7 [.var 6, .var 8])) (.v 5 [.var 7, .var 10])) (.v 11 [.var 4, .var 9])) (.v 12 [.var 11, .var 5]))) (.mul (.mul (.mul (.smul (.neg (.lit 3)) (.v 10 [.var 4, .var 8])) (.v 5 [.var 6, .var 10])) (.v 6 [.var 7, .var 9])) (.v 12 [.var 11, .var 5]))))))) (.smul (.mem .r 6) (.smul (.mem .r 6) (.smul (.mem .r 6) (.smul (.mem .r 6) (.add (.add (.add (.add (.add (.add (.add (.add (.add (.mul (.mul (.mul (.smul (.mul (.neg (.lit 2)) (.mem .r 3)) (.v 1 [.var 4, .var 7])) (.v 2 [.var 8, .var 10])) (.v 11 [.var 5, .var 9])) (.v 4 [.var 6, .var 11])) (.mul (.mul (.mul (.smul (.mul (.lit 3) (.mem .r 3)) (.v 8 [.var 4, .var 10])) (.v 5 [.var 6, .var 11])) (.v 11 [.var 5, .var 8])) (.v 6 [.var 7, .var 9]))) (.mul (.mul (.mul (.smul (.mem .r 3) (.v 10 [.var 4, .var 8])) (.v 5 [.var 6, .var 10])) (.v 9 [.var 5, .var 11])) (.v 6 [.var 7, .var 9]))) (.mul (.mul (.mul (.smul (.mem .r 3) (.v 8 [.var 4, .var 10])) (.v 7 [.var 6, .var 8])) (.v 11 [.var 5, .var 9])) (.v 4 [.var 7, .var 11]))) (.mul (.mul (.mul (.smul (.mul (.lit 2) (.mem .r 3)) (.v 10 [.var 4, .var 8])) (.v 5 [.var 6, .var 10])) (.v 11 [.var 5, .var 9])) (.v 4 [.var 7, .var 11]))) (.mul (.mul (.mul (.smul (.mem .r 3) (.v 10 [.var 4, .var 8])) (.v 7 [.var 6, .var 9])) (.v 9 [.var 5, .var 10])) (.v 4 [.var 7, .var 11]))) (.mul (.mul (.mul (.smul (.lit 3) (.v 10 [.var 4, .var 8])) (.v 5 [.var 6, .var 10])) (.v 6 [.var 7, .var 9])) (.v 13 [.var 5, .var 11]))) (.mul (.mul (.mul (.smul (.lit 3) (.v 10 [.var 4, .var 8])) (.v 7 [.var 6, .var 9])) (.v 4 [.var 7, .var 10])) (.v 13 [.var 5, .var 11]))) (.mul (.mul (.mul (.v 5 [.var 6, .var 10]) (.v 11 [.var 4, .var 8])) (.v 6 [.var 7, .var 9])) (.v 12 [.var 11, .var 5]))) (.mul (.mul (.mul (.v 7 [.var 6, .var 8]) (.v 11 [.var 4, .var 9])) (.v 4 [.var 7, .var 10])) (.v 12 [.var 11, .var 5]))))))))) (.mem .c 1)))) <|
    -- 171: amplitude+=normFactor*preW*(two*MW*a14a.v(ds1a,ds4a)*a23a.v(ds2a,ds3a)*s14s.v(ds1b,ds4b)*s23s.v(ds2b,ds3b)+(four*MW*a23a.v(ds2a,ds3a)*a24a.v(ds2b,ds4a)*s13s.v(ds1a,ds3b)*s14s.v(ds1b,ds4b)-two*MW*a12a.v(ds1a,ds2b)*a34a.v(ds3a,ds4a)*s14s.v(ds1b,ds4b)*s23s.v(ds2a,ds3b)-six*MW*a14a.v(ds1a,ds4a)*a23a.v(ds2a,ds3a)*s14s.v(ds1b,ds4b)*s23s.v(ds2b,ds3b)+three*MW*a13a.v(ds1a,ds3a)*a24a.v(ds2a,ds4a)*s14s.v(ds1b,ds4b)*s23s.v(ds2b,ds3b)+three*MW*a14a.v(ds1a,ds4a)*a23a.v(ds2a,ds3a)*s13s.v(ds1b,ds3b)*s24s.v(ds2b,ds4b)+four*MW*a13a.v(ds1a,ds3a)*a14a.v(ds1b,ds4a)*s23s.v(ds2a,ds3b)*s24s.v(ds2b,ds4b))*CW*CW+(-three*MW*a14a.v(ds1a,ds4a)*a23a.v(ds2a,ds3a)*a24a.v(ds2b,ds4b)*s13s.v(ds1b,ds3b)-four*MW*a23a.v(ds2a,ds3b)*a34a.v(ds3a,ds4a)*s12s.v(ds1a,ds2b)*s14s.v(ds1b,ds4b)-three*MW*a13a.v(ds1a,ds3a)*a14a.v(ds1b,ds4a)*a24a.v(ds2a,ds4b)*s23s.v(ds2b,ds3b)-MW*a23a.v(ds2a,ds3a)*s13s.v(ds1a,ds3b)*s14s.v(ds1b,ds4a)*s24s.v(ds2b,ds4b)-MW*a13a.v(ds1a,ds3a)*s14s.v(ds1b,ds4a)*s23s.v(ds2a,ds3b)*s24s.v(ds2b,ds4b)-four*MW*a12a.v(ds1a,ds2b)*a14a.v(ds1b,ds4a)*s23s.v(ds2a,ds3b)*s34s.v(ds3a,ds4b)-a24a.v(ds2a,ds4a)*s14s.v(ds1a,ds4b)*s23s.v(ds2b,ds3a)*s143a.v(ds1b,ds3b)-a14a.v(ds1a,ds4a)*s23s.v(ds2a,ds3a)*s24s.v(ds2b,ds4b)*s143a.v(ds1b,ds3b)-three*a23a.v(ds2a,ds3a)*a24a.v(ds2b,ds4a)*s14s.v(ds1a,ds4b)*s341a.v(ds3b,ds1b)-three*a14a.v(ds1a,ds4a)*a23a.v(ds2a,ds3a)*s24s.v(ds2b,ds4b)*s341a.v(ds3b,ds1b))*CW*CW*CW+(two*MW*a12a.v(ds1a,ds2b)*a34a.v(ds3a,ds4a)*s14s.v(ds1b,ds4b)*s23s.v(ds2a,ds3b)+MW*a14a.v(ds1a,ds4a)*a24a.v(ds2a,ds4b)*s13s.v(ds1b,ds3a)*s23s.v(ds2b,ds3b)+two*MW*a14a.v(ds1a,ds4a)*a23a.v(ds2a,ds3a)*s14s.v(ds1b,ds4b)*s23s.v(ds2b,ds3b)+MW*a13a.v(ds1a,ds3a)*a24a.v(ds2a,ds4a)*s14s.v(ds1b,ds4b)*s23s.v(ds2b,ds3b)+MW*a14a.v(ds1a,ds4a)*a23a.v(ds2a,ds3a)*s13s.v(ds1b,ds3b)*s24s.v(ds2b,ds4b)+three*MW*a13a.v(ds1a,ds3a)*a23a.v(ds2a,ds3b)*s14s.v(ds1b,ds4a)*s24s.v(ds2b,ds4b)+three*a14a.v(ds1a,ds4a)*a24a.v(ds2a,ds4b)*s23s.v(ds2b,ds3a)*s143a.v(ds1b,ds3b)+three*a14a.v(ds1a,ds4a)*a23a.v(ds2a,ds3a)*s24s.v(ds2b,ds4b)*s143a.v(ds1b,ds3b)+a24a.v(ds2a,ds4a)*s14s.v(ds1a,ds4b)*s23s.v(ds2b,ds3a)*s341a.v(ds3b,ds1b)+a23a.v(ds2a,ds3a)*s14s.v(ds1a,ds4a)*s24s.v(ds2b,ds4b)*s341a.v(ds3b,ds1b))*CW*CW*CW*CW)/pDenU
    .set .c 0 (.add (.loc .c 0) (.div (.smul (.mul (.loc .r 0) (.mem .r 10)) (.add (.add (.add (.mul (.mul (.mul (.smul (.mul (.lit 2) (.mem .r 3)) (.v 8 [.var 4, .var 10])) (.v 7 [.var 6, .var 8])) (.v 9 [.var 5, .var 11])) (.v 6 [.var 7, .var 9])) (.smul (.mem .r 6) (.smul (.mem .r 6) (.add (.add (.add (.sub (.sub (.mul (.mul (.mul (.smul (.mul (.lit 4) (.mem .r 3)) (.v 7 [.var 6, .var 8])) (.v 5 [.var 7, .var 10])) (.v 11 [.var 4, .var 9])) (.v 9 [.var 5, .var 11])) (.mul (.mul (.mul (.smul (.mul (.lit 2) (.mem .r 3)) (.v 1 [.var 4, .var 7])) (.v 2 [.var 8, .var 10])) (.v 9 [.var 5, .var 11])) (.v 6 [.var 6, .var 9]))) (.mul (.mul (.mul (.smul (.mul (.lit 6) (.mem .r 3)) (.v 8 [.var 4, .var 10])) (.v 7 [.var 6, .var 8])) (.v 9 [.var 5, .var 11])) (.v 6 [.var 7, .var 9]))) (.mul (.mul (.mul (.smul (.mul (.lit 3) (.mem .r 3)) (.v 10 [.var 4, .var 8])) (.v 5 [.var 6, .var 10])) (.v 9 [.var 5, .var 11])) (.v 6 [.var 7, .var 9]))) (.mul (.mul (.mul (.smul (.mul (.lit 3) (.mem .r 3)) (.v 8 [.var 4, .var 10])) (.v 7 [.var 6, .var 8])) (.v 11 [.var 5, .var 9])) (.v 4 [.var 7, .var 11]))) (.mul (.mul (.mul (.smul (.mul (.lit 4) (.mem .r 3)) (.v 10 [.var 4, .var 8])) (.v 8 [.var 5, .var 10])) (.v 6 [.var 6, .var 9])) (.v 4 [.var 7, .var 11])))))) (.smul (.mem .r 6) (.smul (.mem .r 6) (.smul (.mem .r 6) (.sub (.sub (.sub (.sub (.sub (.sub (.sub (.sub (.sub (.mul (.mul (.mul (.smul (.mul (.neg (.lit 3)) (.mem .r 3)) (.v 8 [.var 4, .var 10])) (.v 7 [.var 6, .var 8])) (.v 5 [.var 7, .var 11])) (.v 11 [.var 5, .var 9])) (.mul (.mul (.mul (.smul (.mul (.lit 4) (.mem .r 3)) (.v 7 [.var 6, .var 9])) (.v 2 [.var 8, .var 10])) (.v 0 [.var 4, .var 7])) (.v 9 [.var 5, .var 11]))) (.mul (.mul (.mul (.smul (.mul (.lit 3) (.mem .r 3)) (.v 10 [.var 4, .var 8])) (.v 8 [.var 5, .var 10])) (.v 5 [.var 6, .var 11])) (.v 6 [.var 7, .var 9]))) (.mul (.mul (.mul (.smul (.mem .r 3) (.v 7 [.var 6, .var 8])) (.v 11 [.var 4, .var 9])) (.v 9 [.var 5, .var 10])) (.v 4 [.var 7, .var 11]))) (.mul (.mul (.mul (.smul (.mem .r 3) (.v 10 [.var 4, .var 8])) (.v 9 [.var 5, .var 10])) (.v 6 [.var 6, .var 9])) (.v 4 [.var 7, .var 11]))) (.mul (.mul (.mul (.smul (.mul (.lit 4) (.mem .r 3)) (.v 1 [.var 4, .var 7])) (.v 8 [.var 5, .var 10])) (.v 6 [.var 6, .var 9])) (.v 3 [.var 8, .var 11]))) (.mul (.mul (.mul (.v 5 [.var 6, .var 10]) (.v 9 [.var 4, .var 11])) (.v 6 [.var 7, .var 8])) (.v 15 [.var 5, .var 9]))) (.mul (.mul (.mul (.v 8 [.var 4, .var 10]) (.v 6 [.var 6, .var 8])) (.v 4 [.var 7, .var 11])) (.v 15 [.var 5, .var 9]))) (.mul (.mul (.mul (.smul (.lit 3) (.v 7 [.var 6, .var 8])) (.v 5 [.var 7, .var 10])) (.v 9 [.var 4, .var 11])) (.v 14 [.var 9, .var 5]))) (.mul (.mul (.mul (.smul (.lit 3) (.v 8 [.var 4, .var 10])) (.v 7 [.var 6, .var 8])) (.v 4 [.var 7, .var 11])) (.v 14 [.var 9, .var 5]))))))) (.smul (.mem .r 6) (.smul (.mem .r 6) (.smul (.mem .r 6) (.smul (.mem .r 6) (.add (.add (.add (.add (.add (.add (.add (.add (.add (.mul (.mul (.mul (.smul (.mul (.lit 2) (.mem .r 3)) (.v 1 [.var 4, .var 7])) (.v 2 [.var 8, .var 10])) (.v 9 [.var 5, .var 11])) (.v 6 [.var 6, .var 9])) (.mul (.mul (.mul (.smul (.mem .r 3) (.v 8 [.var 4, .var 10])) (.v 5 [.var 6, .var 11])) (.v 11 [.var 5, .var 8])) (.v 6 [.var 7, .var 9]))) (.mul (.mul (.mul (.smul (.mul (.lit 2) (.mem .r 3)) (.v 8 [.var 4, .var 10])) (.v 7 [.var 6, .var 8])) (.v 9 [.var 5, .var 11])) (.v 6 [.var 7, .var 9]))) (.mul (.mul (.mul (.smul (.mem .r 3) (.v 10 [.var 4, .var 8])) (.v 5 [.var 6, .var 10])) (.v 9 [.var 5, .var 11])) (.v 6 [.var 7, .var 9]))) (.mul (.mul (.mul (.smul (.mem .r 3) (.v 8 [.var 4, .var 10])) (.v 7 [.var 6, .var 8])) (.v 11 [.var 5, .var 9])) (.v 4 [.var 7, .var 11]))) (.mul (.mul (.mul (.smul (.mul (.lit 3) (.mem .r 3)) (.v 10 [.var 4, .var 8])) (.v 7 [.var 6, .var 9])) (.v 9 [.var 5, .var 10])) (.v 4 [.var 7, .var 11]))) (.mul (.mul (.mul (.smul (.lit 3) (.v 8 [.var 4, .var 10])) (.v 5 [.var 6, .var 11])) (.v 6 [.var 7, .var 8])) (.v 15 [.var 5, .var 9]))) (.mul (.mul (.mul (.smul (.lit 3) (.v 8 [.var 4, .var 10])) (.v 7 [.var 6, .var 8])) (.v 4 [.var 7, .var 11])) (.v 15 [.var 5, .var 9]))) (.mul (.mul (.mul (.v 5 [.var 6, .var 10]) (.v 9 [.var 4, .var 11])) (.v 6 [.var 7, .var 8])) (.v 14 [.var 9, .var 5]))) (.mul (.mul (.mul (.v 7 [.var 6, .var 8]) (.v 9 [.var 4, .var 10])) (.v 4 [.var 7, .var 11])) (.v 14 [.var 9, .var 5]))))))))) (.mem .c 2))))) <|
  -- 206: return amplitude
  .ret .c (.loc .c 0)⟩

/-- `ldouble amp2()` (SM/ZZWW.cpp:210-224); variables: r 0 `amp2`, c 0 `M`, i 0 `j1`, i 1 `j2`, i 2 `j3`, i 3 `j4` -/
def m_amp2 : Method := ⟨0, 
  -- 211: ldouble amp2
  .seq (.set .r 0 (.lit 0)) <|
  -- 212: cdouble M
  .seq (.set .c 0 (.ofR (.lit 0))) <|
  -- 215: for(int j1=-2;j1<=2;j1+=2)
  .seq (.loop 0 (-2) true (.lit 2) 2 (
    -- 216: for(int j2=-2;j2<=2;j2+=2)
    .loop 1 (-2) true (.lit 2) 2 (
      -- 217: for(int j3=-2;j3<=2;j3+=2)
      .loop 2 (-2) true (.lit 2) 2 (
        -- 218: for(int j4=-2;j4<=2;j4+=2)
        .loop 3 (-2) true (.lit 2) 2 (
          -- 219: M=amp(j1,j2,j3,j4)
          .seq (.set .c 0 (.call 0 [.var 0, .var 1, .var 2, .var 3])) <|
          -- 220: amp2+=std::pow(std::abs(M),2)
          .set .r 0 (.add (.loc .r 0) (.pow (.abs (.loc .c 0)) 2))))))) <|
  -- 223: return amp2/9.0
  .ret .r (.div (.loc .r 0) (.lit 9))⟩

end ZZWW

/-- `class ZZWW` (SM/ZZWW.cpp, SM/include/ZZWW.h:25-35).  Members:
* ldouble: 0 `e`, 1 `mh`, 2 `wh`, 3 `MW`, 4 `WW`, 5 `SW`, 6 `CW`, 7 `MZ`, 8 `m12`, 9 `preh`, 10 `preW`
* cdouble: 0 `pDenS`, 1 `pDenT`, 2 `pDenU`
* propagator: 0 `proph`, 1 `propW`
* sproduct: 0 `s12s`, 1 `a12a`, 2 `a34a`, 3 `s34s`, 4 `s24s`, 5 `a24a`, 6 `s23s`, 7 `a23a`, 8 `a14a`, 9 `s14s`, 10 `a13a`, 11 `s13s`, 12 `s431a`, 13 `s134a`, 14 `s341a`, 15 `s143a` -/
def ZZWW : Proc where
  name := "ZZWW"
  nPar := 6
  ctor := ZZWW.ctor
  setMasses := ZZWW.setMasses
  massPar := [1, 3]
  setMomenta := ZZWW.setMomenta
  methods := [ZZWW.m_amp2, ZZWW.m_amp]
  amp2 := 1
  others := []

end Spinas.SM.Cls
