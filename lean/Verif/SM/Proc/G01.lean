import Verif.SM.Lang

/-! Generated by tools/sm/translate.py from SM/*.cpp: AAWW, AAdd, AAee, AAuu, AWAW, AWWh, AWZW, AWud, AZWW, AZdd, AZee, AZuu. -/

namespace Spinas.SM.Cls

namespace AAWW

/-- constructor (SM/AAWW.cpp:32-55); parameters: 0 `echarge`, 1 `massW`, 2 `sinW`, 3 `widthW` -/
def ctor : List SInstr := [
  -- 32: e(echarge)
  .set .r 0 (.loc .r 0),
  -- 32: MW(massW)
  .set .r 1 (.loc .r 1),
  -- 32: SW(sinW)
  .set .r 2 (.loc .r 2),
  -- 32: CW(std::sqrt(1.0-sinW*sinW))
  .set .r 3 (.sqrt (.sub (.lit 1) (.mul (.loc .r 2) (.loc .r 2)))),
  -- 32: WW(widthW)
  .set .r 4 (.loc .r 3),
  -- 35: sqrt2=std::sqrt(two)
  .set .r 5 (.sqrt (.lit 2)),
  -- 36: CW=std::sqrt(1.0-sinW*sinW)
  .set .r 3 (.sqrt (.sub (.lit 1) (.mul (.loc .r 2) (.loc .r 2)))),
  -- 37: propW=propagator(MW,WW)
  .prop 0 (.mem .r 1) (.mem .r 4),
  -- 38: p1=particle(0)
  .part 0 (.lit 0),
  -- 39: p2=particle(0)
  .part 1 (.lit 0),
  -- 40: p3=particle(MW)
  .part 2 (.mem .r 1),
  -- 41: p4=particle(MW)
  .part 3 (.mem .r 1),
  -- 43: s12s=sproduct(SQUARE,&p1,&p2)
  .sprod 0 ⟨false, 0, true, [], 1, true⟩,
  -- 44: a12a=sproduct(ANGLE,&p1,&p2)
  .sprod 1 ⟨true, 0, true, [], 1, true⟩,
  -- 45: s34s=sproduct(SQUARE,&p3,&p4)
  .sprod 3 ⟨false, 2, true, [], 3, true⟩,
  -- 46: a34a=sproduct(ANGLE,&p3,&p4)
  .sprod 2 ⟨true, 2, true, [], 3, true⟩,
  -- 47: s14s=sproduct(SQUARE,&p1,&p4)
  .sprod 5 ⟨false, 0, true, [], 3, true⟩,
  -- 48: a14a=sproduct(ANGLE,&p1,&p4)
  .sprod 4 ⟨true, 0, true, [], 3, true⟩,
  -- 49: s13s=sproduct(SQUARE,&p1,&p3)
  .sprod 7 ⟨false, 0, true, [], 2, true⟩,
  -- 50: a13a=sproduct(ANGLE,&p1,&p3)
  .sprod 6 ⟨true, 0, true, [], 2, true⟩,
  -- 51: s24s=sproduct(SQUARE,&p2,&p4)
  .sprod 8 ⟨false, 1, true, [], 3, true⟩,
  -- 52: a24a=sproduct(ANGLE,&p2,&p4)
  .sprod 9 ⟨true, 1, true, [], 3, true⟩,
  -- 53: s23s=sproduct(SQUARE,&p2,&p3)
  .sprod 10 ⟨false, 1, true, [], 2, true⟩,
  -- 54: a23a=sproduct(ANGLE,&p2,&p3)
  .sprod 11 ⟨true, 1, true, [], 2, true⟩]

/-- `set_masses` (SM/AAWW.cpp:56-61); parameters: 0 `massW` -/
def setMasses : List SInstr := [
  -- 57: MW=massW
  .set .r 1 (.loc .r 0),
  -- 58: p3.set_mass(MW)
  .setMass 2 (.mem .r 1),
  -- 59: p4.set_mass(MW)
  .setMass 3 (.mem .r 1),
  -- 60: propW.set_mass(MW)
  .propMass 0 (.mem .r 1)]

/-- `set_momenta` (SM/AAWW.cpp:62-89); parameters: 0 `mom1`, 1 `mom2`, 2 `mom3`, 3 `mom4` -/
def setMomenta : List SInstr := [
  -- 64: p1.set_momentum(mom1)
  .setMom 0 0,
  -- 65: p2.set_momentum(mom2)
  .setMom 1 1,
  -- 66: p3.set_momentum(mom3)
  .setMom 2 2,
  -- 67: p4.set_momentum(mom4)
  .setMom 3 3,
  -- 69: s12s.update()
  .update 0,
  -- 70: a12a.update()
  .update 1,
  -- 71: s34s.update()
  .update 3,
  -- 72: a34a.update()
  .update 2,
  -- 73: s14s.update()
  .update 5,
  -- 74: a14a.update()
  .update 4,
  -- 75: s13s.update()
  .update 7,
  -- 76: a13a.update()
  .update 6,
  -- 77: s24s.update()
  .update 8,
  -- 78: a24a.update()
  .update 9,
  -- 79: s23s.update()
  .update 10,
  -- 80: a23a.update()
  .update 11,
  -- 87: pDenT=propW.denominator(propTP)
  .den .c 0 0 (.sub 0 2),
  -- 88: pDenU=propW.denominator(propUP)
  .den .c 1 0 (.sub 0 3)]

/-- `cdouble amp(ds1,ds2,ds3,ds4)` (SM/AAWW.cpp:94-141); variables: i 0 `ds1`, i 1 `ds2`, i 2 `ds3`, i 3 `ds4`, c 0 `amplitude`, i 4 `ds3a`, i 5 `ds3b`, i 6 `ds4a`, i 7 `ds4b`, i 8 `nCombs`, r 0 `normFactor`, i 9 `i` -/
def m_amp : Method := ⟨4, 
  -- 95: cdouble amplitude
  .seq (.set .c 0 (.ofR (.lit 0))) <|
  -- 100: int nCombs
  .seq (.seti 8 (.loops [2, 3])) <|
  -- 101: ldouble normFactor
  .seq (.set .r 0 (.norm [2, 3])) <|
  -- 103: for(int i=0;i<nCombs;i++)
  .seq (.loop 9 0 false (.var 8) 1 (
    -- 104: get_spinor_spins(ds3,ds3a,ds3b,ds4,ds4a,ds4b,i)
    .seq (.spins [(2, 4, 5), (3, 6, 7)] (.var 9)) <|
    -- 106: if(ds1>0&&ds2>0)
    .ite (.and (.lt (.lit 0) (.var 0)) (.lt (.lit 0) (.var 1))) (
      -- 113: amplitude+=-normFactor*2.0*e*e*s12s.v()*s12s.v()*a34a.v(ds3a,ds4a)*a34a.v(ds3b,ds4b)/pDenT/pDenU
      .set .c 0 (.add (.loc .c 0) (.div (.div (.mul (.mul (.mul (.smul (.mul (.mul (.mul (.neg (.loc .r 0)) (.lit 2)) (.mem .r 0)) (.mem .r 0)) (.v 0 [])) (.v 0 [])) (.v 2 [.var 4, .var 6])) (.v 2 [.var 5, .var 7])) (.mem .c 0)) (.mem .c 1)))) (
      -- 117: if(ds1>0&&ds2<0)
      .ite (.and (.lt (.lit 0) (.var 0)) (.lt (.var 1) (.lit 0))) (
        -- 124: amplitude+=-normFactor*2.0*e*e*(a24a.v(ds4a)*s13s.v(ds3a)+a23a.v(ds3a)*s14s.v(ds4a))*(a24a.v(ds4b)*s13s.v(ds3b)+a23a.v(ds3b)*s14s.v(ds4b))/pDenT/pDenU
        .set .c 0 (.add (.loc .c 0) (.div (.div (.mul (.smul (.mul (.mul (.mul (.neg (.loc .r 0)) (.lit 2)) (.mem .r 0)) (.mem .r 0)) (.add (.mul (.v 9 [.var 6]) (.v 7 [.var 4])) (.mul (.v 11 [.var 4]) (.v 5 [.var 6])))) (.add (.mul (.v 9 [.var 7]) (.v 7 [.var 5])) (.mul (.v 11 [.var 5]) (.v 5 [.var 7])))) (.mem .c 0)) (.mem .c 1)))) (
        -- 128: if(ds1<0&&ds2>0)
        .ite (.and (.lt (.var 0) (.lit 0)) (.lt (.lit 0) (.var 1))) (
          -- 129: amplitude+=-normFactor*2.0*e*e*(s24s.v(ds4a)*a13a.v(ds3a)+s23s.v(ds3a)*a14a.v(ds4a))*(s24s.v(ds4b)*a13a.v(ds3b)+s23s.v(ds3b)*a14a.v(ds4b))/pDenT/pDenU
          .set .c 0 (.add (.loc .c 0) (.div (.div (.mul (.smul (.mul (.mul (.mul (.neg (.loc .r 0)) (.lit 2)) (.mem .r 0)) (.mem .r 0)) (.add (.mul (.v 8 [.var 6]) (.v 6 [.var 4])) (.mul (.v 10 [.var 4]) (.v 4 [.var 6])))) (.add (.mul (.v 8 [.var 7]) (.v 6 [.var 5])) (.mul (.v 10 [.var 5]) (.v 4 [.var 7])))) (.mem .c 0)) (.mem .c 1)))) (
          -- 131: if(ds1<0&&ds2<0)
          .ite (.and (.lt (.var 0) (.lit 0)) (.lt (.var 1) (.lit 0))) (
            -- 132: amplitude+=-normFactor*2.0*e*e*a12a.v()*a12a.v()*s34s.v(ds3a,ds4a)*s34s.v(ds3b,ds4b)/pDenT/pDenU
            .set .c 0 (.add (.loc .c 0) (.div (.div (.mul (.mul (.mul (.smul (.mul (.mul (.mul (.neg (.loc .r 0)) (.lit 2)) (.mem .r 0)) (.mem .r 0)) (.v 1 [])) (.v 1 [])) (.v 3 [.var 4, .var 6])) (.v 3 [.var 5, .var 7])) (.mem .c 0)) (.mem .c 1)))) (
            .skip)))))) <|
  -- 140: return amplitude
  .ret .c (.loc .c 0)⟩

/-- `ldouble amp2()` (SM/AAWW.cpp:144-158); variables: r 0 `amp2`, c 0 `M`, i 0 `j1`, i 1 `j2`, i 2 `j3`, i 3 `j4` -/
def m_amp2 : Method := ⟨0, 
  -- 145: ldouble amp2
  .seq (.set .r 0 (.lit 0)) <|
  -- 146: cdouble M
  .seq (.set .c 0 (.ofR (.lit 0))) <|
  -- 149: for(int j1=-2;j1<=2;j1+=4)
  .seq (.loop 0 (-2) true (.lit 2) 4 (
    -- 150: for(int j2=-2;j2<=2;j2+=4)
    .loop 1 (-2) true (.lit 2) 4 (
      -- 151: for(int j3=-2;j3<=2;j3+=2)
      .loop 2 (-2) true (.lit 2) 2 (
        -- 152: for(int j4=-2;j4<=2;j4+=2)
        .loop 3 (-2) true (.lit 2) 2 (
          -- 153: M=amp(j1,j2,j3,j4)
          .seq (.set .c 0 (.call 0 [.var 0, .var 1, .var 2, .var 3])) <|
          -- 154: amp2+=std::pow(std::abs(M),2)
          .set .r 0 (.add (.loc .r 0) (.pow (.abs (.loc .c 0)) 2))))))) <|
  -- 157: return amp2/4.0
  .ret .r (.div (.loc .r 0) (.lit 4))⟩

/-- `ldouble amp2_Aplus_Aplus()` (SM/AAWW.cpp:161-172); variables: r 0 `amp2`, c 0 `M`, i 0 `j3`, i 1 `j4` -/
def m_amp2_Aplus_Aplus : Method := ⟨0, 
  -- 162: ldouble amp2
  .seq (.set .r 0 (.lit 0)) <|
  -- 163: cdouble M
  .seq (.set .c 0 (.ofR (.lit 0))) <|
  -- 166: for(int j3=-2;j3<=2;j3+=2)
  .seq (.loop 0 (-2) true (.lit 2) 2 (
    -- 167: for(int j4=-2;j4<=2;j4+=2)
    .loop 1 (-2) true (.lit 2) 2 (
      -- 168: M=amp(2,2,j3,j4)
      .seq (.set .c 0 (.call 0 [.lit 2, .lit 2, .var 0, .var 1])) <|
      -- 169: amp2+=std::pow(std::abs(M),2)
      .set .r 0 (.add (.loc .r 0) (.pow (.abs (.loc .c 0)) 2))))) <|
  -- 171: return amp2
  .ret .r (.loc .r 0)⟩

/-- `ldouble amp2_Aplus_Aminus()` (SM/AAWW.cpp:175-186); variables: r 0 `amp2`, c 0 `M`, i 0 `j3`, i 1 `j4` -/
def m_amp2_Aplus_Aminus : Method := ⟨0, 
  -- 176: ldouble amp2
  .seq (.set .r 0 (.lit 0)) <|
  -- 177: cdouble M
  .seq (.set .c 0 (.ofR (.lit 0))) <|
  -- 180: for(int j3=-2;j3<=2;j3+=2)
  .seq (.loop 0 (-2) true (.lit 2) 2 (
    -- 181: for(int j4=-2;j4<=2;j4+=2)
    .loop 1 (-2) true (.lit 2) 2 (
      -- 182: M=amp(2,-2,j3,j4)
      .seq (.set .c 0 (.call 0 [.lit 2, .lit (-2), .var 0, .var 1])) <|
      -- 183: amp2+=std::pow(std::abs(M),2)
      .set .r 0 (.add (.loc .r 0) (.pow (.abs (.loc .c 0)) 2))))) <|
  -- 185: return amp2
  .ret .r (.loc .r 0)⟩

end AAWW

/-- `class AAWW` (SM/AAWW.cpp, SM/include/AAWW.h:25-33).  Members:
* ldouble: 0 `e`, 1 `MW`, 2 `SW`, 3 `CW`, 4 `WW`, 5 `sqrt2`
* cdouble: 0 `pDenT`, 1 `pDenU`
* propagator: 0 `propW`
* sproduct: 0 `s12s`, 1 `a12a`, 2 `a34a`, 3 `s34s`, 4 `a14a`, 5 `s14s`, 6 `a13a`, 7 `s13s`, 8 `s24s`, 9 `a24a`, 10 `s23s`, 11 `a23a` -/
def AAWW : Proc where
  name := "AAWW"
  nPar := 4
  ctor := AAWW.ctor
  setMasses := AAWW.setMasses
  massPar := [1]
  setMomenta := AAWW.setMomenta
  methods := [AAWW.m_amp2_Aplus_Aminus, AAWW.m_amp2_Aplus_Aplus, AAWW.m_amp2, AAWW.m_amp]
  amp2 := 1
  others := [("amp2_Aplus_Aplus", 2), ("amp2_Aplus_Aminus", 3)]

namespace AAdd

/-- constructor (SM/AAdd.cpp:32-54); parameters: 0 `echarge`, 1 `massd` -/
def ctor : List SInstr := [
  -- 32: e(echarge)
  .set .r 0 (.loc .r 0),
  -- 32: Qd(-1.0/3.0)
  .set .r 1 (.div (.neg (.lit 1)) (.lit 3)),
  -- 32: md(massd)
  .set .r 2 (.loc .r 1),
  -- 32: prop(massd,0)
  .prop 0 (.loc .r 1) (.lit 0),
  -- 35: sqrt2=std::sqrt(two)
  .set .r 3 (.sqrt (.lit 2)),
  -- 36: p1=particle(0)
  .part 0 (.lit 0),
  -- 37: p2=particle(0)
  .part 1 (.lit 0),
  -- 38: p3=particle(md)
  .part 2 (.mem .r 2),
  -- 39: p4=particle(md)
  .part 3 (.mem .r 2),
  -- 40: s34s=sproduct(SQUARE,&p3,&p4)
  .sprod 0 ⟨false, 2, true, [], 3, true⟩,
  -- 41: a34a=sproduct(ANGLE,&p3,&p4)
  .sprod 1 ⟨true, 2, true, [], 3, true⟩,
  -- 42: s12s=sproduct(SQUARE,&p1,&p2)
  .sprod 2 ⟨false, 0, true, [], 1, true⟩,
  -- 43: a12a=sproduct(ANGLE,&p1,&p2)
  .sprod 3 ⟨true, 0, true, [], 1, true⟩,
  -- 44: s13s=sproduct(SQUARE,&p1,&p3)
  .sprod 4 ⟨false, 0, true, [], 2, true⟩,
  -- 45: a13a=sproduct(ANGLE,&p1,&p3)
  .sprod 5 ⟨true, 0, true, [], 2, true⟩,
  -- 46: s24s=sproduct(SQUARE,&p2,&p4)
  .sprod 6 ⟨false, 1, true, [], 3, true⟩,
  -- 47: a24a=sproduct(ANGLE,&p2,&p4)
  .sprod 7 ⟨true, 1, true, [], 3, true⟩,
  -- 48: s23s=sproduct(SQUARE,&p2,&p3)
  .sprod 8 ⟨false, 1, true, [], 2, true⟩,
  -- 49: a23a=sproduct(ANGLE,&p2,&p3)
  .sprod 9 ⟨true, 1, true, [], 2, true⟩,
  -- 50: s14s=sproduct(SQUARE,&p1,&p4)
  .sprod 10 ⟨false, 0, true, [], 3, true⟩,
  -- 51: a14a=sproduct(ANGLE,&p1,&p4)
  .sprod 11 ⟨true, 0, true, [], 3, true⟩,
  -- 52: s132a=sproduct(SQUARE,&p1,&p3,&p2)
  .sprod 12 ⟨false, 0, true, [2], 1, true⟩,
  -- 53: s231a=sproduct(SQUARE,&p2,&p3,&p1)
  .sprod 13 ⟨false, 1, true, [2], 0, true⟩]

/-- `set_masses` (SM/AAdd.cpp:55-60); parameters: 0 `massd` -/
def setMasses : List SInstr := [
  -- 56: md=massd
  .set .r 2 (.loc .r 0),
  -- 57: p3.set_mass(md)
  .setMass 2 (.mem .r 2),
  -- 58: p4.set_mass(md)
  .setMass 3 (.mem .r 2),
  -- 59: prop.set_mass(md)
  .propMass 0 (.mem .r 2)]

/-- `set_momenta` (SM/AAdd.cpp:61-90); parameters: 0 `mom1`, 1 `mom2`, 2 `mom3`, 3 `mom4` -/
def setMomenta : List SInstr := [
  -- 63: p1.set_momentum(mom1)
  .setMom 0 0,
  -- 64: p2.set_momentum(mom2)
  .setMom 1 1,
  -- 65: p3.set_momentum(mom3)
  .setMom 2 2,
  -- 66: p4.set_momentum(mom4)
  .setMom 3 3,
  -- 67: s34s.update()
  .update 0,
  -- 68: a34a.update()
  .update 1,
  -- 69: s12s.update()
  .update 2,
  -- 70: a12a.update()
  .update 3,
  -- 71: s13s.update()
  .update 4,
  -- 72: a13a.update()
  .update 5,
  -- 73: s24s.update()
  .update 6,
  -- 74: a24a.update()
  .update 7,
  -- 75: s23s.update()
  .update 8,
  -- 76: a23a.update()
  .update 9,
  -- 77: s14s.update()
  .update 10,
  -- 78: a14a.update()
  .update 11,
  -- 79: s132a.update()
  .update 12,
  -- 80: s231a.update()
  .update 13,
  -- 87: pDenT=prop.denominator(propTP)
  .den .c 0 0 (.sub 0 2),
  -- 88: pDenU=prop.denominator(propUP)
  .den .c 1 0 (.sub 0 3)]

/-- `cdouble amp(ds1,ds2,ds3,ds4)` (SM/AAdd.cpp:97-123); variables: i 0 `ds1`, i 1 `ds2`, i 2 `ds3`, i 3 `ds4` -/
def m_amp : Method := ⟨4, 
  -- 98: if(ds1>0&&ds2>0)
  .seq (.ite (.and (.lt (.lit 0) (.var 0)) (.lt (.lit 0) (.var 1))) (
    -- 102: return 2.0*e*e*Qd*Qd*md*s12s.v()*s12s.v()*a34a.v(ds3,ds4)/pDenT/pDenU
    .ret .c (.div (.div (.mul (.mul (.smul (.mul (.mul (.mul (.mul (.mul (.lit 2) (.mem .r 0)) (.mem .r 0)) (.mem .r 1)) (.mem .r 1)) (.mem .r 2)) (.v 2 [])) (.v 2 [])) (.v 1 [.var 2, .var 3])) (.mem .c 0)) (.mem .c 1))) (
    -- 104: if(ds1<0&&ds2<0)
    .ite (.and (.lt (.var 0) (.lit 0)) (.lt (.var 1) (.lit 0))) (
      -- 108: return 2.0*e*e*Qd*Qd*md*a12a.v()*a12a.v()*s34s.v(ds3,ds4)/pDenT/pDenU
      .ret .c (.div (.div (.mul (.mul (.smul (.mul (.mul (.mul (.mul (.mul (.lit 2) (.mem .r 0)) (.mem .r 0)) (.mem .r 1)) (.mem .r 1)) (.mem .r 2)) (.v 3 [])) (.v 3 [])) (.v 0 [.var 2, .var 3])) (.mem .c 0)) (.mem .c 1))) (
      -- 110: if(ds1>0&&ds2<0)
      .ite (.and (.lt (.lit 0) (.var 0)) (.lt (.var 1) (.lit 0))) (
        -- 114: return -2.0*e*e*Qd*Qd*(s13s.v(ds3)*a24a.v(ds4)+s14s.v(ds4)*a23a.v(ds3))*s132a.v()/pDenT/pDenU
        .ret .c (.div (.div (.mul (.smul (.mul (.mul (.mul (.mul (.neg (.lit 2)) (.mem .r 0)) (.mem .r 0)) (.mem .r 1)) (.mem .r 1)) (.add (.mul (.v 4 [.var 2]) (.v 7 [.var 3])) (.mul (.v 10 [.var 3]) (.v 9 [.var 2])))) (.v 12 [])) (.mem .c 0)) (.mem .c 1))) (
        -- 116: if(ds1<0&&ds2>0)
        .ite (.and (.lt (.var 0) (.lit 0)) (.lt (.lit 0) (.var 1))) (
          -- 120: return -2.0*e*e*Qd*Qd*(a13a.v(ds3)*s24s.v(ds4)+a14a.v(ds4)*s23s.v(ds3))*s231a.v()/pDenT/pDenU
          .ret .c (.div (.div (.mul (.smul (.mul (.mul (.mul (.mul (.neg (.lit 2)) (.mem .r 0)) (.mem .r 0)) (.mem .r 1)) (.mem .r 1)) (.add (.mul (.v 5 [.var 2]) (.v 6 [.var 3])) (.mul (.v 11 [.var 3]) (.v 8 [.var 2])))) (.v 13 [])) (.mem .c 0)) (.mem .c 1))) (
          .skip))))) <|
  -- 122: return cdouble(0,0)
  .ret .c (.ofR (.lit 0))⟩

/-- `ldouble amp2()` (SM/AAdd.cpp:127-141); variables: r 0 `amp2`, c 0 `M`, i 0 `j1`, i 1 `j2`, i 2 `j3`, i 3 `j4` -/
def m_amp2 : Method := ⟨0, 
  -- 128: ldouble amp2
  .seq (.set .r 0 (.lit 0)) <|
  -- 129: cdouble M
  .seq (.set .c 0 (.ofR (.lit 0))) <|
  -- 132: for(int j1=-2;j1<=2;j1+=4)
  .seq (.loop 0 (-2) true (.lit 2) 4 (
    -- 133: for(int j2=-2;j2<=2;j2+=4)
    .loop 1 (-2) true (.lit 2) 4 (
      -- 134: for(int j3=-1;j3<=1;j3+=2)
      .loop 2 (-1) true (.lit 1) 2 (
        -- 135: for(int j4=-1;j4<=1;j4+=2)
        .loop 3 (-1) true (.lit 1) 2 (
          -- 136: M=amp(j1,j2,j3,j4)
          .seq (.set .c 0 (.call 0 [.var 0, .var 1, .var 2, .var 3])) <|
          -- 137: amp2+=3.0*std::pow(std::abs(M),2)
          .set .r 0 (.add (.loc .r 0) (.mul (.lit 3) (.pow (.abs (.loc .c 0)) 2)))))))) <|
  -- 140: return amp2/4.0
  .ret .r (.div (.loc .r 0) (.lit 4))⟩

/-- `ldouble amp2_Aplus_Aplus()` (SM/AAdd.cpp:144-155); variables: r 0 `amp2`, c 0 `M`, i 0 `j3`, i 1 `j4` -/
def m_amp2_Aplus_Aplus : Method := ⟨0, 
  -- 145: ldouble amp2
  .seq (.set .r 0 (.lit 0)) <|
  -- 146: cdouble M
  .seq (.set .c 0 (.ofR (.lit 0))) <|
  -- 149: for(int j3=-1;j3<=1;j3+=2)
  .seq (.loop 0 (-1) true (.lit 1) 2 (
    -- 150: for(int j4=-1;j4<=1;j4+=2)
    .loop 1 (-1) true (.lit 1) 2 (
      -- 151: M=amp(2,2,j3,j4)
      .seq (.set .c 0 (.call 0 [.lit 2, .lit 2, .var 0, .var 1])) <|
      -- 152: amp2+=3.0*std::pow(std::abs(M),2)
      .set .r 0 (.add (.loc .r 0) (.mul (.lit 3) (.pow (.abs (.loc .c 0)) 2)))))) <|
  -- 154: return amp2
  .ret .r (.loc .r 0)⟩

/-- `ldouble amp2_Aplus_Aminus()` (SM/AAdd.cpp:158-169); variables: r 0 `amp2`, c 0 `M`, i 0 `j3`, i 1 `j4` -/
def m_amp2_Aplus_Aminus : Method := ⟨0, 
  -- 159: ldouble amp2
  .seq (.set .r 0 (.lit 0)) <|
  -- 160: cdouble M
  .seq (.set .c 0 (.ofR (.lit 0))) <|
  -- 163: for(int j3=-1;j3<=1;j3+=2)
  .seq (.loop 0 (-1) true (.lit 1) 2 (
    -- 164: for(int j4=-1;j4<=1;j4+=2)
    .loop 1 (-1) true (.lit 1) 2 (
      -- 165: M=amp(2,-2,j3,j4)
      .seq (.set .c 0 (.call 0 [.lit 2, .lit (-2), .var 0, .var 1])) <|
      -- 166: amp2+=3.0*std::pow(std::abs(M),2)
      .set .r 0 (.add (.loc .r 0) (.mul (.lit 3) (.pow (.abs (.loc .c 0)) 2)))))) <|
  -- 168: return amp2
  .ret .r (.loc .r 0)⟩

end AAdd

/-- `class AAdd` (SM/AAdd.cpp, SM/include/AAdd.h:25-32).  Members:
* ldouble: 0 `e`, 1 `Qd`, 2 `md`, 3 `sqrt2`
* cdouble: 0 `pDenT`, 1 `pDenU`
* propagator: 0 `prop`
* sproduct: 0 `s34s`, 1 `a34a`, 2 `s12s`, 3 `a12a`, 4 `s13s`, 5 `a13a`, 6 `s24s`, 7 `a24a`, 8 `s23s`, 9 `a23a`, 10 `s14s`, 11 `a14a`, 12 `s132a`, 13 `s231a` -/
def AAdd : Proc where
  name := "AAdd"
  nPar := 2
  ctor := AAdd.ctor
  setMasses := AAdd.setMasses
  massPar := [1]
  setMomenta := AAdd.setMomenta
  methods := [AAdd.m_amp2_Aplus_Aminus, AAdd.m_amp2_Aplus_Aplus, AAdd.m_amp2, AAdd.m_amp]
  amp2 := 1
  others := [("amp2_Aplus_Aplus", 2), ("amp2_Aplus_Aminus", 3)]

namespace AAee

/-- constructor (SM/AAee.cpp:32-54); parameters: 0 `echarge`, 1 `masse` -/
def ctor : List SInstr := [
  -- 32: e(echarge)
  .set .r 0 (.loc .r 0),
  -- 32: me(masse)
  .set .r 1 (.loc .r 1),
  -- 32: prop(masse,0)
  .prop 0 (.loc .r 1) (.lit 0),
  -- 35: sqrt2=std::sqrt(two)
  .set .r 2 (.sqrt (.lit 2)),
  -- 36: p1=particle(0)
  .part 0 (.lit 0),
  -- 37: p2=particle(0)
  .part 1 (.lit 0),
  -- 38: p3=particle(me)
  .part 2 (.mem .r 1),
  -- 39: p4=particle(me)
  .part 3 (.mem .r 1),
  -- 40: s34s=sproduct(SQUARE,&p3,&p4)
  .sprod 0 ⟨false, 2, true, [], 3, true⟩,
  -- 41: a34a=sproduct(ANGLE,&p3,&p4)
  .sprod 1 ⟨true, 2, true, [], 3, true⟩,
  -- 42: s12s=sproduct(SQUARE,&p1,&p2)
  .sprod 2 ⟨false, 0, true, [], 1, true⟩,
  -- 43: a12a=sproduct(ANGLE,&p1,&p2)
  .sprod 3 ⟨true, 0, true, [], 1, true⟩,
  -- 44: s13s=sproduct(SQUARE,&p1,&p3)
  .sprod 4 ⟨false, 0, true, [], 2, true⟩,
  -- 45: a13a=sproduct(ANGLE,&p1,&p3)
  .sprod 5 ⟨true, 0, true, [], 2, true⟩,
  -- 46: s24s=sproduct(SQUARE,&p2,&p4)
  .sprod 6 ⟨false, 1, true, [], 3, true⟩,
  -- 47: a24a=sproduct(ANGLE,&p2,&p4)
  .sprod 7 ⟨true, 1, true, [], 3, true⟩,
  -- 48: s23s=sproduct(SQUARE,&p2,&p3)
  .sprod 8 ⟨false, 1, true, [], 2, true⟩,
  -- 49: a23a=sproduct(ANGLE,&p2,&p3)
  .sprod 9 ⟨true, 1, true, [], 2, true⟩,
  -- 50: s14s=sproduct(SQUARE,&p1,&p4)
  .sprod 10 ⟨false, 0, true, [], 3, true⟩,
  -- 51: a14a=sproduct(ANGLE,&p1,&p4)
  .sprod 11 ⟨true, 0, true, [], 3, true⟩,
  -- 52: s132a=sproduct(SQUARE,&p1,&p3,&p2)
  .sprod 12 ⟨false, 0, true, [2], 1, true⟩,
  -- 53: s231a=sproduct(SQUARE,&p2,&p3,&p1)
  .sprod 13 ⟨false, 1, true, [2], 0, true⟩]

/-- `set_masses` (SM/AAee.cpp:55-60); parameters: 0 `masse` -/
def setMasses : List SInstr := [
  -- 56: me=masse
  .set .r 1 (.loc .r 0),
  -- 57: p3.set_mass(me)
  .setMass 2 (.mem .r 1),
  -- 58: p4.set_mass(me)
  .setMass 3 (.mem .r 1),
  -- 59: prop.set_mass(me)
  .propMass 0 (.mem .r 1)]

/-- `set_momenta` (SM/AAee.cpp:61-90); parameters: 0 `mom1`, 1 `mom2`, 2 `mom3`, 3 `mom4` -/
def setMomenta : List SInstr := [
  -- 63: p1.set_momentum(mom1)
  .setMom 0 0,
  -- 64: p2.set_momentum(mom2)
  .setMom 1 1,
  -- 65: p3.set_momentum(mom3)
  .setMom 2 2,
  -- 66: p4.set_momentum(mom4)
  .setMom 3 3,
  -- 67: s34s.update()
  .update 0,
  -- 68: a34a.update()
  .update 1,
  -- 69: s12s.update()
  .update 2,
  -- 70: a12a.update()
  .update 3,
  -- 71: s13s.update()
  .update 4,
  -- 72: a13a.update()
  .update 5,
  -- 73: s24s.update()
  .update 6,
  -- 74: a24a.update()
  .update 7,
  -- 75: s23s.update()
  .update 8,
  -- 76: a23a.update()
  .update 9,
  -- 77: s14s.update()
  .update 10,
  -- 78: a14a.update()
  .update 11,
  -- 79: s132a.update()
  .update 12,
  -- 80: s231a.update()
  .update 13,
  -- 87: pDenT=prop.denominator(propTP)
  .den .c 0 0 (.sub 0 2),
  -- 88: pDenU=prop.denominator(propUP)
  .den .c 1 0 (.sub 0 3)]

/-- `cdouble amp(ds1,ds2,ds3,ds4)` (SM/AAee.cpp:97-123); variables: i 0 `ds1`, i 1 `ds2`, i 2 `ds3`, i 3 `ds4` -/
def m_amp : Method := ⟨4, 
  -- 98: if(ds1>0&&ds2>0)
  .seq (.ite (.and (.lt (.lit 0) (.var 0)) (.lt (.lit 0) (.var 1))) (
    -- 102: return 2.0*e*e*me*s12s.v()*s12s.v()*a34a.v(ds3,ds4)/pDenT/pDenU
    .ret .c (.div (.div (.mul (.mul (.smul (.mul (.mul (.mul (.lit 2) (.mem .r 0)) (.mem .r 0)) (.mem .r 1)) (.v 2 [])) (.v 2 [])) (.v 1 [.var 2, .var 3])) (.mem .c 0)) (.mem .c 1))) (
    -- 104: if(ds1<0&&ds2<0)
    .ite (.and (.lt (.var 0) (.lit 0)) (.lt (.var 1) (.lit 0))) (
      -- 108: return 2.0*e*e*me*a12a.v()*a12a.v()*s34s.v(ds3,ds4)/pDenT/pDenU
      .ret .c (.div (.div (.mul (.mul (.smul (.mul (.mul (.mul (.lit 2) (.mem .r 0)) (.mem .r 0)) (.mem .r 1)) (.v 3 [])) (.v 3 [])) (.v 0 [.var 2, .var 3])) (.mem .c 0)) (.mem .c 1))) (
      -- 110: if(ds1>0&&ds2<0)
      .ite (.and (.lt (.lit 0) (.var 0)) (.lt (.var 1) (.lit 0))) (
        -- 114: return -2.0*e*e*(s13s.v(ds3)*a24a.v(ds4)+s14s.v(ds4)*a23a.v(ds3))*s132a.v()/pDenT/pDenU
        .ret .c (.div (.div (.mul (.smul (.mul (.mul (.neg (.lit 2)) (.mem .r 0)) (.mem .r 0)) (.add (.mul (.v 4 [.var 2]) (.v 7 [.var 3])) (.mul (.v 10 [.var 3]) (.v 9 [.var 2])))) (.v 12 [])) (.mem .c 0)) (.mem .c 1))) (
        -- 116: if(ds1<0&&ds2>0)
        .ite (.and (.lt (.var 0) (.lit 0)) (.lt (.lit 0) (.var 1))) (
          -- 120: return -2.0*e*e*(a13a.v(ds3)*s24s.v(ds4)+a14a.v(ds4)*s23s.v(ds3))*s231a.v()/pDenT/pDenU
          .ret .c (.div (.div (.mul (.smul (.mul (.mul (.neg (.lit 2)) (.mem .r 0)) (.mem .r 0)) (.add (.mul (.v 5 [.var 2]) (.v 6 [.var 3])) (.mul (.v 11 [.var 3]) (.v 8 [.var 2])))) (.v 13 [])) (.mem .c 0)) (.mem .c 1))) (
          .skip))))) <|
  -- 122: return cdouble(0,0)
  .ret .c (.ofR (.lit 0))⟩

/-- `ldouble amp2()` (SM/AAee.cpp:127-141); variables: r 0 `amp2`, c 0 `M`, i 0 `j1`, i 1 `j2`, i 2 `j3`, i 3 `j4` -/
def m_amp2 : Method := ⟨0, 
  -- 128: ldouble amp2
  .seq (.set .r 0 (.lit 0)) <|
  -- 129: cdouble M
  .seq (.set .c 0 (.ofR (.lit 0))) <|
  -- 132: for(int j1=-2;j1<=2;j1+=4)
  .seq (.loop 0 (-2) true (.lit 2) 4 (
    -- 133: for(int j2=-2;j2<=2;j2+=4)
    .loop 1 (-2) true (.lit 2) 4 (
      -- 134: for(int j3=-1;j3<=1;j3+=2)
      .loop 2 (-1) true (.lit 1) 2 (
        -- 135: for(int j4=-1;j4<=1;j4+=2)
        .loop 3 (-1) true (.lit 1) 2 (
          -- 136: M=amp(j1,j2,j3,j4)
          .seq (.set .c 0 (.call 0 [.var 0, .var 1, .var 2, .var 3])) <|
          -- 137: amp2+=std::pow(std::abs(M),2)
          .set .r 0 (.add (.loc .r 0) (.pow (.abs (.loc .c 0)) 2))))))) <|
  -- 140: return amp2/4.0
  .ret .r (.div (.loc .r 0) (.lit 4))⟩

/-- `ldouble amp2_Aplus_Aplus()` (SM/AAee.cpp:144-155); variables: r 0 `amp2`, c 0 `M`, i 0 `j3`, i 1 `j4` -/
def m_amp2_Aplus_Aplus : Method := ⟨0, 
  -- 145: ldouble amp2
  .seq (.set .r 0 (.lit 0)) <|
  -- 146: cdouble M
  .seq (.set .c 0 (.ofR (.lit 0))) <|
  -- 149: for(int j3=-1;j3<=1;j3+=2)
  .seq (.loop 0 (-1) true (.lit 1) 2 (
    -- 150: for(int j4=-1;j4<=1;j4+=2)
    .loop 1 (-1) true (.lit 1) 2 (
      -- 151: M=amp(2,2,j3,j4)
      .seq (.set .c 0 (.call 0 [.lit 2, .lit 2, .var 0, .var 1])) <|
      -- 152: amp2+=std::pow(std::abs(M),2)
      .set .r 0 (.add (.loc .r 0) (.pow (.abs (.loc .c 0)) 2))))) <|
  -- 154: return amp2
  .ret .r (.loc .r 0)⟩

/-- `ldouble amp2_Aplus_Aminus()` (SM/AAee.cpp:158-169); variables: r 0 `amp2`, c 0 `M`, i 0 `j3`, i 1 `j4` -/
def m_amp2_Aplus_Aminus : Method := ⟨0, 
  -- 159: ldouble amp2
  .seq (.set .r 0 (.lit 0)) <|
  -- 160: cdouble M
  .seq (.set .c 0 (.ofR (.lit 0))) <|
  -- 163: for(int j3=-1;j3<=1;j3+=2)
  .seq (.loop 0 (-1) true (.lit 1) 2 (
    -- 164: for(int j4=-1;j4<=1;j4+=2)
    .loop 1 (-1) true (.lit 1) 2 (
      -- 165: M=amp(2,-2,j3,j4)
      .seq (.set .c 0 (.call 0 [.lit 2, .lit (-2), .var 0, .var 1])) <|
      -- 166: amp2+=std::pow(std::abs(M),2)
      .set .r 0 (.add (.loc .r 0) (.pow (.abs (.loc .c 0)) 2))))) <|
  -- 168: return amp2
  .ret .r (.loc .r 0)⟩

end AAee

/-- `class AAee` (SM/AAee.cpp, SM/include/AAee.h:25-32).  Members:
* ldouble: 0 `e`, 1 `me`, 2 `sqrt2`
* cdouble: 0 `pDenT`, 1 `pDenU`
* propagator: 0 `prop`
* sproduct: 0 `s34s`, 1 `a34a`, 2 `s12s`, 3 `a12a`, 4 `s13s`, 5 `a13a`, 6 `s24s`, 7 `a24a`, 8 `s23s`, 9 `a23a`, 10 `s14s`, 11 `a14a`, 12 `s132a`, 13 `s231a` -/
def AAee : Proc where
  name := "AAee"
  nPar := 2
  ctor := AAee.ctor
  setMasses := AAee.setMasses
  massPar := [1]
  setMomenta := AAee.setMomenta
  methods := [AAee.m_amp2_Aplus_Aminus, AAee.m_amp2_Aplus_Aplus, AAee.m_amp2, AAee.m_amp]
  amp2 := 1
  others := [("amp2_Aplus_Aplus", 2), ("amp2_Aplus_Aminus", 3)]

namespace AAuu

/-- constructor (SM/AAuu.cpp:32-54); parameters: 0 `echarge`, 1 `massu` -/
def ctor : List SInstr := [
  -- 32: e(echarge)
  .set .r 0 (.loc .r 0),
  -- 32: Qu(2.0/3.0)
  .set .r 1 (.div (.lit 2) (.lit 3)),
  -- 32: mu(massu)
  .set .r 2 (.loc .r 1),
  -- 32: prop(massu,0)
  .prop 0 (.loc .r 1) (.lit 0),
  -- 35: sqrt2=std::sqrt(two)
  .set .r 3 (.sqrt (.lit 2)),
  -- 36: p1=particle(0)
  .part 0 (.lit 0),
  -- 37: p2=particle(0)
  .part 1 (.lit 0),
  -- 38: p3=particle(mu)
  .part 2 (.mem .r 2),
  -- 39: p4=particle(mu)
  .part 3 (.mem .r 2),
  -- 40: s34s=sproduct(SQUARE,&p3,&p4)
  .sprod 0 ⟨false, 2, true, [], 3, true⟩,
  -- 41: a34a=sproduct(ANGLE,&p3,&p4)
  .sprod 1 ⟨true, 2, true, [], 3, true⟩,
  -- 42: s12s=sproduct(SQUARE,&p1,&p2)
  .sprod 2 ⟨false, 0, true, [], 1, true⟩,
  -- 43: a12a=sproduct(ANGLE,&p1,&p2)
  .sprod 3 ⟨true, 0, true, [], 1, true⟩,
  -- 44: s13s=sproduct(SQUARE,&p1,&p3)
  .sprod 4 ⟨false, 0, true, [], 2, true⟩,
  -- 45: a13a=sproduct(ANGLE,&p1,&p3)
  .sprod 5 ⟨true, 0, true, [], 2, true⟩,
  -- 46: s24s=sproduct(SQUARE,&p2,&p4)
  .sprod 6 ⟨false, 1, true, [], 3, true⟩,
  -- 47: a24a=sproduct(ANGLE,&p2,&p4)
  .sprod 7 ⟨true, 1, true, [], 3, true⟩,
  -- 48: s23s=sproduct(SQUARE,&p2,&p3)
  .sprod 8 ⟨false, 1, true, [], 2, true⟩,
  -- 49: a23a=sproduct(ANGLE,&p2,&p3)
  .sprod 9 ⟨true, 1, true, [], 2, true⟩,
  -- 50: s14s=sproduct(SQUARE,&p1,&p4)
  .sprod 10 ⟨false, 0, true, [], 3, true⟩,
  -- 51: a14a=sproduct(ANGLE,&p1,&p4)
  .sprod 11 ⟨true, 0, true, [], 3, true⟩,
  -- 52: s132a=sproduct(SQUARE,&p1,&p3,&p2)
  .sprod 12 ⟨false, 0, true, [2], 1, true⟩,
  -- 53: s231a=sproduct(SQUARE,&p2,&p3,&p1)
  .sprod 13 ⟨false, 1, true, [2], 0, true⟩]

/-- `set_masses` (SM/AAuu.cpp:55-60); parameters: 0 `massu` -/
def setMasses : List SInstr := [
  -- 56: mu=massu
  .set .r 2 (.loc .r 0),
  -- 57: p3.set_mass(mu)
  .setMass 2 (.mem .r 2),
  -- 58: p4.set_mass(mu)
  .setMass 3 (.mem .r 2),
  -- 59: prop.set_mass(mu)
  .propMass 0 (.mem .r 2)]

/-- `set_momenta` (SM/AAuu.cpp:61-90); parameters: 0 `mom1`, 1 `mom2`, 2 `mom3`, 3 `mom4` -/
def setMomenta : List SInstr := [
  -- 63: p1.set_momentum(mom1)
  .setMom 0 0,
  -- 64: p2.set_momentum(mom2)
  .setMom 1 1,
  -- 65: p3.set_momentum(mom3)
  .setMom 2 2,
  -- 66: p4.set_momentum(mom4)
  .setMom 3 3,
  -- 67: s34s.update()
  .update 0,
  -- 68: a34a.update()
  .update 1,
  -- 69: s12s.update()
  .update 2,
  -- 70: a12a.update()
  .update 3,
  -- 71: s13s.update()
  .update 4,
  -- 72: a13a.update()
  .update 5,
  -- 73: s24s.update()
  .update 6,
  -- 74: a24a.update()
  .update 7,
  -- 75: s23s.update()
  .update 8,
  -- 76: a23a.update()
  .update 9,
  -- 77: s14s.update()
  .update 10,
  -- 78: a14a.update()
  .update 11,
  -- 79: s132a.update()
  .update 12,
  -- 80: s231a.update()
  .update 13,
  -- 87: pDenT=prop.denominator(propTP)
  .den .c 0 0 (.sub 0 2),
  -- 88: pDenU=prop.denominator(propUP)
  .den .c 1 0 (.sub 0 3)]

/-- `cdouble amp(ds1,ds2,ds3,ds4)` (SM/AAuu.cpp:97-123); variables: i 0 `ds1`, i 1 `ds2`, i 2 `ds3`, i 3 `ds4` -/
def m_amp : Method := ⟨4, 
  -- 98: if(ds1>0&&ds2>0)
  .seq (.ite (.and (.lt (.lit 0) (.var 0)) (.lt (.lit 0) (.var 1))) (
    -- 102: return 2.0*e*e*Qu*Qu*mu*s12s.v()*s12s.v()*a34a.v(ds3,ds4)/pDenT/pDenU
    .ret .c (.div (.div (.mul (.mul (.smul (.mul (.mul (.mul (.mul (.mul (.lit 2) (.mem .r 0)) (.mem .r 0)) (.mem .r 1)) (.mem .r 1)) (.mem .r 2)) (.v 2 [])) (.v 2 [])) (.v 1 [.var 2, .var 3])) (.mem .c 0)) (.mem .c 1))) (
    -- 104: if(ds1<0&&ds2<0)
    .ite (.and (.lt (.var 0) (.lit 0)) (.lt (.var 1) (.lit 0))) (
      -- 108: return 2.0*e*e*Qu*Qu*mu*a12a.v()*a12a.v()*s34s.v(ds3,ds4)/pDenT/pDenU
      .ret .c (.div (.div (.mul (.mul (.smul (.mul (.mul (.mul (.mul (.mul (.lit 2) (.mem .r 0)) (.mem .r 0)) (.mem .r 1)) (.mem .r 1)) (.mem .r 2)) (.v 3 [])) (.v 3 [])) (.v 0 [.var 2, .var 3])) (.mem .c 0)) (.mem .c 1))) (
      -- 110: if(ds1>0&&ds2<0)
      .ite (.and (.lt (.lit 0) (.var 0)) (.lt (.var 1) (.lit 0))) (
        -- 114: return -2.0*e*e*Qu*Qu*(s13s.v(ds3)*a24a.v(ds4)+s14s.v(ds4)*a23a.v(ds3))*s132a.v()/pDenT/pDenU
        .ret .c (.div (.div (.mul (.smul (.mul (.mul (.mul (.mul (.neg (.lit 2)) (.mem .r 0)) (.mem .r 0)) (.mem .r 1)) (.mem .r 1)) (.add (.mul (.v 4 [.var 2]) (.v 7 [.var 3])) (.mul (.v 10 [.var 3]) (.v 9 [.var 2])))) (.v 12 [])) (.mem .c 0)) (.mem .c 1))) (
        -- 116: if(ds1<0&&ds2>0)
        .ite (.and (.lt (.var 0) (.lit 0)) (.lt (.lit 0) (.var 1))) (
          -- 120: return -2.0*e*e*Qu*Qu*(a13a.v(ds3)*s24s.v(ds4)+a14a.v(ds4)*s23s.v(ds3))*s231a.v()/pDenT/pDenU
          .ret .c (.div (.div (.mul (.smul (.mul (.mul (.mul (.mul (.neg (.lit 2)) (.mem .r 0)) (.mem .r 0)) (.mem .r 1)) (.mem .r 1)) (.add (.mul (.v 5 [.var 2]) (.v 6 [.var 3])) (.mul (.v 11 [.var 3]) (.v 8 [.var 2])))) (.v 13 [])) (.mem .c 0)) (.mem .c 1))) (
          .skip))))) <|
  -- 122: return cdouble(0,0)
  .ret .c (.ofR (.lit 0))⟩

/-- `ldouble amp2()` (SM/AAuu.cpp:127-141); variables: r 0 `amp2`, c 0 `M`, i 0 `j1`, i 1 `j2`, i 2 `j3`, i 3 `j4` -/
def m_amp2 : Method := ⟨0, 
  -- 128: ldouble amp2
  .seq (.set .r 0 (.lit 0)) <|
  -- 129: cdouble M
  .seq (.set .c 0 (.ofR (.lit 0))) <|
  -- 132: for(int j1=-2;j1<=2;j1+=4)
  .seq (.loop 0 (-2) true (.lit 2) 4 (
    -- 133: for(int j2=-2;j2<=2;j2+=4)
    .loop 1 (-2) true (.lit 2) 4 (
      -- 134: for(int j3=-1;j3<=1;j3+=2)
      .loop 2 (-1) true (.lit 1) 2 (
        -- 135: for(int j4=-1;j4<=1;j4+=2)
        .loop 3 (-1) true (.lit 1) 2 (
          -- 136: M=amp(j1,j2,j3,j4)
          .seq (.set .c 0 (.call 0 [.var 0, .var 1, .var 2, .var 3])) <|
          -- 137: amp2+=3.0*std::pow(std::abs(M),2)
          .set .r 0 (.add (.loc .r 0) (.mul (.lit 3) (.pow (.abs (.loc .c 0)) 2)))))))) <|
  -- 140: return amp2/4.0
  .ret .r (.div (.loc .r 0) (.lit 4))⟩

/-- `ldouble amp2_Aplus_Aplus()` (SM/AAuu.cpp:144-155); variables: r 0 `amp2`, c 0 `M`, i 0 `j3`, i 1 `j4` -/
def m_amp2_Aplus_Aplus : Method := ⟨0, 
  -- 145: ldouble amp2
  .seq (.set .r 0 (.lit 0)) <|
  -- 146: cdouble M
  .seq (.set .c 0 (.ofR (.lit 0))) <|
  -- 149: for(int j3=-1;j3<=1;j3+=2)
  .seq (.loop 0 (-1) true (.lit 1) 2 (
    -- 150: for(int j4=-1;j4<=1;j4+=2)
    .loop 1 (-1) true (.lit 1) 2 (
      -- 151: M=amp(2,2,j3,j4)
      .seq (.set .c 0 (.call 0 [.lit 2, .lit 2, .var 0, .var 1])) <|
      -- 152: amp2+=3.0*std::pow(std::abs(M),2)
      .set .r 0 (.add (.loc .r 0) (.mul (.lit 3) (.pow (.abs (.loc .c 0)) 2)))))) <|
  -- 154: return amp2
  .ret .r (.loc .r 0)⟩

/-- `ldouble amp2_Aplus_Aminus()` (SM/AAuu.cpp:158-169); variables: r 0 `amp2`, c 0 `M`, i 0 `j3`, i 1 `j4` -/
def m_amp2_Aplus_Aminus : Method := ⟨0, 
  -- 159: ldouble amp2
  .seq (.set .r 0 (.lit 0)) <|
  -- 160: cdouble M
  .seq (.set .c 0 (.ofR (.lit 0))) <|
  -- 163: for(int j3=-1;j3<=1;j3+=2)
  .seq (.loop 0 (-1) true (.lit 1) 2 (
    -- 164: for(int j4=-1;j4<=1;j4+=2)
    .loop 1 (-1) true (.lit 1) 2 (
      -- 165: M=amp(2,-2,j3,j4)
      .seq (.set .c 0 (.call 0 [.lit 2, .lit (-2), .var 0, .var 1])) <|
      -- 166: amp2+=3.0*std::pow(std::abs(M),2)
      .set .r 0 (.add (.loc .r 0) (.mul (.lit 3) (.pow (.abs (.loc .c 0)) 2)))))) <|
  -- 168: return amp2
  .ret .r (.loc .r 0)⟩

end AAuu

/-- `class AAuu` (SM/AAuu.cpp, SM/include/AAuu.h:25-32).  Members:
* ldouble: 0 `e`, 1 `Qu`, 2 `mu`, 3 `sqrt2`
* cdouble: 0 `pDenT`, 1 `pDenU`
* propagator: 0 `prop`
* sproduct: 0 `s34s`, 1 `a34a`, 2 `s12s`, 3 `a12a`, 4 `s13s`, 5 `a13a`, 6 `s24s`, 7 `a24a`, 8 `s23s`, 9 `a23a`, 10 `s14s`, 11 `a14a`, 12 `s132a`, 13 `s231a` -/
def AAuu : Proc where
  name := "AAuu"
  nPar := 2
  ctor := AAuu.ctor
  setMasses := AAuu.setMasses
  massPar := [1]
  setMomenta := AAuu.setMomenta
  methods := [AAuu.m_amp2_Aplus_Aminus, AAuu.m_amp2_Aplus_Aplus, AAuu.m_amp2, AAuu.m_amp]
  amp2 := 1
  others := [("amp2_Aplus_Aplus", 2), ("amp2_Aplus_Aminus", 3)]

namespace AWAW

/-- constructor (SM/AWAW.cpp:32-55); parameters: 0 `echarge`, 1 `massW`, 2 `sinW`, 3 `widthW` -/
def ctor : List SInstr := [
  -- 32: e(echarge)
  .set .r 0 (.loc .r 0),
  -- 32: MW(massW)
  .set .r 1 (.loc .r 1),
  -- 32: SW(sinW)
  .set .r 2 (.loc .r 2),
  -- 32: CW(std::sqrt(1.0-sinW*sinW))
  .set .r 3 (.sqrt (.sub (.lit 1) (.mul (.loc .r 2) (.loc .r 2)))),
  -- 32: WW(widthW)
  .set .r 4 (.loc .r 3),
  -- 35: sqrt2=std::sqrt(two)
  .set .r 5 (.sqrt (.lit 2)),
  -- 36: CW=std::sqrt(1.0-sinW*sinW)
  .set .r 3 (.sqrt (.sub (.lit 1) (.mul (.loc .r 2) (.loc .r 2)))),
  -- 37: propW=propagator(MW,WW)
  .prop 0 (.mem .r 1) (.mem .r 4),
  -- 38: p1=particle(0)
  .part 0 (.lit 0),
  -- 39: p2=particle(MW)
  .part 1 (.mem .r 1),
  -- 40: p3=particle(0)
  .part 2 (.lit 0),
  -- 41: p4=particle(MW)
  .part 3 (.mem .r 1),
  -- 43: s12s=sproduct(SQUARE,&p1,&p2)
  .sprod 0 ⟨false, 0, true, [], 1, true⟩,
  -- 44: a12a=sproduct(ANGLE,&p1,&p2)
  .sprod 1 ⟨true, 0, true, [], 1, true⟩,
  -- 45: s34s=sproduct(SQUARE,&p3,&p4)
  .sprod 3 ⟨false, 2, true, [], 3, true⟩,
  -- 46: a34a=sproduct(ANGLE,&p3,&p4)
  .sprod 2 ⟨true, 2, true, [], 3, true⟩,
  -- 47: s14s=sproduct(SQUARE,&p1,&p4)
  .sprod 5 ⟨false, 0, true, [], 3, true⟩,
  -- 48: a14a=sproduct(ANGLE,&p1,&p4)
  .sprod 4 ⟨true, 0, true, [], 3, true⟩,
  -- 49: s13s=sproduct(SQUARE,&p1,&p3)
  .sprod 7 ⟨false, 0, true, [], 2, true⟩,
  -- 50: a13a=sproduct(ANGLE,&p1,&p3)
  .sprod 6 ⟨true, 0, true, [], 2, true⟩,
  -- 51: s24s=sproduct(SQUARE,&p2,&p4)
  .sprod 8 ⟨false, 1, true, [], 3, true⟩,
  -- 52: a24a=sproduct(ANGLE,&p2,&p4)
  .sprod 9 ⟨true, 1, true, [], 3, true⟩,
  -- 53: s23s=sproduct(SQUARE,&p2,&p3)
  .sprod 10 ⟨false, 1, true, [], 2, true⟩,
  -- 54: a23a=sproduct(ANGLE,&p2,&p3)
  .sprod 11 ⟨true, 1, true, [], 2, true⟩]

/-- `set_masses` (SM/AWAW.cpp:56-61); parameters: 0 `massW` -/
def setMasses : List SInstr := [
  -- 57: MW=massW
  .set .r 1 (.loc .r 0),
  -- 58: p2.set_mass(MW)
  .setMass 1 (.mem .r 1),
  -- 59: p4.set_mass(MW)
  .setMass 3 (.mem .r 1),
  -- 60: propW.set_mass(MW)
  .propMass 0 (.mem .r 1)]

/-- `set_momenta` (SM/AWAW.cpp:62-89); parameters: 0 `mom1`, 1 `mom2`, 2 `mom3`, 3 `mom4` -/
def setMomenta : List SInstr := [
  -- 64: p1.set_momentum(mom1)
  .setMom 0 0,
  -- 65: p2.set_momentum(mom2)
  .setMom 1 1,
  -- 66: p3.set_momentum(mom3)
  .setMom 2 2,
  -- 67: p4.set_momentum(mom4)
  .setMom 3 3,
  -- 69: s12s.update()
  .update 0,
  -- 70: a12a.update()
  .update 1,
  -- 71: s34s.update()
  .update 3,
  -- 72: a34a.update()
  .update 2,
  -- 73: s14s.update()
  .update 5,
  -- 74: a14a.update()
  .update 4,
  -- 75: s13s.update()
  .update 7,
  -- 76: a13a.update()
  .update 6,
  -- 77: s24s.update()
  .update 8,
  -- 78: a24a.update()
  .update 9,
  -- 79: s23s.update()
  .update 10,
  -- 80: a23a.update()
  .update 11,
  -- 87: pDenS=propW.denominator(propSP)
  .den .c 0 0 (.add 0 1),
  -- 88: pDenU=propW.denominator(propUP)
  .den .c 1 0 (.sub 0 3)]

/-- `cdouble amp(ds1,ds2,ds3,ds4)` (SM/AWAW.cpp:94-153); variables: i 0 `ds1`, i 1 `ds2`, i 2 `ds3`, i 3 `ds4`, c 0 `amplitude`, i 4 `ds4a`, i 5 `ds4b`, i 6 `ds2a`, i 7 `ds2b`, i 8 `nCombs`, r 0 `normFactor`, i 9 `i` -/
def m_amp : Method := ⟨4, 
  -- 95: cdouble amplitude
  .seq (.set .c 0 (.ofR (.lit 0))) <|
  -- 100: int nCombs
  .seq (.seti 8 (.loops [3, 1])) <|
  -- 101: ldouble normFactor
  .seq (.set .r 0 (.norm [3, 1])) <|
  -- 103: for(int i=0;i<nCombs;i++)
  .seq (.loop 9 0 false (.var 8) 1 (
    -- 104: get_spinor_spins(ds4,ds4a,ds4b,ds2,ds2a,ds2b,i)
    .seq (.spins [(3, 4, 5), (1, 6, 7)] (.var 9)) <|
    -- 106: if(ds1>0&&ds3>0)
    .ite (.and (.lt (.lit 0) (.var 0)) (.lt (.lit 0) (.var 2))) (
      -- 115: amplitude+=-normFactor*2.0*e*e*s13s.v()*s13s.v()*a24a.v(ds2a,ds4a)*a24a.v(ds2b,ds4b)/pDenU/pDenS
      .set .c 0 (.add (.loc .c 0) (.div (.div (.mul (.mul (.mul (.smul (.mul (.mul (.mul (.neg (.loc .r 0)) (.lit 2)) (.mem .r 0)) (.mem .r 0)) (.v 7 [])) (.v 7 [])) (.v 9 [.var 6, .var 4])) (.v 9 [.var 7, .var 5])) (.mem .c 1)) (.mem .c 0)))) (
      -- 119: if(ds1>0&&ds3<0)
      .ite (.and (.lt (.lit 0) (.var 0)) (.lt (.var 2) (.lit 0))) (
        -- 128: amplitude+=normFactor*2.0*e*e*(s14s.v(ds4a)*s14s.v(ds4b)*a23a.v(ds2a)*a23a.v(ds2b)+s12s.v(ds2a)*s12s.v(ds2b)*a34a.v(ds4a)*a34a.v(ds4b)+two*s14s.v(ds4a)*s12s.v(ds2a)*a34a.v(ds4b)*a23a.v(ds2b))/pDenU/pDenS
        .set .c 0 (.add (.loc .c 0) (.div (.div (.smul (.mul (.mul (.mul (.loc .r 0) (.lit 2)) (.mem .r 0)) (.mem .r 0)) (.add (.add (.mul (.mul (.mul (.v 5 [.var 4]) (.v 5 [.var 5])) (.v 11 [.var 6])) (.v 11 [.var 7])) (.mul (.mul (.mul (.v 0 [.var 6]) (.v 0 [.var 7])) (.v 2 [.var 4])) (.v 2 [.var 5]))) (.mul (.mul (.mul (.smul (.lit 2) (.v 5 [.var 4])) (.v 0 [.var 6])) (.v 2 [.var 5])) (.v 11 [.var 7])))) (.mem .c 1)) (.mem .c 0)))) (
        -- 136: if(ds1<0&&ds3>0)
        .ite (.and (.lt (.var 0) (.lit 0)) (.lt (.lit 0) (.var 2))) (
          -- 137: amplitude+=normFactor*2.0*e*e*(a14a.v(ds4a)*a14a.v(ds4b)*s23s.v(ds2a)*s23s.v(ds2b)+a12a.v(ds2a)*a12a.v(ds2b)*s34s.v(ds4a)*s34s.v(ds4b)+two*a14a.v(ds4a)*a12a.v(ds2a)*s34s.v(ds4b)*s23s.v(ds2b))/pDenU/pDenS
          .set .c 0 (.add (.loc .c 0) (.div (.div (.smul (.mul (.mul (.mul (.loc .r 0) (.lit 2)) (.mem .r 0)) (.mem .r 0)) (.add (.add (.mul (.mul (.mul (.v 4 [.var 4]) (.v 4 [.var 5])) (.v 10 [.var 6])) (.v 10 [.var 7])) (.mul (.mul (.mul (.v 1 [.var 6]) (.v 1 [.var 7])) (.v 3 [.var 4])) (.v 3 [.var 5]))) (.mul (.mul (.mul (.smul (.lit 2) (.v 4 [.var 4])) (.v 1 [.var 6])) (.v 3 [.var 5])) (.v 10 [.var 7])))) (.mem .c 1)) (.mem .c 0)))) (
          -- 143: if(ds1<0&&ds3<0)
          .ite (.and (.lt (.var 0) (.lit 0)) (.lt (.var 2) (.lit 0))) (
            -- 144: amplitude+=-normFactor*2.0*e*e*a13a.v()*a13a.v()*s24s.v(ds2a,ds4a)*s24s.v(ds2b,ds4b)/pDenU/pDenS
            .set .c 0 (.add (.loc .c 0) (.div (.div (.mul (.mul (.mul (.smul (.mul (.mul (.mul (.neg (.loc .r 0)) (.lit 2)) (.mem .r 0)) (.mem .r 0)) (.v 6 [])) (.v 6 [])) (.v 8 [.var 6, .var 4])) (.v 8 [.var 7, .var 5])) (.mem .c 1)) (.mem .c 0)))) (
            .skip)))))) <|
  -- 152: return amplitude
  .ret .c (.loc .c 0)⟩

/-- `ldouble amp2()` (SM/AWAW.cpp:156-170); variables: r 0 `amp2`, c 0 `M`, i 0 `j1`, i 1 `j2`, i 2 `j3`, i 3 `j4` -/
def m_amp2 : Method := ⟨0, 
  -- 157: ldouble amp2
  .seq (.set .r 0 (.lit 0)) <|
  -- 158: cdouble M
  .seq (.set .c 0 (.ofR (.lit 0))) <|
  -- 161: for(int j1=-2;j1<=2;j1+=4)
  .seq (.loop 0 (-2) true (.lit 2) 4 (
    -- 162: for(int j2=-2;j2<=2;j2+=2)
    .loop 1 (-2) true (.lit 2) 2 (
      -- 163: for(int j3=-2;j3<=2;j3+=4)
      .loop 2 (-2) true (.lit 2) 4 (
        -- 164: for(int j4=-2;j4<=2;j4+=2)
        .loop 3 (-2) true (.lit 2) 2 (
          -- 165: M=amp(j1,j2,j3,j4)
          .seq (.set .c 0 (.call 0 [.var 0, .var 1, .var 2, .var 3])) <|
          -- 166: amp2+=std::pow(std::abs(M),2)
          .set .r 0 (.add (.loc .r 0) (.pow (.abs (.loc .c 0)) 2))))))) <|
  -- 169: return amp2/6.0
  .ret .r (.div (.loc .r 0) (.lit 6))⟩

/-- `ldouble amp2_Aplus()` (SM/AWAW.cpp:173-186); variables: r 0 `amp2`, c 0 `M`, i 0 `j2`, i 1 `j3`, i 2 `j4` -/
def m_amp2_Aplus : Method := ⟨0, 
  -- 174: ldouble amp2
  .seq (.set .r 0 (.lit 0)) <|
  -- 175: cdouble M
  .seq (.set .c 0 (.ofR (.lit 0))) <|
  -- 178: for(int j2=-2;j2<=2;j2+=2)
  .seq (.loop 0 (-2) true (.lit 2) 2 (
    -- 179: for(int j3=-2;j3<=2;j3+=4)
    .loop 1 (-2) true (.lit 2) 4 (
      -- 180: for(int j4=-2;j4<=2;j4+=2)
      .loop 2 (-2) true (.lit 2) 2 (
        -- 181: M=amp(2,j2,j3,j4)
        .seq (.set .c 0 (.call 0 [.lit 2, .var 0, .var 1, .var 2])) <|
        -- 182: amp2+=std::pow(std::abs(M),2)
        .set .r 0 (.add (.loc .r 0) (.pow (.abs (.loc .c 0)) 2)))))) <|
  -- 185: return amp2/3.0
  .ret .r (.div (.loc .r 0) (.lit 3))⟩

/-- `ldouble amp2_Aminus()` (SM/AWAW.cpp:189-202); variables: r 0 `amp2`, c 0 `M`, i 0 `j2`, i 1 `j3`, i 2 `j4` -/
def m_amp2_Aminus : Method := ⟨0, 
  -- 190: ldouble amp2
  .seq (.set .r 0 (.lit 0)) <|
  -- 191: cdouble M
  .seq (.set .c 0 (.ofR (.lit 0))) <|
  -- 194: for(int j2=-2;j2<=2;j2+=2)
  .seq (.loop 0 (-2) true (.lit 2) 2 (
    -- 195: for(int j3=-2;j3<=2;j3+=4)
    .loop 1 (-2) true (.lit 2) 4 (
      -- 196: for(int j4=-2;j4<=2;j4+=2)
      .loop 2 (-2) true (.lit 2) 2 (
        -- 197: M=amp(-2,j2,j3,j4)
        .seq (.set .c 0 (.call 0 [.lit (-2), .var 0, .var 1, .var 2])) <|
        -- 198: amp2+=std::pow(std::abs(M),2)
        .set .r 0 (.add (.loc .r 0) (.pow (.abs (.loc .c 0)) 2)))))) <|
  -- 201: return amp2/3.0
  .ret .r (.div (.loc .r 0) (.lit 3))⟩

end AWAW

/-- `class AWAW` (SM/AWAW.cpp, SM/include/AWAW.h:25-33).  Members:
* ldouble: 0 `e`, 1 `MW`, 2 `SW`, 3 `CW`, 4 `WW`, 5 `sqrt2`
* cdouble: 0 `pDenS`, 1 `pDenU`
* propagator: 0 `propW`
* sproduct: 0 `s12s`, 1 `a12a`, 2 `a34a`, 3 `s34s`, 4 `a14a`, 5 `s14s`, 6 `a13a`, 7 `s13s`, 8 `s24s`, 9 `a24a`, 10 `s23s`, 11 `a23a` -/
def AWAW : Proc where
  name := "AWAW"
  nPar := 4
  ctor := AWAW.ctor
  setMasses := AWAW.setMasses
  massPar := [1]
  setMomenta := AWAW.setMomenta
  methods := [AWAW.m_amp2_Aminus, AWAW.m_amp2_Aplus, AWAW.m_amp2, AWAW.m_amp]
  amp2 := 1
  others := [("amp2_Aplus", 2), ("amp2_Aminus", 3)]

namespace AWWh

/-- constructor (SM/AWWh.cpp:32-56); parameters: 0 `echarge`, 1 `massh`, 2 `massW`, 3 `sinW`, 4 `widthW` -/
def ctor : List SInstr := [
  -- 32: e(echarge)
  .set .r 0 (.loc .r 0),
  -- 32: mh(massh)
  .set .r 1 (.loc .r 1),
  -- 32: MW(massW)
  .set .r 2 (.loc .r 2),
  -- 32: SW(sinW)
  .set .r 3 (.loc .r 3),
  -- 32: CW(std::sqrt(1.0-sinW*sinW))
  .set .r 4 (.sqrt (.sub (.lit 1) (.mul (.loc .r 3) (.loc .r 3)))),
  -- 32: WW(widthW)
  .set .r 5 (.loc .r 4),
  -- 35: sqrt2=std::sqrt(two)
  .set .r 6 (.sqrt (.lit 2)),
  -- 36: CW=std::sqrt(1.0-sinW*sinW)
  .set .r 4 (.sqrt (.sub (.lit 1) (.mul (.loc .r 3) (.loc .r 3)))),
  -- 37: propW=propagator(MW,WW)
  .prop 0 (.mem .r 2) (.mem .r 5),
  -- 38: p1=particle(0)
  .part 0 (.lit 0),
  -- 39: p2=particle(MW)
  .part 1 (.mem .r 2),
  -- 40: p3=particle(MW)
  .part 2 (.mem .r 2),
  -- 41: p4=particle(mh)
  .part 3 (.mem .r 1),
  -- 43: s23s=sproduct(SQUARE,&p2,&p3)
  .sprod 1 ⟨false, 1, true, [], 2, true⟩,
  -- 44: a23a=sproduct(ANGLE,&p2,&p3)
  .sprod 0 ⟨true, 1, true, [], 2, true⟩,
  -- 45: s12s=sproduct(SQUARE,&p1,&p2)
  .sprod 3 ⟨false, 0, true, [], 1, true⟩,
  -- 46: a12a=sproduct(ANGLE,&p1,&p2)
  .sprod 2 ⟨true, 0, true, [], 1, true⟩,
  -- 47: s13s=sproduct(SQUARE,&p1,&p3)
  .sprod 5 ⟨false, 0, true, [], 2, true⟩,
  -- 48: a13a=sproduct(ANGLE,&p1,&p3)
  .sprod 4 ⟨true, 0, true, [], 2, true⟩,
  -- 50: s143a=sproduct(SQUARE,&p1,&p4,&p3)
  .sprod 6 ⟨false, 0, true, [3], 2, true⟩,
  -- 51: s142a=sproduct(SQUARE,&p1,&p4,&p2)
  .sprod 7 ⟨false, 0, true, [3], 1, true⟩,
  -- 52: s341a=sproduct(SQUARE,&p3,&p4,&p1)
  .sprod 8 ⟨false, 2, true, [3], 0, true⟩,
  -- 53: s241a=sproduct(SQUARE,&p2,&p4,&p1)
  .sprod 9 ⟨false, 1, true, [3], 0, true⟩,
  -- 55: pre=sqrt2*e*e/(MW*SW)
  .set .r 7 (.div (.mul (.mul (.mem .r 6) (.mem .r 0)) (.mem .r 0)) (.mul (.mem .r 2) (.mem .r 3)))]

/-- `set_masses` (SM/AWWh.cpp:57-66); parameters: 0 `massh`, 1 `massW` -/
def setMasses : List SInstr := [
  -- 58: mh=massh
  .set .r 1 (.loc .r 0),
  -- 59: MW=massW
  .set .r 2 (.loc .r 1),
  -- 60: p2.set_mass(MW)
  .setMass 1 (.mem .r 2),
  -- 61: p3.set_mass(MW)
  .setMass 2 (.mem .r 2),
  -- 62: p4.set_mass(mh)
  .setMass 3 (.mem .r 1),
  -- 63: propW.set_mass(MW)
  .propMass 0 (.mem .r 2),
  -- 65: pre=sqrt2*e*e/(MW*SW)
  .set .r 7 (.div (.mul (.mul (.mem .r 6) (.mem .r 0)) (.mem .r 0)) (.mul (.mem .r 2) (.mem .r 3)))]

/-- `set_momenta` (SM/AWWh.cpp:67-93); parameters: 0 `mom1`, 1 `mom2`, 2 `mom3`, 3 `mom4` -/
def setMomenta : List SInstr := [
  -- 69: p1.set_momentum(mom1)
  .setMom 0 0,
  -- 70: p2.set_momentum(mom2)
  .setMom 1 1,
  -- 71: p3.set_momentum(mom3)
  .setMom 2 2,
  -- 72: p4.set_momentum(mom4)
  .setMom 3 3,
  -- 74: s23s.update()
  .update 1,
  -- 75: a23a.update()
  .update 0,
  -- 76: s12s.update()
  .update 3,
  -- 77: a12a.update()
  .update 2,
  -- 78: s13s.update()
  .update 5,
  -- 79: a13a.update()
  .update 4,
  -- 81: s143a.update()
  .update 6,
  -- 82: s142a.update()
  .update 7,
  -- 83: s341a.update()
  .update 8,
  -- 84: s241a.update()
  .update 9,
  -- 91: pDenT=propW.denominator(propTP)
  .den .c 1 0 (.sub 0 2),
  -- 92: pDenS=propW.denominator(propSP)
  .den .c 0 0 (.add 0 1)]

/-- `cdouble amp(ds1,ds2,ds3)` (SM/AWWh.cpp:98-137); variables: i 0 `ds1`, i 1 `ds2`, i 2 `ds3`, c 0 `amplitude`, i 3 `ds3a`, i 4 `ds3b`, i 5 `ds2a`, i 6 `ds2b`, i 7 `nCombs`, r 0 `normFactor`, i 8 `i` -/
def m_amp : Method := ⟨3, 
  -- 99: cdouble amplitude
  .seq (.set .c 0 (.ofR (.lit 0))) <|
  -- 104: int nCombs
  .seq (.seti 7 (.loops [2, 1])) <|
  -- 105: ldouble normFactor
  .seq (.set .r 0 (.norm [2, 1])) <|
  -- 107: for(int i=0;i<nCombs;i++)
  .seq (.loop 8 0 false (.var 7) 1 (
    -- 108: get_spinor_spins(ds3,ds3a,ds3b,ds2,ds2a,ds2b,i)
    .seq (.spins [(2, 3, 4), (1, 5, 6)] (.var 8)) <|
    -- 112: if(ds1>0)
    .ite (.lt (.lit 0) (.var 0)) (
      -- 121: amplitude+=normFactor*pre*a23a.v(ds2a,ds3a)*(mh*mh*s13s.v(ds3b)*s12s.v(ds2b)-MW*(s12s.v(ds2b)*s143a.v(ds3b)-s13s.v(ds3b)*s142a.v(ds2b)))/pDenT/pDenS
      .set .c 0 (.add (.loc .c 0) (.div (.div (.mul (.smul (.mul (.loc .r 0) (.mem .r 7)) (.v 0 [.var 5, .var 3])) (.sub (.mul (.smul (.mul (.mem .r 1) (.mem .r 1)) (.v 5 [.var 4])) (.v 3 [.var 6])) (.smul (.mem .r 2) (.sub (.mul (.v 3 [.var 6]) (.v 6 [.var 4])) (.mul (.v 5 [.var 4]) (.v 7 [.var 6])))))) (.mem .c 1)) (.mem .c 0)))) (
      -- 125: if(ds1<0)
      .ite (.lt (.var 0) (.lit 0)) (
        -- 126: amplitude+=normFactor*pre*s23s.v(ds2a,ds3a)*(mh*mh*a13a.v(ds3b)*a12a.v(ds2b)-MW*(a12a.v(ds2b)*s341a.v(ds3b)-a13a.v(ds3b)*s241a.v(ds2b)))/pDenT/pDenS
        .set .c 0 (.add (.loc .c 0) (.div (.div (.mul (.smul (.mul (.loc .r 0) (.mem .r 7)) (.v 1 [.var 5, .var 3])) (.sub (.mul (.smul (.mul (.mem .r 1) (.mem .r 1)) (.v 4 [.var 4])) (.v 2 [.var 6])) (.smul (.mem .r 2) (.sub (.mul (.v 2 [.var 6]) (.v 8 [.var 4])) (.mul (.v 4 [.var 4]) (.v 9 [.var 6])))))) (.mem .c 1)) (.mem .c 0)))) (
        .skip)))) <|
  -- 136: return amplitude
  .ret .c (.loc .c 0)⟩

/-- `ldouble amp2()` (SM/AWWh.cpp:140-153); variables: r 0 `amp2`, c 0 `M`, i 0 `j1`, i 1 `j2`, i 2 `j3` -/
def m_amp2 : Method := ⟨0, 
  -- 141: ldouble amp2
  .seq (.set .r 0 (.lit 0)) <|
  -- 142: cdouble M
  .seq (.set .c 0 (.ofR (.lit 0))) <|
  -- 145: for(int j1=-2;j1<=2;j1+=4)
  .seq (.loop 0 (-2) true (.lit 2) 4 (
    -- 146: for(int j2=-2;j2<=2;j2+=2)
    .loop 1 (-2) true (.lit 2) 2 (
      -- 147: for(int j3=-2;j3<=2;j3+=2)
      .loop 2 (-2) true (.lit 2) 2 (
        -- 148: M=amp(j1,j2,j3)
        .seq (.set .c 0 (.call 0 [.var 0, .var 1, .var 2])) <|
        -- 149: amp2+=std::pow(std::abs(M),2)
        .set .r 0 (.add (.loc .r 0) (.pow (.abs (.loc .c 0)) 2)))))) <|
  -- 152: return amp2/6.0
  .ret .r (.div (.loc .r 0) (.lit 6))⟩

/-- `ldouble amp2_Aplus()` (SM/AWWh.cpp:156-168); variables: r 0 `amp2`, c 0 `M`, i 0 `j2`, i 1 `j3` -/
def m_amp2_Aplus : Method := ⟨0, 
  -- 157: ldouble amp2
  .seq (.set .r 0 (.lit 0)) <|
  -- 158: cdouble M
  .seq (.set .c 0 (.ofR (.lit 0))) <|
  -- 161: for(int j2=-2;j2<=2;j2+=2)
  .seq (.loop 0 (-2) true (.lit 2) 2 (
    -- 162: for(int j3=-2;j3<=2;j3+=2)
    .loop 1 (-2) true (.lit 2) 2 (
      -- 163: M=amp(2,j2,j3)
      .seq (.set .c 0 (.call 0 [.lit 2, .var 0, .var 1])) <|
      -- 164: amp2+=std::pow(std::abs(M),2)
      .set .r 0 (.add (.loc .r 0) (.pow (.abs (.loc .c 0)) 2))))) <|
  -- 167: return amp2/3.0
  .ret .r (.div (.loc .r 0) (.lit 3))⟩

end AWWh

/-- `class AWWh` (SM/AWWh.cpp, SM/include/AWWh.h:25-36).  Members:
* ldouble: 0 `e`, 1 `mh`, 2 `MW`, 3 `SW`, 4 `CW`, 5 `WW`, 6 `sqrt2`, 7 `pre`
* cdouble: 0 `pDenS`, 1 `pDenT`, 2 `pDenU`
* propagator: 0 `propW`
* sproduct: 0 `a23a`, 1 `s23s`, 2 `a12a`, 3 `s12s`, 4 `a13a`, 5 `s13s`, 6 `s143a`, 7 `s142a`, 8 `s341a`, 9 `s241a` -/
def AWWh : Proc where
  name := "AWWh"
  nPar := 5
  ctor := AWWh.ctor
  setMasses := AWWh.setMasses
  massPar := [1, 2]
  setMomenta := AWWh.setMomenta
  methods := [AWWh.m_amp2_Aplus, AWWh.m_amp2, AWWh.m_amp]
  amp2 := 1
  others := [("amp2_Aplus", 2)]

namespace AWZW

/-- constructor (SM/AWZW.cpp:32-58); parameters: 0 `echarge`, 1 `massW`, 2 `sinW`, 3 `widthW` -/
def ctor : List SInstr := [
  -- 32: e(echarge)
  .set .r 0 (.loc .r 0),
  -- 32: MW(massW)
  .set .r 1 (.loc .r 1),
  -- 32: SW(sinW)
  .set .r 3 (.loc .r 2),
  -- 32: CW(std::sqrt(1.0-sinW*sinW))
  .set .r 4 (.sqrt (.sub (.lit 1) (.mul (.loc .r 2) (.loc .r 2)))),
  -- 32: WW(widthW)
  .set .r 5 (.loc .r 3),
  -- 35: sqrt2=std::sqrt(two)
  .set .r 6 (.sqrt (.lit 2)),
  -- 36: CW=std::sqrt(1.0-sinW*sinW)
  .set .r 4 (.sqrt (.sub (.lit 1) (.mul (.loc .r 2) (.loc .r 2)))),
  -- 37: MZ=MW/CW
  .set .r 2 (.div (.mem .r 1) (.mem .r 4)),
  -- 38: propW=propagator(MW,WW)
  .prop 0 (.mem .r 1) (.mem .r 5),
  -- 39: p1=particle(0)
  .part 0 (.lit 0),
  -- 40: p2=particle(MW)
  .part 1 (.mem .r 1),
  -- 41: p3=particle(MZ)
  .part 2 (.mem .r 2),
  -- 42: p4=particle(MW)
  .part 3 (.mem .r 1),
  -- 44: s12s=sproduct(SQUARE,&p1,&p2)
  .sprod 0 ⟨false, 0, true, [], 1, true⟩,
  -- 45: a12a=sproduct(ANGLE,&p1,&p2)
  .sprod 1 ⟨true, 0, true, [], 1, true⟩,
  -- 46: s23s=sproduct(SQUARE,&p2,&p3)
  .sprod 4 ⟨false, 1, true, [], 2, true⟩,
  -- 47: a23a=sproduct(ANGLE,&p2,&p3)
  .sprod 5 ⟨true, 1, true, [], 2, true⟩,
  -- 48: s24s=sproduct(SQUARE,&p2,&p4)
  .sprod 2 ⟨false, 1, true, [], 3, true⟩,
  -- 49: a24a=sproduct(ANGLE,&p2,&p4)
  .sprod 3 ⟨true, 1, true, [], 3, true⟩,
  -- 50: s34s=sproduct(SQUARE,&p3,&p4)
  .sprod 7 ⟨false, 2, true, [], 3, true⟩,
  -- 51: a34a=sproduct(ANGLE,&p3,&p4)
  .sprod 6 ⟨true, 2, true, [], 3, true⟩,
  -- 52: s14s=sproduct(SQUARE,&p1,&p4)
  .sprod 9 ⟨false, 0, true, [], 3, true⟩,
  -- 53: a14a=sproduct(ANGLE,&p1,&p4)
  .sprod 8 ⟨true, 0, true, [], 3, true⟩,
  -- 54: s13s=sproduct(SQUARE,&p1,&p3)
  .sprod 11 ⟨false, 0, true, [], 2, true⟩,
  -- 55: a13a=sproduct(ANGLE,&p1,&p3)
  .sprod 10 ⟨true, 0, true, [], 2, true⟩,
  -- 57: pre=2.0*e*e/(CW*SW)
  .set .r 7 (.div (.mul (.mul (.lit 2) (.mem .r 0)) (.mem .r 0)) (.mul (.mem .r 4) (.mem .r 3)))]

/-- `set_masses` (SM/AWZW.cpp:59-68); parameters: 0 `massW` -/
def setMasses : List SInstr := [
  -- 60: MW=massW
  .set .r 1 (.loc .r 0),
  -- 61: MZ=MW/CW
  .set .r 2 (.div (.mem .r 1) (.mem .r 4)),
  -- 62: p2.set_mass(MW)
  .setMass 1 (.mem .r 1),
  -- 63: p3.set_mass(MZ)
  .setMass 2 (.mem .r 2),
  -- 64: p4.set_mass(MW)
  .setMass 3 (.mem .r 1),
  -- 65: propW.set_mass(MW)
  .propMass 0 (.mem .r 1),
  -- 67: pre=2.0*e*e/(CW*SW)
  .set .r 7 (.div (.mul (.mul (.lit 2) (.mem .r 0)) (.mem .r 0)) (.mul (.mem .r 4) (.mem .r 3)))]

/-- `set_momenta` (SM/AWZW.cpp:69-96); parameters: 0 `mom1`, 1 `mom2`, 2 `mom3`, 3 `mom4` -/
def setMomenta : List SInstr := [
  -- 71: p1.set_momentum(mom1)
  .setMom 0 0,
  -- 72: p2.set_momentum(mom2)
  .setMom 1 1,
  -- 73: p3.set_momentum(mom3)
  .setMom 2 2,
  -- 74: p4.set_momentum(mom4)
  .setMom 3 3,
  -- 76: s12s.update()
  .update 0,
  -- 77: a12a.update()
  .update 1,
  -- 78: s23s.update()
  .update 4,
  -- 79: a23a.update()
  .update 5,
  -- 80: s24s.update()
  .update 2,
  -- 81: a24a.update()
  .update 3,
  -- 82: s34s.update()
  .update 7,
  -- 83: a34a.update()
  .update 6,
  -- 84: s14s.update()
  .update 9,
  -- 85: a14a.update()
  .update 8,
  -- 86: s13s.update()
  .update 11,
  -- 87: a13a.update()
  .update 10,
  -- 94: pDenS=propW.denominator(propSP)
  .den .c 0 0 (.add 0 1),
  -- 95: pDenU=propW.denominator(propUP)
  .den .c 1 0 (.sub 0 3)]

/-- `cdouble amp(ds1,ds2,ds3,ds4)` (SM/AWZW.cpp:101-148); variables: i 0 `ds1`, i 1 `ds2`, i 2 `ds3`, i 3 `ds4`, c 0 `amplitude`, i 4 `ds3a`, i 5 `ds3b`, i 6 `ds4a`, i 7 `ds4b`, i 8 `ds2a`, i 9 `ds2b`, i 10 `nCombs`, r 0 `normFactor`, i 11 `i` -/
def m_amp : Method := ⟨4, 
  -- 102: cdouble amplitude
  .seq (.set .c 0 (.ofR (.lit 0))) <|
  -- 106: int nCombs
  .seq (.seti 10 (.loops [2, 3, 1])) <|
  -- 107: ldouble normFactor
  .seq (.set .r 0 (.norm [2, 3, 1])) <|
  -- 109: for(int i=0;i<nCombs;i++)
  .seq (.loop 11 0 false (.var 10) 1 (
    -- 110: get_spinor_spins(ds3,ds3a,ds3b,ds4,ds4a,ds4b,ds2,ds2a,ds2b,i)
    .seq (.spins [(2, 4, 5), (3, 6, 7), (1, 8, 9)] (.var 11)) <|
    -- 112: if(ds1>0)
    .ite (.lt (.lit 0) (.var 0)) (
      -- 121: amplitude+=normFactor*pre*(+CW*CW*s13s.v(ds3a)*s13s.v(ds3b)*a24a.v(ds2a,ds4a)*a24a.v(ds2b,ds4b)+CW*CW*s14s.v(ds4a)*s14s.v(ds4b)*a23a.v(ds2a,ds3a)*a23a.v(ds2b,ds3b)+CW*CW*s12s.v(ds2a)*s12s.v(ds2b)*a34a.v(ds3a,ds4a)*a34a.v(ds3b,ds4b)+(CW*CW-SW*SW)*s14s.v(ds4a)*s12s.v(ds2a)*a34a.v(ds3a,ds4b)*a23a.v(ds2b,ds3b)+CW*s13s.v(ds3a)*s14s.v(ds4a)*a23a.v(ds2a,ds3b)*a24a.v(ds2b,ds4b)-CW*s13s.v(ds3a)*s12s.v(ds2a)*a34a.v(ds3b,ds4a)*a24a.v(ds2b,ds4b))/pDenU/pDenS
      .set .c 0 (.add (.loc .c 0) (.div (.div (.smul (.mul (.loc .r 0) (.mem .r 7)) (.sub (.add (.add (.add (.add (.mul (.mul (.mul (.smul (.mul (.mem .r 4) (.mem .r 4)) (.v 11 [.var 4])) (.v 11 [.var 5])) (.v 3 [.var 8, .var 6])) (.v 3 [.var 9, .var 7])) (.mul (.mul (.mul (.smul (.mul (.mem .r 4) (.mem .r 4)) (.v 9 [.var 6])) (.v 9 [.var 7])) (.v 5 [.var 8, .var 4])) (.v 5 [.var 9, .var 5]))) (.mul (.mul (.mul (.smul (.mul (.mem .r 4) (.mem .r 4)) (.v 0 [.var 8])) (.v 0 [.var 9])) (.v 6 [.var 4, .var 6])) (.v 6 [.var 5, .var 7]))) (.mul (.mul (.mul (.smul (.sub (.mul (.mem .r 4) (.mem .r 4)) (.mul (.mem .r 3) (.mem .r 3))) (.v 9 [.var 6])) (.v 0 [.var 8])) (.v 6 [.var 4, .var 7])) (.v 5 [.var 9, .var 5]))) (.mul (.mul (.mul (.smul (.mem .r 4) (.v 11 [.var 4])) (.v 9 [.var 6])) (.v 5 [.var 8, .var 5])) (.v 3 [.var 9, .var 7]))) (.mul (.mul (.mul (.smul (.mem .r 4) (.v 11 [.var 4])) (.v 0 [.var 8])) (.v 6 [.var 5, .var 6])) (.v 3 [.var 9, .var 7])))) (.mem .c 1)) (.mem .c 0)))) (
      -- 131: if(ds1<0)
      .ite (.lt (.var 0) (.lit 0)) (
        -- 132: amplitude+=normFactor*pre*(+CW*CW*a13a.v(ds3a)*a13a.v(ds3b)*s24s.v(ds2a,ds4a)*s24s.v(ds2b,ds4b)+CW*CW*a14a.v(ds4a)*a14a.v(ds4b)*s23s.v(ds2a,ds3a)*s23s.v(ds2b,ds3b)+CW*CW*a12a.v(ds2a)*a12a.v(ds2b)*s34s.v(ds3a,ds4a)*s34s.v(ds3b,ds4b)+(CW*CW-SW*SW)*a14a.v(ds4a)*a12a.v(ds2a)*s34s.v(ds3a,ds4b)*s23s.v(ds2b,ds3b)+CW*a13a.v(ds3a)*a14a.v(ds4a)*s23s.v(ds2a,ds3b)*s24s.v(ds2b,ds4b)-CW*a13a.v(ds3a)*a12a.v(ds2a)*s34s.v(ds3b,ds4a)*s24s.v(ds2b,ds4b))/pDenU/pDenS
        .set .c 0 (.add (.loc .c 0) (.div (.div (.smul (.mul (.loc .r 0) (.mem .r 7)) (.sub (.add (.add (.add (.add (.mul (.mul (.mul (.smul (.mul (.mem .r 4) (.mem .r 4)) (.v 10 [.var 4])) (.v 10 [.var 5])) (.v 2 [.var 8, .var 6])) (.v 2 [.var 9, .var 7])) (.mul (.mul (.mul (.smul (.mul (.mem .r 4) (.mem .r 4)) (.v 8 [.var 6])) (.v 8 [.var 7])) (.v 4 [.var 8, .var 4])) (.v 4 [.var 9, .var 5]))) (.mul (.mul (.mul (.smul (.mul (.mem .r 4) (.mem .r 4)) (.v 1 [.var 8])) (.v 1 [.var 9])) (.v 7 [.var 4, .var 6])) (.v 7 [.var 5, .var 7]))) (.mul (.mul (.mul (.smul (.sub (.mul (.mem .r 4) (.mem .r 4)) (.mul (.mem .r 3) (.mem .r 3))) (.v 8 [.var 6])) (.v 1 [.var 8])) (.v 7 [.var 4, .var 7])) (.v 4 [.var 9, .var 5]))) (.mul (.mul (.mul (.smul (.mem .r 4) (.v 10 [.var 4])) (.v 8 [.var 6])) (.v 4 [.var 8, .var 5])) (.v 2 [.var 9, .var 7]))) (.mul (.mul (.mul (.smul (.mem .r 4) (.v 10 [.var 4])) (.v 1 [.var 8])) (.v 7 [.var 5, .var 6])) (.v 2 [.var 9, .var 7])))) (.mem .c 1)) (.mem .c 0)))) (
        .skip)))) <|
  -- 147: return amplitude
  .ret .c (.loc .c 0)⟩

/-- `ldouble amp2()` (SM/AWZW.cpp:151-165); variables: r 0 `amp2`, c 0 `M`, i 0 `j1`, i 1 `j2`, i 2 `j3`, i 3 `j4` -/
def m_amp2 : Method := ⟨0, 
  -- 152: ldouble amp2
  .seq (.set .r 0 (.lit 0)) <|
  -- 153: cdouble M
  .seq (.set .c 0 (.ofR (.lit 0))) <|
  -- 156: for(int j1=-2;j1<=2;j1+=4)
  .seq (.loop 0 (-2) true (.lit 2) 4 (
    -- 157: for(int j2=-2;j2<=2;j2+=2)
    .loop 1 (-2) true (.lit 2) 2 (
      -- 158: for(int j3=-2;j3<=2;j3+=2)
      .loop 2 (-2) true (.lit 2) 2 (
        -- 159: for(int j4=-2;j4<=2;j4+=2)
        .loop 3 (-2) true (.lit 2) 2 (
          -- 160: M=amp(j1,j2,j3,j4)
          .seq (.set .c 0 (.call 0 [.var 0, .var 1, .var 2, .var 3])) <|
          -- 161: amp2+=std::pow(std::abs(M),2)
          .set .r 0 (.add (.loc .r 0) (.pow (.abs (.loc .c 0)) 2))))))) <|
  -- 164: return amp2/6.0
  .ret .r (.div (.loc .r 0) (.lit 6))⟩

/-- `ldouble amp2_Aplus()` (SM/AWZW.cpp:168-181); variables: r 0 `amp2`, c 0 `M`, i 0 `j2`, i 1 `j3`, i 2 `j4` -/
def m_amp2_Aplus : Method := ⟨0, 
  -- 169: ldouble amp2
  .seq (.set .r 0 (.lit 0)) <|
  -- 170: cdouble M
  .seq (.set .c 0 (.ofR (.lit 0))) <|
  -- 173: for(int j2=-2;j2<=2;j2+=2)
  .seq (.loop 0 (-2) true (.lit 2) 2 (
    -- 174: for(int j3=-2;j3<=2;j3+=2)
    .loop 1 (-2) true (.lit 2) 2 (
      -- 175: for(int j4=-2;j4<=2;j4+=2)
      .loop 2 (-2) true (.lit 2) 2 (
        -- 176: M=amp(2,j2,j3,j4)
        .seq (.set .c 0 (.call 0 [.lit 2, .var 0, .var 1, .var 2])) <|
        -- 177: amp2+=std::pow(std::abs(M),2)
        .set .r 0 (.add (.loc .r 0) (.pow (.abs (.loc .c 0)) 2)))))) <|
  -- 180: return amp2/3.0
  .ret .r (.div (.loc .r 0) (.lit 3))⟩

end AWZW

/-- `class AWZW` (SM/AWZW.cpp, SM/include/AWZW.h:25-34).  Members:
* ldouble: 0 `e`, 1 `MW`, 2 `MZ`, 3 `SW`, 4 `CW`, 5 `WW`, 6 `sqrt2`, 7 `pre`
* cdouble: 0 `pDenS`, 1 `pDenU`
* propagator: 0 `propW`
* sproduct: 0 `s12s`, 1 `a12a`, 2 `s24s`, 3 `a24a`, 4 `s23s`, 5 `a23a`, 6 `a34a`, 7 `s34s`, 8 `a14a`, 9 `s14s`, 10 `a13a`, 11 `s13s` -/
def AWZW : Proc where
  name := "AWZW"
  nPar := 4
  ctor := AWZW.ctor
  setMasses := AWZW.setMasses
  massPar := [1]
  setMomenta := AWZW.setMomenta
  methods := [AWZW.m_amp2_Aplus, AWZW.m_amp2, AWZW.m_amp]
  amp2 := 1
  others := [("amp2_Aplus", 2)]

namespace AWud

/-- constructor (SM/AWud.cpp:32-56); parameters: 0 `echarge`, 1 `massu`, 2 `massd`, 3 `massW`, 4 `sinW`, 5 `widthW` -/
def ctor : List SInstr := [
  -- 32: e(echarge)
  .set .r 0 (.loc .r 0),
  -- 32: mu(massu)
  .set .r 1 (.loc .r 1),
  -- 32: md(massd)
  .set .r 2 (.loc .r 2),
  -- 32: MW(massW)
  .set .r 3 (.loc .r 3),
  -- 32: SW(sinW)
  .set .r 4 (.loc .r 4),
  -- 32: WW(widthW)
  .set .r 5 (.loc .r 5),
  -- 35: propW=propagator(MW,WW)
  .prop 0 (.mem .r 3) (.mem .r 5),
  -- 36: propu=propagator(mu,0)
  .prop 1 (.mem .r 1) (.lit 0),
  -- 37: propd=propagator(md,0)
  .prop 2 (.mem .r 2) (.lit 0),
  -- 38: p1=particle(0)
  .part 0 (.lit 0),
  -- 39: p2=particle(MW)
  .part 1 (.mem .r 3),
  -- 40: p3=particle(mu)
  .part 2 (.mem .r 1),
  -- 41: p4=particle(md)
  .part 3 (.mem .r 2),
  -- 43: s12s=sproduct(SQUARE,&p1,&p2)
  .sprod 0 ⟨false, 0, true, [], 1, true⟩,
  -- 44: s13s=sproduct(SQUARE,&p1,&p3)
  .sprod 1 ⟨false, 0, true, [], 2, true⟩,
  -- 45: a24a=sproduct(ANGLE,&p2,&p4)
  .sprod 2 ⟨true, 1, true, [], 3, true⟩,
  -- 46: s142a=sproduct(SQUARE,&p1,&p4,&p2)
  .sprod 3 ⟨false, 0, true, [3], 1, true⟩,
  -- 47: s143a=sproduct(SQUARE,&p1,&p4,&p3)
  .sprod 4 ⟨false, 0, true, [3], 2, true⟩,
  -- 49: a12a=sproduct(ANGLE,&p1,&p2)
  .sprod 5 ⟨true, 0, true, [], 1, true⟩,
  -- 50: a14a=sproduct(ANGLE,&p1,&p4)
  .sprod 6 ⟨true, 0, true, [], 3, true⟩,
  -- 51: s23s=sproduct(SQUARE,&p2,&p3)
  .sprod 7 ⟨false, 1, true, [], 2, true⟩,
  -- 52: s231a=sproduct(SQUARE,&p2,&p3,&p1)
  .sprod 8 ⟨false, 1, true, [2], 0, true⟩,
  -- 53: s431a=sproduct(SQUARE,&p4,&p3,&p1)
  .sprod 9 ⟨false, 3, true, [2], 0, true⟩,
  -- 55: pre=std::sqrt(2.0)*e*e/(MW*SW)
  .set .r 6 (.div (.mul (.mul (.sqrt (.lit 2)) (.mem .r 0)) (.mem .r 0)) (.mul (.mem .r 3) (.mem .r 4)))]

/-- `set_masses` (SM/AWud.cpp:57-69); parameters: 0 `massu`, 1 `massd`, 2 `massW` -/
def setMasses : List SInstr := [
  -- 59: mu=massu
  .set .r 1 (.loc .r 0),
  -- 60: md=massd
  .set .r 2 (.loc .r 1),
  -- 61: MW=massW
  .set .r 3 (.loc .r 2),
  -- 62: p2.set_mass(MW)
  .setMass 1 (.mem .r 3),
  -- 63: p3.set_mass(mu)
  .setMass 2 (.mem .r 1),
  -- 64: p4.set_mass(md)
  .setMass 3 (.mem .r 2),
  -- 65: propW.set_mass(MW)
  .propMass 0 (.mem .r 3),
  -- 66: propu.set_mass(mu)
  .propMass 1 (.mem .r 1),
  -- 67: propd.set_mass(md)
  .propMass 2 (.mem .r 2),
  -- 68: pre=std::sqrt(2.0)*e*e/(MW*SW)
  .set .r 6 (.div (.mul (.mul (.sqrt (.lit 2)) (.mem .r 0)) (.mem .r 0)) (.mul (.mem .r 3) (.mem .r 4)))]

/-- `set_momenta` (SM/AWud.cpp:70-105); parameters: 0 `mom1`, 1 `mom2`, 2 `mom3`, 3 `mom4` -/
def setMomenta : List SInstr := [
  -- 73: p1.set_momentum(mom1)
  .setMom 0 0,
  -- 74: p2.set_momentum(mom2)
  .setMom 1 1,
  -- 75: p3.set_momentum(mom3)
  .setMom 2 2,
  -- 76: p4.set_momentum(mom4)
  .setMom 3 3,
  -- 78: s12s.update()
  .update 0,
  -- 79: s13s.update()
  .update 1,
  -- 80: a24a.update()
  .update 2,
  -- 81: s142a.update()
  .update 3,
  -- 82: s143a.update()
  .update 4,
  -- 84: a12a.update()
  .update 5,
  -- 85: a14a.update()
  .update 6,
  -- 86: s23s.update()
  .update 7,
  -- 87: s231a.update()
  .update 8,
  -- 88: s431a.update()
  .update 9,
  -- 96: pDenS=propW.denominator(propSP)
  .den .c 0 0 (.add 0 1),
  -- 97: pDenT=propu.denominator(propTP)
  .den .c 1 1 (.sub 0 2),
  -- 98: pDenU=propd.denominator(propUP)
  .den .c 2 2 (.sub 0 3),
  -- 104: prop=-one/pDenS*(two/three/pDenT-one/three/pDenU)
  .set .c 3 (.mul (.div (.ofR (.neg (.lit 1))) (.mem .c 0)) (.sub (.div (.ofR (.div (.lit 2) (.lit 3))) (.mem .c 1)) (.div (.ofR (.div (.lit 1) (.lit 3))) (.mem .c 2))))]

/-- `cdouble amp(ds1,ds2,ds3,ds4)` (SM/AWud.cpp:110-143); variables: i 0 `ds1`, i 1 `ds2`, i 2 `ds3`, i 3 `ds4`, c 0 `amplitude`, i 4 `ds2a`, i 5 `ds2b`, i 6 `nCombs`, r 0 `normFactor`, i 7 `i` -/
def m_amp : Method := ⟨4, 
  -- 111: cdouble amplitude
  .seq (.set .c 0 (.ofR (.lit 0))) <|
  -- 115: int nCombs
  .seq (.seti 6 (.loops [1])) <|
  -- 116: ldouble normFactor
  .seq (.set .r 0 (.norm [1])) <|
  -- 118: for(int i=0;i<nCombs;i++)
  .seq (.loop 7 0 false (.var 6) 1 (
    -- 119: get_spinor_spins(ds2,ds2a,ds2b,i)
    .seq (.spins [(1, 4, 5)] (.var 7)) <|
    -- 121: if(ds1>0)
    .ite (.lt (.lit 0) (.var 0)) (
      -- 129: amplitude+=normFactor*pre*a24a.v(ds2a,ds4)*(-MW*s13s.v(ds3)*s142a.v(ds2b)+s12s.v(ds2b)*(-md*md*s13s.v(ds3)+mu*s143a.v(ds3)))*prop
      .set .c 0 (.add (.loc .c 0) (.mul (.mul (.smul (.mul (.loc .r 0) (.mem .r 6)) (.v 2 [.var 4, .var 3])) (.add (.mul (.smul (.neg (.mem .r 3)) (.v 1 [.var 2])) (.v 3 [.var 5])) (.mul (.v 0 [.var 5]) (.add (.smul (.mul (.neg (.mem .r 2)) (.mem .r 2)) (.v 1 [.var 2])) (.smul (.mem .r 1) (.v 4 [.var 2])))))) (.mem .c 3)))) (
      -- 133: if(ds1<0)
      .ite (.lt (.var 0) (.lit 0)) (
        -- 136: amplitude+=normFactor*pre*s23s.v(ds2a,ds3)*(MW*a14a.v(ds4)*s231a.v(ds2b)+a12a.v(ds2b)*(mu*mu*a14a.v(ds4)-md*s431a.v(ds4)))*prop
        .set .c 0 (.add (.loc .c 0) (.mul (.mul (.smul (.mul (.loc .r 0) (.mem .r 6)) (.v 7 [.var 4, .var 2])) (.add (.mul (.smul (.mem .r 3) (.v 6 [.var 3])) (.v 8 [.var 5])) (.mul (.v 5 [.var 5]) (.sub (.smul (.mul (.mem .r 1) (.mem .r 1)) (.v 6 [.var 3])) (.smul (.mem .r 2) (.v 9 [.var 3])))))) (.mem .c 3)))) (
        .skip)))) <|
  -- 142: return amplitude
  .ret .c (.loc .c 0)⟩

/-- `ldouble amp2()` (SM/AWud.cpp:146-163); variables: r 0 `amp2`, c 0 `M`, i 0 `j1`, i 1 `j2`, i 2 `j3`, i 3 `j4` -/
def m_amp2 : Method := ⟨0, 
  -- 148: ldouble amp2
  .seq (.set .r 0 (.lit 0)) <|
  -- 149: cdouble M
  .seq (.set .c 0 (.ofR (.lit 0))) <|
  -- 153: for(int j1=-2;j1<=2;j1+=4)
  .seq (.loop 0 (-2) true (.lit 2) 4 (
    -- 154: for(int j2=-2;j2<=2;j2+=2)
    .loop 1 (-2) true (.lit 2) 2 (
      -- 155: for(int j3=-1;j3<=1;j3+=2)
      .loop 2 (-1) true (.lit 1) 2 (
        -- 156: for(int j4=-1;j4<=1;j4+=2)
        .loop 3 (-1) true (.lit 1) 2 (
          -- 157: M=amp(j1,j2,j3,j4)
          .seq (.set .c 0 (.call 0 [.var 0, .var 1, .var 2, .var 3])) <|
          -- 159: amp2+=three*std::pow(std::abs(M),2)
          .set .r 0 (.add (.loc .r 0) (.mul (.lit 3) (.pow (.abs (.loc .c 0)) 2)))))))) <|
  -- 162: return amp2/6.0
  .ret .r (.div (.loc .r 0) (.lit 6))⟩

/-- `ldouble amp2_Aplus()` (SM/AWud.cpp:166-181); variables: r 0 `amp2`, c 0 `M`, i 0 `j2`, i 1 `j3`, i 2 `j4` -/
def m_amp2_Aplus : Method := ⟨0, 
  -- 168: ldouble amp2
  .seq (.set .r 0 (.lit 0)) <|
  -- 169: cdouble M
  .seq (.set .c 0 (.ofR (.lit 0))) <|
  -- 172: for(int j2=-2;j2<=2;j2+=2)
  .seq (.loop 0 (-2) true (.lit 2) 2 (
    -- 173: for(int j3=-1;j3<=1;j3+=2)
    .loop 1 (-1) true (.lit 1) 2 (
      -- 174: for(int j4=-1;j4<=1;j4+=2)
      .loop 2 (-1) true (.lit 1) 2 (
        -- 175: M=amp(1,j2,j3,j4)
        .seq (.set .c 0 (.call 0 [.lit 1, .var 0, .var 1, .var 2])) <|
        -- 177: amp2+=three*std::pow(std::abs(M),2)
        .set .r 0 (.add (.loc .r 0) (.mul (.lit 3) (.pow (.abs (.loc .c 0)) 2))))))) <|
  -- 180: return amp2/three
  .ret .r (.div (.loc .r 0) (.lit 3))⟩

end AWud

/-- `class AWud` (SM/AWud.cpp, SM/include/AWud.h:25-34).  Members:
* ldouble: 0 `e`, 1 `mu`, 2 `md`, 3 `MW`, 4 `SW`, 5 `WW`, 6 `pre`
* cdouble: 0 `pDenS`, 1 `pDenT`, 2 `pDenU`, 3 `prop`
* propagator: 0 `propW`, 1 `propu`, 2 `propd`
* sproduct: 0 `s12s`, 1 `s13s`, 2 `a24a`, 3 `s142a`, 4 `s143a`, 5 `a12a`, 6 `a14a`, 7 `s23s`, 8 `s231a`, 9 `s431a` -/
def AWud : Proc where
  name := "AWud"
  nPar := 6
  ctor := AWud.ctor
  setMasses := AWud.setMasses
  massPar := [1, 2, 3]
  setMomenta := AWud.setMomenta
  methods := [AWud.m_amp2_Aplus, AWud.m_amp2, AWud.m_amp]
  amp2 := 1
  others := [("amp2_Aplus", 2)]

namespace AZWW

/-- constructor (SM/AZWW.cpp:32-58); parameters: 0 `echarge`, 1 `massW`, 2 `sinW`, 3 `widthW` -/
def ctor : List SInstr := [
  -- 32: e(echarge)
  .set .r 0 (.loc .r 0),
  -- 32: MW(massW)
  .set .r 1 (.loc .r 1),
  -- 32: SW(sinW)
  .set .r 3 (.loc .r 2),
  -- 32: CW(std::sqrt(1.0-sinW*sinW))
  .set .r 4 (.sqrt (.sub (.lit 1) (.mul (.loc .r 2) (.loc .r 2)))),
  -- 32: WW(widthW)
  .set .r 5 (.loc .r 3),
  -- 35: sqrt2=std::sqrt(two)
  .set .r 6 (.sqrt (.lit 2)),
  -- 36: CW=std::sqrt(1.0-sinW*sinW)
  .set .r 4 (.sqrt (.sub (.lit 1) (.mul (.loc .r 2) (.loc .r 2)))),
  -- 37: MZ=MW/CW
  .set .r 2 (.div (.mem .r 1) (.mem .r 4)),
  -- 38: propW=propagator(MW,WW)
  .prop 0 (.mem .r 1) (.mem .r 5),
  -- 39: p1=particle(0)
  .part 0 (.lit 0),
  -- 40: p2=particle(MZ)
  .part 1 (.mem .r 2),
  -- 41: p3=particle(MW)
  .part 2 (.mem .r 1),
  -- 42: p4=particle(MW)
  .part 3 (.mem .r 1),
  -- 44: s12s=sproduct(SQUARE,&p1,&p2)
  .sprod 0 ⟨false, 0, true, [], 1, true⟩,
  -- 45: a12a=sproduct(ANGLE,&p1,&p2)
  .sprod 1 ⟨true, 0, true, [], 1, true⟩,
  -- 46: s23s=sproduct(SQUARE,&p2,&p3)
  .sprod 4 ⟨false, 1, true, [], 2, true⟩,
  -- 47: a23a=sproduct(ANGLE,&p2,&p3)
  .sprod 5 ⟨true, 1, true, [], 2, true⟩,
  -- 48: s24s=sproduct(SQUARE,&p2,&p4)
  .sprod 2 ⟨false, 1, true, [], 3, true⟩,
  -- 49: a24a=sproduct(ANGLE,&p2,&p4)
  .sprod 3 ⟨true, 1, true, [], 3, true⟩,
  -- 50: s34s=sproduct(SQUARE,&p3,&p4)
  .sprod 7 ⟨false, 2, true, [], 3, true⟩,
  -- 51: a34a=sproduct(ANGLE,&p3,&p4)
  .sprod 6 ⟨true, 2, true, [], 3, true⟩,
  -- 52: s14s=sproduct(SQUARE,&p1,&p4)
  .sprod 9 ⟨false, 0, true, [], 3, true⟩,
  -- 53: a14a=sproduct(ANGLE,&p1,&p4)
  .sprod 8 ⟨true, 0, true, [], 3, true⟩,
  -- 54: s13s=sproduct(SQUARE,&p1,&p3)
  .sprod 11 ⟨false, 0, true, [], 2, true⟩,
  -- 55: a13a=sproduct(ANGLE,&p1,&p3)
  .sprod 10 ⟨true, 0, true, [], 2, true⟩,
  -- 57: pre=2.0*e*e/(CW*SW)
  .set .r 7 (.div (.mul (.mul (.lit 2) (.mem .r 0)) (.mem .r 0)) (.mul (.mem .r 4) (.mem .r 3)))]

/-- `set_masses` (SM/AZWW.cpp:59-68); parameters: 0 `massW` -/
def setMasses : List SInstr := [
  -- 60: MW=massW
  .set .r 1 (.loc .r 0),
  -- 61: MZ=MW/CW
  .set .r 2 (.div (.mem .r 1) (.mem .r 4)),
  -- 62: p2.set_mass(MZ)
  .setMass 1 (.mem .r 2),
  -- 63: p3.set_mass(MW)
  .setMass 2 (.mem .r 1),
  -- 64: p4.set_mass(MW)
  .setMass 3 (.mem .r 1),
  -- 65: propW.set_mass(MW)
  .propMass 0 (.mem .r 1),
  -- 67: pre=2.0*e*e/(CW*SW)
  .set .r 7 (.div (.mul (.mul (.lit 2) (.mem .r 0)) (.mem .r 0)) (.mul (.mem .r 4) (.mem .r 3)))]

/-- `set_momenta` (SM/AZWW.cpp:69-96); parameters: 0 `mom1`, 1 `mom2`, 2 `mom3`, 3 `mom4` -/
def setMomenta : List SInstr := [
  -- 71: p1.set_momentum(mom1)
  .setMom 0 0,
  -- 72: p2.set_momentum(mom2)
  .setMom 1 1,
  -- 73: p3.set_momentum(mom3)
  .setMom 2 2,
  -- 74: p4.set_momentum(mom4)
  .setMom 3 3,
  -- 76: s12s.update()
  .update 0,
  -- 77: a12a.update()
  .update 1,
  -- 78: s23s.update()
  .update 4,
  -- 79: a23a.update()
  .update 5,
  -- 80: s24s.update()
  .update 2,
  -- 81: a24a.update()
  .update 3,
  -- 82: s34s.update()
  .update 7,
  -- 83: a34a.update()
  .update 6,
  -- 84: s14s.update()
  .update 9,
  -- 85: a14a.update()
  .update 8,
  -- 86: s13s.update()
  .update 11,
  -- 87: a13a.update()
  .update 10,
  -- 94: pDenT=propW.denominator(propTP)
  .den .c 0 0 (.sub 0 2),
  -- 95: pDenU=propW.denominator(propUP)
  .den .c 1 0 (.sub 0 3)]

/-- `cdouble amp(ds1,ds2,ds3,ds4)` (SM/AZWW.cpp:101-146); variables: i 0 `ds1`, i 1 `ds2`, i 2 `ds3`, i 3 `ds4`, c 0 `amplitude`, i 4 `ds2a`, i 5 `ds2b`, i 6 `ds3a`, i 7 `ds3b`, i 8 `ds4a`, i 9 `ds4b`, i 10 `nCombs`, r 0 `normFactor`, i 11 `i` -/
def m_amp : Method := ⟨4, 
  -- 102: cdouble amplitude
  .seq (.set .c 0 (.ofR (.lit 0))) <|
  -- 106: int nCombs
  .seq (.seti 10 (.loops [1, 2, 3])) <|
  -- 107: ldouble normFactor
  .seq (.set .r 0 (.norm [1, 2, 3])) <|
  -- 109: for(int i=0;i<nCombs;i++)
  .seq (.loop 11 0 false (.var 10) 1 (
    -- 110: get_spinor_spins(ds2,ds2a,ds2b,ds3,ds3a,ds3b,ds4,ds4a,ds4b,i)
    .seq (.spins [(1, 4, 5), (2, 6, 7), (3, 8, 9)] (.var 11)) <|
    -- 112: if(ds1>0)
    .ite (.lt (.lit 0) (.var 0)) (
      -- 119: amplitude+=normFactor*pre*(+CW*CW*s12s.v(ds2a)*s12s.v(ds2b)*a34a.v(ds3a,ds4a)*a34a.v(ds3b,ds4b)+CW*CW*s13s.v(ds3a)*s13s.v(ds3b)*a24a.v(ds2a,ds4a)*a24a.v(ds2b,ds4b)+CW*CW*s14s.v(ds4a)*s14s.v(ds4b)*a23a.v(ds2a,ds3a)*a23a.v(ds2b,ds3b)+(CW*CW-SW*SW)*s13s.v(ds3a)*s14s.v(ds4a)*a23a.v(ds2a,ds3b)*a24a.v(ds2b,ds4b)-CW*s12s.v(ds2a)*s13s.v(ds3a)*a24a.v(ds2b,ds4a)*a34a.v(ds3b,ds4b)+CW*s12s.v(ds2a)*s14s.v(ds4a)*a23a.v(ds2b,ds3a)*a34a.v(ds3b,ds4b))/pDenT/pDenU
      .set .c 0 (.add (.loc .c 0) (.div (.div (.smul (.mul (.loc .r 0) (.mem .r 7)) (.add (.sub (.add (.add (.add (.mul (.mul (.mul (.smul (.mul (.mem .r 4) (.mem .r 4)) (.v 0 [.var 4])) (.v 0 [.var 5])) (.v 6 [.var 6, .var 8])) (.v 6 [.var 7, .var 9])) (.mul (.mul (.mul (.smul (.mul (.mem .r 4) (.mem .r 4)) (.v 11 [.var 6])) (.v 11 [.var 7])) (.v 3 [.var 4, .var 8])) (.v 3 [.var 5, .var 9]))) (.mul (.mul (.mul (.smul (.mul (.mem .r 4) (.mem .r 4)) (.v 9 [.var 8])) (.v 9 [.var 9])) (.v 5 [.var 4, .var 6])) (.v 5 [.var 5, .var 7]))) (.mul (.mul (.mul (.smul (.sub (.mul (.mem .r 4) (.mem .r 4)) (.mul (.mem .r 3) (.mem .r 3))) (.v 11 [.var 6])) (.v 9 [.var 8])) (.v 5 [.var 4, .var 7])) (.v 3 [.var 5, .var 9]))) (.mul (.mul (.mul (.smul (.mem .r 4) (.v 0 [.var 4])) (.v 11 [.var 6])) (.v 3 [.var 5, .var 8])) (.v 6 [.var 7, .var 9]))) (.mul (.mul (.mul (.smul (.mem .r 4) (.v 0 [.var 4])) (.v 9 [.var 8])) (.v 5 [.var 5, .var 6])) (.v 6 [.var 7, .var 9])))) (.mem .c 0)) (.mem .c 1)))) (
      -- 129: if(ds1<0)
      .ite (.lt (.var 0) (.lit 0)) (
        -- 130: amplitude+=normFactor*pre*(+CW*CW*a12a.v(ds2a)*a12a.v(ds2b)*s34s.v(ds3a,ds4a)*s34s.v(ds3b,ds4b)+CW*CW*a13a.v(ds3a)*a13a.v(ds3b)*s24s.v(ds2a,ds4a)*s24s.v(ds2b,ds4b)+CW*CW*a14a.v(ds4a)*a14a.v(ds4b)*s23s.v(ds2a,ds3a)*s23s.v(ds2b,ds3b)+(CW*CW-SW*SW)*a13a.v(ds3a)*a14a.v(ds4a)*s23s.v(ds2a,ds3b)*s24s.v(ds2b,ds4b)-CW*a12a.v(ds2a)*a13a.v(ds3a)*s24s.v(ds2b,ds4a)*s34s.v(ds3b,ds4b)+CW*a12a.v(ds2a)*a14a.v(ds4a)*s23s.v(ds2b,ds3a)*s34s.v(ds3b,ds4b))/pDenT/pDenU
        .set .c 0 (.add (.loc .c 0) (.div (.div (.smul (.mul (.loc .r 0) (.mem .r 7)) (.add (.sub (.add (.add (.add (.mul (.mul (.mul (.smul (.mul (.mem .r 4) (.mem .r 4)) (.v 1 [.var 4])) (.v 1 [.var 5])) (.v 7 [.var 6, .var 8])) (.v 7 [.var 7, .var 9])) (.mul (.mul (.mul (.smul (.mul (.mem .r 4) (.mem .r 4)) (.v 10 [.var 6])) (.v 10 [.var 7])) (.v 2 [.var 4, .var 8])) (.v 2 [.var 5, .var 9]))) (.mul (.mul (.mul (.smul (.mul (.mem .r 4) (.mem .r 4)) (.v 8 [.var 8])) (.v 8 [.var 9])) (.v 4 [.var 4, .var 6])) (.v 4 [.var 5, .var 7]))) (.mul (.mul (.mul (.smul (.sub (.mul (.mem .r 4) (.mem .r 4)) (.mul (.mem .r 3) (.mem .r 3))) (.v 10 [.var 6])) (.v 8 [.var 8])) (.v 4 [.var 4, .var 7])) (.v 2 [.var 5, .var 9]))) (.mul (.mul (.mul (.smul (.mem .r 4) (.v 1 [.var 4])) (.v 10 [.var 6])) (.v 2 [.var 5, .var 8])) (.v 7 [.var 7, .var 9]))) (.mul (.mul (.mul (.smul (.mem .r 4) (.v 1 [.var 4])) (.v 8 [.var 8])) (.v 4 [.var 5, .var 6])) (.v 7 [.var 7, .var 9])))) (.mem .c 0)) (.mem .c 1)))) (
        .skip)))) <|
  -- 145: return amplitude
  .ret .c (.loc .c 0)⟩

/-- `ldouble amp2()` (SM/AZWW.cpp:149-163); variables: r 0 `amp2`, c 0 `M`, i 0 `j1`, i 1 `j2`, i 2 `j3`, i 3 `j4` -/
def m_amp2 : Method := ⟨0, 
  -- 150: ldouble amp2
  .seq (.set .r 0 (.lit 0)) <|
  -- 151: cdouble M
  .seq (.set .c 0 (.ofR (.lit 0))) <|
  -- 154: for(int j1=-2;j1<=2;j1+=4)
  .seq (.loop 0 (-2) true (.lit 2) 4 (
    -- 155: for(int j2=-2;j2<=2;j2+=2)
    .loop 1 (-2) true (.lit 2) 2 (
      -- 156: for(int j3=-2;j3<=2;j3+=2)
      .loop 2 (-2) true (.lit 2) 2 (
        -- 157: for(int j4=-2;j4<=2;j4+=2)
        .loop 3 (-2) true (.lit 2) 2 (
          -- 158: M=amp(j1,j2,j3,j4)
          .seq (.set .c 0 (.call 0 [.var 0, .var 1, .var 2, .var 3])) <|
          -- 159: amp2+=std::pow(std::abs(M),2)
          .set .r 0 (.add (.loc .r 0) (.pow (.abs (.loc .c 0)) 2))))))) <|
  -- 162: return amp2/6.0
  .ret .r (.div (.loc .r 0) (.lit 6))⟩

/-- `ldouble amp2_Aplus()` (SM/AZWW.cpp:166-179); variables: r 0 `amp2`, c 0 `M`, i 0 `j2`, i 1 `j3`, i 2 `j4` -/
def m_amp2_Aplus : Method := ⟨0, 
  -- 167: ldouble amp2
  .seq (.set .r 0 (.lit 0)) <|
  -- 168: cdouble M
  .seq (.set .c 0 (.ofR (.lit 0))) <|
  -- 171: for(int j2=-2;j2<=2;j2+=2)
  .seq (.loop 0 (-2) true (.lit 2) 2 (
    -- 172: for(int j3=-2;j3<=2;j3+=2)
    .loop 1 (-2) true (.lit 2) 2 (
      -- 173: for(int j4=-2;j4<=2;j4+=2)
      .loop 2 (-2) true (.lit 2) 2 (
        -- 174: M=amp(2,j2,j3,j4)
        .seq (.set .c 0 (.call 0 [.lit 2, .var 0, .var 1, .var 2])) <|
        -- 175: amp2+=std::pow(std::abs(M),2)
        .set .r 0 (.add (.loc .r 0) (.pow (.abs (.loc .c 0)) 2)))))) <|
  -- 178: return amp2/3.0
  .ret .r (.div (.loc .r 0) (.lit 3))⟩

end AZWW

/-- `class AZWW` (SM/AZWW.cpp, SM/include/AZWW.h:25-34).  Members:
* ldouble: 0 `e`, 1 `MW`, 2 `MZ`, 3 `SW`, 4 `CW`, 5 `WW`, 6 `sqrt2`, 7 `pre`
* cdouble: 0 `pDenT`, 1 `pDenU`
* propagator: 0 `propW`
* sproduct: 0 `s12s`, 1 `a12a`, 2 `s24s`, 3 `a24a`, 4 `s23s`, 5 `a23a`, 6 `a34a`, 7 `s34s`, 8 `a14a`, 9 `s14s`, 10 `a13a`, 11 `s13s` -/
def AZWW : Proc where
  name := "AZWW"
  nPar := 4
  ctor := AZWW.ctor
  setMasses := AZWW.setMasses
  massPar := [1]
  setMomenta := AZWW.setMomenta
  methods := [AZWW.m_amp2_Aplus, AZWW.m_amp2, AZWW.m_amp]
  amp2 := 1
  others := [("amp2_Aplus", 2)]

namespace AZdd

/-- constructor (SM/AZdd.cpp:32-59); parameters: 0 `echarge`, 1 `massd`, 2 `massW`, 3 `sinW` -/
def ctor : List SInstr := [
  -- 32: e(echarge)
  .set .r 0 (.loc .r 0),
  -- 32: Qd(-1.0/3.0)
  .set .r 1 (.div (.neg (.lit 1)) (.lit 3)),
  -- 32: md(massd)
  .set .r 2 (.loc .r 1),
  -- 32: MW(massW)
  .set .r 3 (.loc .r 2),
  -- 32: SW(sinW)
  .set .r 4 (.loc .r 3),
  -- 32: CW(std::sqrt(1.0-sinW*sinW))
  .set .r 5 (.sqrt (.sub (.lit 1) (.mul (.loc .r 3) (.loc .r 3)))),
  -- 32: MZ(massW/CW)
  .set .r 6 (.div (.loc .r 2) (.mem .r 5)),
  -- 32: prope(massd,0)
  .prop 0 (.loc .r 1) (.lit 0),
  -- 35: sqrt2=std::sqrt(two)
  .set .r 7 (.sqrt (.lit 2)),
  -- 36: MZ=MW/CW
  .set .r 6 (.div (.mem .r 3) (.mem .r 5)),
  -- 37: p1=particle(0)
  .part 0 (.lit 0),
  -- 38: p2=particle(MZ)
  .part 1 (.mem .r 6),
  -- 39: p3=particle(md)
  .part 2 (.mem .r 2),
  -- 40: p4=particle(md)
  .part 3 (.mem .r 2),
  -- 42: s12s=sproduct(SQUARE,&p1,&p2)
  .sprod 0 ⟨false, 0, true, [], 1, true⟩,
  -- 43: a12a=sproduct(ANGLE,&p1,&p2)
  .sprod 1 ⟨true, 0, true, [], 1, true⟩,
  -- 44: s23s=sproduct(SQUARE,&p2,&p3)
  .sprod 2 ⟨false, 1, true, [], 2, true⟩,
  -- 45: a23a=sproduct(ANGLE,&p2,&p3)
  .sprod 3 ⟨true, 1, true, [], 2, true⟩,
  -- 46: s13s=sproduct(SQUARE,&p1,&p3)
  .sprod 4 ⟨false, 0, true, [], 2, true⟩,
  -- 47: a13a=sproduct(ANGLE,&p1,&p3)
  .sprod 5 ⟨true, 0, true, [], 2, true⟩,
  -- 48: s24s=sproduct(SQUARE,&p2,&p4)
  .sprod 6 ⟨false, 1, true, [], 3, true⟩,
  -- 49: a24a=sproduct(ANGLE,&p2,&p4)
  .sprod 7 ⟨true, 1, true, [], 3, true⟩,
  -- 50: s14s=sproduct(SQUARE,&p1,&p4)
  .sprod 8 ⟨false, 0, true, [], 3, true⟩,
  -- 51: a14a=sproduct(ANGLE,&p1,&p4)
  .sprod 9 ⟨true, 0, true, [], 3, true⟩,
  -- 53: s1341s=sproduct(SQUARE,&p1,&p3,&p4,&p1)
  .sprod 10 ⟨false, 0, true, [2, 3], 0, true⟩,
  -- 54: a1341a=sproduct(ANGLE,&p1,&p3,&p4,&p1)
  .sprod 11 ⟨true, 0, true, [2, 3], 0, true⟩,
  -- 56: preTU=2.0*e*e*Qd/(2.0*MW*SW)
  .set .r 8 (.div (.mul (.mul (.mul (.lit 2) (.mem .r 0)) (.mem .r 0)) (.mem .r 1)) (.mul (.mul (.lit 2) (.mem .r 3)) (.mem .r 4))),
  -- 57: gL=-2.0*Qd*SW*SW-1.0
  .set .r 10 (.sub (.mul (.mul (.mul (.neg (.lit 2)) (.mem .r 1)) (.mem .r 4)) (.mem .r 4)) (.lit 1)),
  -- 58: gR=-2.0*Qd*SW*SW
  .set .r 11 (.mul (.mul (.mul (.neg (.lit 2)) (.mem .r 1)) (.mem .r 4)) (.mem .r 4))]

/-- `set_masses` (SM/AZdd.cpp:60-71); parameters: 0 `massd`, 1 `massW` -/
def setMasses : List SInstr := [
  -- 61: md=massd
  .set .r 2 (.loc .r 0),
  -- 62: MW=massW
  .set .r 3 (.loc .r 1),
  -- 63: MZ=MW/CW
  .set .r 6 (.div (.mem .r 3) (.mem .r 5)),
  -- 64: p1.set_mass(0)
  .setMass 0 (.lit 0),
  -- 65: p2.set_mass(MZ)
  .setMass 1 (.mem .r 6),
  -- 66: p3.set_mass(md)
  .setMass 2 (.mem .r 2),
  -- 67: p4.set_mass(md)
  .setMass 3 (.mem .r 2),
  -- 68: prope.set_mass(md)
  .propMass 0 (.mem .r 2),
  -- 70: preTU=2.0*e*e*Qd/(2.0*MW*SW)
  .set .r 8 (.div (.mul (.mul (.mul (.lit 2) (.mem .r 0)) (.mem .r 0)) (.mem .r 1)) (.mul (.mul (.lit 2) (.mem .r 3)) (.mem .r 4)))]

/-- `set_momenta` (SM/AZdd.cpp:72-100); parameters: 0 `mom1`, 1 `mom2`, 2 `mom3`, 3 `mom4` -/
def setMomenta : List SInstr := [
  -- 74: p1.set_momentum(mom1)
  .setMom 0 0,
  -- 75: p2.set_momentum(mom2)
  .setMom 1 1,
  -- 76: p3.set_momentum(mom3)
  .setMom 2 2,
  -- 77: p4.set_momentum(mom4)
  .setMom 3 3,
  -- 79: s12s.update()
  .update 0,
  -- 80: a12a.update()
  .update 1,
  -- 81: s23s.update()
  .update 2,
  -- 82: a23a.update()
  .update 3,
  -- 83: s13s.update()
  .update 4,
  -- 84: a13a.update()
  .update 5,
  -- 85: s24s.update()
  .update 6,
  -- 86: a24a.update()
  .update 7,
  -- 87: s14s.update()
  .update 8,
  -- 88: a14a.update()
  .update 9,
  -- 90: s1341s.update()
  .update 10,
  -- 91: a1341a.update()
  .update 11,
  -- 98: pDenT=prope.denominator(propTP)
  .den .c 0 0 (.sub 0 2),
  -- 99: pDenU=prope.denominator(propUP)
  .den .c 1 0 (.sub 0 3)]

/-- `cdouble amp(ds1,ds2,ds3,ds4)` (SM/AZdd.cpp:105-149); variables: i 0 `ds1`, i 1 `ds2`, i 2 `ds3`, i 3 `ds4`, c 0 `amplitude`, i 4 `ds2a`, i 5 `ds2b`, i 6 `nCombs`, r 0 `normFactor`, i 7 `i` -/
def m_amp : Method := ⟨4, 
  -- 106: cdouble amplitude
  .seq (.set .c 0 (.ofR (.lit 0))) <|
  -- 111: int nCombs
  .seq (.seti 6 (.loops [1])) <|
  -- 112: ldouble normFactor
  .seq (.set .r 0 (.norm [1])) <|
  -- 113: for(int i=0;i<nCombs;i++)
  .seq (.loop 7 0 false (.var 6) 1 (
    -- 114: get_spinor_spins(ds2,ds2a,ds2b,i)
    .seq (.spins [(1, 4, 5)] (.var 7)) <|
    -- 116: if(ds1>0)
    .ite (.lt (.lit 0) (.var 0)) (
      -- 125: amplitude+=normFactor*preTU*s1341s.v()*(gR*s24s.v(ds2a,ds4)*a23a.v(ds2b,ds3)+gL*s23s.v(ds2a,ds3)*a24a.v(ds2b,ds4))/pDenT/pDenU
      .seq (.set .c 0 (.add (.loc .c 0) (.div (.div (.mul (.smul (.mul (.loc .r 0) (.mem .r 8)) (.v 10 [])) (.add (.mul (.smul (.mem .r 11) (.v 6 [.var 4, .var 3])) (.v 3 [.var 5, .var 2])) (.mul (.smul (.mem .r 10) (.v 2 [.var 4, .var 2])) (.v 7 [.var 5, .var 3])))) (.mem .c 0)) (.mem .c 1)))) <|
      -- 126: amplitude+=normFactor*preTU*s12s.v(ds2a)*(gR*s14s.v(ds4)*a23a.v(ds2b,ds3)/pDenU-gL*s13s.v(ds3)*a24a.v(ds2b,ds4)/pDenT)
      .set .c 0 (.add (.loc .c 0) (.mul (.smul (.mul (.loc .r 0) (.mem .r 8)) (.v 0 [.var 4])) (.sub (.div (.mul (.smul (.mem .r 11) (.v 8 [.var 3])) (.v 3 [.var 5, .var 2])) (.mem .c 1)) (.div (.mul (.smul (.mem .r 10) (.v 4 [.var 2])) (.v 7 [.var 5, .var 3])) (.mem .c 0)))))) (
      -- 130: if(ds1<0)
      .ite (.lt (.var 0) (.lit 0)) (
        -- 139: amplitude+=normFactor*preTU*a1341a.v()*(gR*s24s.v(ds2a,ds4)*a23a.v(ds2b,ds3)+gL*s23s.v(ds2a,ds3)*a24a.v(ds2b,ds4))/pDenT/pDenU
        .seq (.set .c 0 (.add (.loc .c 0) (.div (.div (.mul (.smul (.mul (.loc .r 0) (.mem .r 8)) (.v 11 [])) (.add (.mul (.smul (.mem .r 11) (.v 6 [.var 4, .var 3])) (.v 3 [.var 5, .var 2])) (.mul (.smul (.mem .r 10) (.v 2 [.var 4, .var 2])) (.v 7 [.var 5, .var 3])))) (.mem .c 0)) (.mem .c 1)))) <|
        -- 140: amplitude+=normFactor*preTU*a12a.v(ds2a)*(gL*a14a.v(ds4)*s23s.v(ds2b,ds3)/pDenU-gR*a13a.v(ds3)*s24s.v(ds2b,ds4)/pDenT)
        .set .c 0 (.add (.loc .c 0) (.mul (.smul (.mul (.loc .r 0) (.mem .r 8)) (.v 1 [.var 4])) (.sub (.div (.mul (.smul (.mem .r 10) (.v 9 [.var 3])) (.v 2 [.var 5, .var 2])) (.mem .c 1)) (.div (.mul (.smul (.mem .r 11) (.v 5 [.var 2])) (.v 6 [.var 5, .var 3])) (.mem .c 0)))))) (
        .skip)))) <|
  -- 148: return amplitude
  .ret .c (.loc .c 0)⟩

/-- `ldouble amp2()` (SM/AZdd.cpp:152-166); variables: r 0 `amp2`, c 0 `M`, i 0 `j1`, i 1 `j2`, i 2 `j3`, i 3 `j4` -/
def m_amp2 : Method := ⟨0, 
  -- 153: ldouble amp2
  .seq (.set .r 0 (.lit 0)) <|
  -- 154: cdouble M
  .seq (.set .c 0 (.ofR (.lit 0))) <|
  -- 157: for(int j1=-2;j1<=2;j1+=4)
  .seq (.loop 0 (-2) true (.lit 2) 4 (
    -- 158: for(int j2=-2;j2<=2;j2+=2)
    .loop 1 (-2) true (.lit 2) 2 (
      -- 159: for(int j3=-1;j3<=1;j3+=2)
      .loop 2 (-1) true (.lit 1) 2 (
        -- 160: for(int j4=-1;j4<=1;j4+=2)
        .loop 3 (-1) true (.lit 1) 2 (
          -- 161: M=amp(j1,j2,j3,j4)
          .seq (.set .c 0 (.call 0 [.var 0, .var 1, .var 2, .var 3])) <|
          -- 162: amp2+=3.0*std::pow(std::abs(M),2)
          .set .r 0 (.add (.loc .r 0) (.mul (.lit 3) (.pow (.abs (.loc .c 0)) 2)))))))) <|
  -- 165: return amp2/6.0
  .ret .r (.div (.loc .r 0) (.lit 6))⟩

/-- `ldouble amp2_Aplus()` (SM/AZdd.cpp:168-181); variables: r 0 `amp2`, c 0 `M`, i 0 `j2`, i 1 `j3`, i 2 `j4` -/
def m_amp2_Aplus : Method := ⟨0, 
  -- 169: ldouble amp2
  .seq (.set .r 0 (.lit 0)) <|
  -- 170: cdouble M
  .seq (.set .c 0 (.ofR (.lit 0))) <|
  -- 173: for(int j2=-2;j2<=2;j2+=2)
  .seq (.loop 0 (-2) true (.lit 2) 2 (
    -- 174: for(int j3=-1;j3<=1;j3+=2)
    .loop 1 (-1) true (.lit 1) 2 (
      -- 175: for(int j4=-1;j4<=1;j4+=2)
      .loop 2 (-1) true (.lit 1) 2 (
        -- 176: M=amp(2,j2,j3,j4)
        .seq (.set .c 0 (.call 0 [.lit 2, .var 0, .var 1, .var 2])) <|
        -- 177: amp2+=3.0*std::pow(std::abs(M),2)
        .set .r 0 (.add (.loc .r 0) (.mul (.lit 3) (.pow (.abs (.loc .c 0)) 2))))))) <|
  -- 180: return amp2/3.0
  .ret .r (.div (.loc .r 0) (.lit 3))⟩

/-- `ldouble amp2_Aminus()` (SM/AZdd.cpp:183-196); variables: r 0 `amp2`, c 0 `M`, i 0 `j2`, i 1 `j3`, i 2 `j4` -/
def m_amp2_Aminus : Method := ⟨0, 
  -- 184: ldouble amp2
  .seq (.set .r 0 (.lit 0)) <|
  -- 185: cdouble M
  .seq (.set .c 0 (.ofR (.lit 0))) <|
  -- 188: for(int j2=-2;j2<=2;j2+=2)
  .seq (.loop 0 (-2) true (.lit 2) 2 (
    -- 189: for(int j3=-1;j3<=1;j3+=2)
    .loop 1 (-1) true (.lit 1) 2 (
      -- 190: for(int j4=-1;j4<=1;j4+=2)
      .loop 2 (-1) true (.lit 1) 2 (
        -- 191: M=amp(-2,j2,j3,j4)
        .seq (.set .c 0 (.call 0 [.lit (-2), .var 0, .var 1, .var 2])) <|
        -- 192: amp2+=3.0*std::pow(std::abs(M),2)
        .set .r 0 (.add (.loc .r 0) (.mul (.lit 3) (.pow (.abs (.loc .c 0)) 2))))))) <|
  -- 195: return amp2/3.0
  .ret .r (.div (.loc .r 0) (.lit 3))⟩

end AZdd

/-- `class AZdd` (SM/AZdd.cpp, SM/include/AZdd.h:25-36).  Members:
* ldouble: 0 `e`, 1 `Qd`, 2 `md`, 3 `MW`, 4 `SW`, 5 `CW`, 6 `MZ`, 7 `sqrt2`, 8 `preTU`, 9 `preh`, 10 `gL`, 11 `gR`
* cdouble: 0 `pDenT`, 1 `pDenU`
* propagator: 0 `prope`
* sproduct: 0 `s12s`, 1 `a12a`, 2 `s23s`, 3 `a23a`, 4 `s13s`, 5 `a13a`, 6 `s24s`, 7 `a24a`, 8 `s14s`, 9 `a14a`, 10 `s1341s`, 11 `a1341a` -/
def AZdd : Proc where
  name := "AZdd"
  nPar := 4
  ctor := AZdd.ctor
  setMasses := AZdd.setMasses
  massPar := [1, 2]
  setMomenta := AZdd.setMomenta
  methods := [AZdd.m_amp2_Aminus, AZdd.m_amp2_Aplus, AZdd.m_amp2, AZdd.m_amp]
  amp2 := 1
  others := [("amp2_Aplus", 2), ("amp2_Aminus", 3)]

namespace AZee

/-- constructor (SM/AZee.cpp:32-59); parameters: 0 `echarge`, 1 `masse`, 2 `massW`, 3 `sinW` -/
def ctor : List SInstr := [
  -- 32: e(echarge)
  .set .r 0 (.loc .r 0),
  -- 32: me(masse)
  .set .r 1 (.loc .r 1),
  -- 32: MW(massW)
  .set .r 2 (.loc .r 2),
  -- 32: SW(sinW)
  .set .r 3 (.loc .r 3),
  -- 32: CW(std::sqrt(1.0-sinW*sinW))
  .set .r 4 (.sqrt (.sub (.lit 1) (.mul (.loc .r 3) (.loc .r 3)))),
  -- 32: MZ(massW/CW)
  .set .r 5 (.div (.loc .r 2) (.mem .r 4)),
  -- 32: prope(masse,0)
  .prop 0 (.loc .r 1) (.lit 0),
  -- 35: sqrt2=std::sqrt(two)
  .set .r 6 (.sqrt (.lit 2)),
  -- 36: MZ=MW/CW
  .set .r 5 (.div (.mem .r 2) (.mem .r 4)),
  -- 37: p1=particle(0)
  .part 0 (.lit 0),
  -- 38: p2=particle(MZ)
  .part 1 (.mem .r 5),
  -- 39: p3=particle(me)
  .part 2 (.mem .r 1),
  -- 40: p4=particle(me)
  .part 3 (.mem .r 1),
  -- 42: s12s=sproduct(SQUARE,&p1,&p2)
  .sprod 0 ⟨false, 0, true, [], 1, true⟩,
  -- 43: a12a=sproduct(ANGLE,&p1,&p2)
  .sprod 1 ⟨true, 0, true, [], 1, true⟩,
  -- 44: s23s=sproduct(SQUARE,&p2,&p3)
  .sprod 2 ⟨false, 1, true, [], 2, true⟩,
  -- 45: a23a=sproduct(ANGLE,&p2,&p3)
  .sprod 3 ⟨true, 1, true, [], 2, true⟩,
  -- 46: s13s=sproduct(SQUARE,&p1,&p3)
  .sprod 4 ⟨false, 0, true, [], 2, true⟩,
  -- 47: a13a=sproduct(ANGLE,&p1,&p3)
  .sprod 5 ⟨true, 0, true, [], 2, true⟩,
  -- 48: s24s=sproduct(SQUARE,&p2,&p4)
  .sprod 6 ⟨false, 1, true, [], 3, true⟩,
  -- 49: a24a=sproduct(ANGLE,&p2,&p4)
  .sprod 7 ⟨true, 1, true, [], 3, true⟩,
  -- 50: s14s=sproduct(SQUARE,&p1,&p4)
  .sprod 8 ⟨false, 0, true, [], 3, true⟩,
  -- 51: a14a=sproduct(ANGLE,&p1,&p4)
  .sprod 9 ⟨true, 0, true, [], 3, true⟩,
  -- 53: s1341s=sproduct(SQUARE,&p1,&p3,&p4,&p1)
  .sprod 10 ⟨false, 0, true, [2, 3], 0, true⟩,
  -- 54: a1341a=sproduct(ANGLE,&p1,&p3,&p4,&p1)
  .sprod 11 ⟨true, 0, true, [2, 3], 0, true⟩,
  -- 56: preTU=2.0*e*e/(2.0*MW*SW)
  .set .r 7 (.div (.mul (.mul (.lit 2) (.mem .r 0)) (.mem .r 0)) (.mul (.mul (.lit 2) (.mem .r 2)) (.mem .r 3))),
  -- 57: gL=2.0*SW*SW-1.0
  .set .r 9 (.sub (.mul (.mul (.lit 2) (.mem .r 3)) (.mem .r 3)) (.lit 1)),
  -- 58: gR=2.0*SW*SW
  .set .r 10 (.mul (.mul (.lit 2) (.mem .r 3)) (.mem .r 3))]

/-- `set_masses` (SM/AZee.cpp:60-71); parameters: 0 `masse`, 1 `massW` -/
def setMasses : List SInstr := [
  -- 61: me=masse
  .set .r 1 (.loc .r 0),
  -- 62: MW=massW
  .set .r 2 (.loc .r 1),
  -- 63: MZ=MW/CW
  .set .r 5 (.div (.mem .r 2) (.mem .r 4)),
  -- 64: p1.set_mass(0)
  .setMass 0 (.lit 0),
  -- 65: p2.set_mass(MZ)
  .setMass 1 (.mem .r 5),
  -- 66: p3.set_mass(me)
  .setMass 2 (.mem .r 1),
  -- 67: p4.set_mass(me)
  .setMass 3 (.mem .r 1),
  -- 68: prope.set_mass(me)
  .propMass 0 (.mem .r 1),
  -- 70: preTU=2.0*e*e/(2.0*MW*SW)
  .set .r 7 (.div (.mul (.mul (.lit 2) (.mem .r 0)) (.mem .r 0)) (.mul (.mul (.lit 2) (.mem .r 2)) (.mem .r 3)))]

/-- `set_momenta` (SM/AZee.cpp:72-100); parameters: 0 `mom1`, 1 `mom2`, 2 `mom3`, 3 `mom4` -/
def setMomenta : List SInstr := [
  -- 74: p1.set_momentum(mom1)
  .setMom 0 0,
  -- 75: p2.set_momentum(mom2)
  .setMom 1 1,
  -- 76: p3.set_momentum(mom3)
  .setMom 2 2,
  -- 77: p4.set_momentum(mom4)
  .setMom 3 3,
  -- 79: s12s.update()
  .update 0,
  -- 80: a12a.update()
  .update 1,
  -- 81: s23s.update()
  .update 2,
  -- 82: a23a.update()
  .update 3,
  -- 83: s13s.update()
  .update 4,
  -- 84: a13a.update()
  .update 5,
  -- 85: s24s.update()
  .update 6,
  -- 86: a24a.update()
  .update 7,
  -- 87: s14s.update()
  .update 8,
  -- 88: a14a.update()
  .update 9,
  -- 90: s1341s.update()
  .update 10,
  -- 91: a1341a.update()
  .update 11,
  -- 98: pDenT=prope.denominator(propTP)
  .den .c 0 0 (.sub 0 2),
  -- 99: pDenU=prope.denominator(propUP)
  .den .c 1 0 (.sub 0 3)]

/-- `cdouble amp(ds1,ds2,ds3,ds4)` (SM/AZee.cpp:105-149); variables: i 0 `ds1`, i 1 `ds2`, i 2 `ds3`, i 3 `ds4`, c 0 `amplitude`, i 4 `ds2a`, i 5 `ds2b`, i 6 `nCombs`, r 0 `normFactor`, i 7 `i` -/
def m_amp : Method := ⟨4, 
  -- 106: cdouble amplitude
  .seq (.set .c 0 (.ofR (.lit 0))) <|
  -- 111: int nCombs
  .seq (.seti 6 (.loops [1])) <|
  -- 112: ldouble normFactor
  .seq (.set .r 0 (.norm [1])) <|
  -- 113: for(int i=0;i<nCombs;i++)
  .seq (.loop 7 0 false (.var 6) 1 (
    -- 114: get_spinor_spins(ds2,ds2a,ds2b,i)
    .seq (.spins [(1, 4, 5)] (.var 7)) <|
    -- 116: if(ds1>0)
    .ite (.lt (.lit 0) (.var 0)) (
      -- 125: amplitude+=normFactor*preTU*s1341s.v()*(gR*s24s.v(ds2a,ds4)*a23a.v(ds2b,ds3)+gL*s23s.v(ds2a,ds3)*a24a.v(ds2b,ds4))/pDenT/pDenU
      .seq (.set .c 0 (.add (.loc .c 0) (.div (.div (.mul (.smul (.mul (.loc .r 0) (.mem .r 7)) (.v 10 [])) (.add (.mul (.smul (.mem .r 10) (.v 6 [.var 4, .var 3])) (.v 3 [.var 5, .var 2])) (.mul (.smul (.mem .r 9) (.v 2 [.var 4, .var 2])) (.v 7 [.var 5, .var 3])))) (.mem .c 0)) (.mem .c 1)))) <|
      -- 126: amplitude+=normFactor*preTU*s12s.v(ds2a)*(gR*s14s.v(ds4)*a23a.v(ds2b,ds3)/pDenU-gL*s13s.v(ds3)*a24a.v(ds2b,ds4)/pDenT)
      .set .c 0 (.add (.loc .c 0) (.mul (.smul (.mul (.loc .r 0) (.mem .r 7)) (.v 0 [.var 4])) (.sub (.div (.mul (.smul (.mem .r 10) (.v 8 [.var 3])) (.v 3 [.var 5, .var 2])) (.mem .c 1)) (.div (.mul (.smul (.mem .r 9) (.v 4 [.var 2])) (.v 7 [.var 5, .var 3])) (.mem .c 0)))))) (
      -- 130: if(ds1<0)
      .ite (.lt (.var 0) (.lit 0)) (
        -- 139: amplitude+=normFactor*preTU*a1341a.v()*(gR*s24s.v(ds2a,ds4)*a23a.v(ds2b,ds3)+gL*s23s.v(ds2a,ds3)*a24a.v(ds2b,ds4))/pDenT/pDenU
        .seq (.set .c 0 (.add (.loc .c 0) (.div (.div (.mul (.smul (.mul (.loc .r 0) (.mem .r 7)) (.v 11 [])) (.add (.mul (.smul (.mem .r 10) (.v 6 [.var 4, .var 3])) (.v 3 [.var 5, .var 2])) (.mul (.smul (.mem .r 9) (.v 2 [.var 4, .var 2])) (.v 7 [.var 5, .var 3])))) (.mem .c 0)) (.mem .c 1)))) <|
        -- 140: amplitude+=normFactor*preTU*a12a.v(ds2a)*(gL*a14a.v(ds4)*s23s.v(ds2b,ds3)/pDenU-gR*a13a.v(ds3)*s24s.v(ds2b,ds4)/pDenT)
        .set .c 0 (.add (.loc .c 0) (.mul (.smul (.mul (.loc .r 0) (.mem .r 7)) (.v 1 [.var 4])) (.sub (.div (.mul (.smul (.mem .r 9) (.v 9 [.var 3])) (.v 2 [.var 5, .var 2])) (.mem .c 1)) (.div (.mul (.smul (.mem .r 10) (.v 5 [.var 2])) (.v 6 [.var 5, .var 3])) (.mem .c 0)))))) (
        .skip)))) <|
  -- 148: return amplitude
  .ret .c (.loc .c 0)⟩

/-- `ldouble amp2()` (SM/AZee.cpp:152-166); variables: r 0 `amp2`, c 0 `M`, i 0 `j1`, i 1 `j2`, i 2 `j3`, i 3 `j4` -/
def m_amp2 : Method := ⟨0, 
  -- 153: ldouble amp2
  .seq (.set .r 0 (.lit 0)) <|
  -- 154: cdouble M
  .seq (.set .c 0 (.ofR (.lit 0))) <|
  -- 157: for(int j1=-2;j1<=2;j1+=4)
  .seq (.loop 0 (-2) true (.lit 2) 4 (
    -- 158: for(int j2=-2;j2<=2;j2+=2)
    .loop 1 (-2) true (.lit 2) 2 (
      -- 159: for(int j3=-1;j3<=1;j3+=2)
      .loop 2 (-1) true (.lit 1) 2 (
        -- 160: for(int j4=-1;j4<=1;j4+=2)
        .loop 3 (-1) true (.lit 1) 2 (
          -- 161: M=amp(j1,j2,j3,j4)
          .seq (.set .c 0 (.call 0 [.var 0, .var 1, .var 2, .var 3])) <|
          -- 162: amp2+=std::pow(std::abs(M),2)
          .set .r 0 (.add (.loc .r 0) (.pow (.abs (.loc .c 0)) 2))))))) <|
  -- 165: return amp2/6.0
  .ret .r (.div (.loc .r 0) (.lit 6))⟩

/-- `ldouble amp2_Aplus()` (SM/AZee.cpp:168-181); variables: r 0 `amp2`, c 0 `M`, i 0 `j2`, i 1 `j3`, i 2 `j4` -/
def m_amp2_Aplus : Method := ⟨0, 
  -- 169: ldouble amp2
  .seq (.set .r 0 (.lit 0)) <|
  -- 170: cdouble M
  .seq (.set .c 0 (.ofR (.lit 0))) <|
  -- 173: for(int j2=-2;j2<=2;j2+=2)
  .seq (.loop 0 (-2) true (.lit 2) 2 (
    -- 174: for(int j3=-1;j3<=1;j3+=2)
    .loop 1 (-1) true (.lit 1) 2 (
      -- 175: for(int j4=-1;j4<=1;j4+=2)
      .loop 2 (-1) true (.lit 1) 2 (
        -- 176: M=amp(2,j2,j3,j4)
        .seq (.set .c 0 (.call 0 [.lit 2, .var 0, .var 1, .var 2])) <|
        -- 177: amp2+=std::pow(std::abs(M),2)
        .set .r 0 (.add (.loc .r 0) (.pow (.abs (.loc .c 0)) 2)))))) <|
  -- 180: return amp2/3.0
  .ret .r (.div (.loc .r 0) (.lit 3))⟩

/-- `ldouble amp2_Aminus()` (SM/AZee.cpp:183-196); variables: r 0 `amp2`, c 0 `M`, i 0 `j2`, i 1 `j3`, i 2 `j4` -/
def m_amp2_Aminus : Method := ⟨0, 
  -- 184: ldouble amp2
  .seq (.set .r 0 (.lit 0)) <|
  -- 185: cdouble M
  .seq (.set .c 0 (.ofR (.lit 0))) <|
  -- 188: for(int j2=-2;j2<=2;j2+=2)
  .seq (.loop 0 (-2) true (.lit 2) 2 (
    -- 189: for(int j3=-1;j3<=1;j3+=2)
    .loop 1 (-1) true (.lit 1) 2 (
      -- 190: for(int j4=-1;j4<=1;j4+=2)
      .loop 2 (-1) true (.lit 1) 2 (
        -- 191: M=amp(-2,j2,j3,j4)
        .seq (.set .c 0 (.call 0 [.lit (-2), .var 0, .var 1, .var 2])) <|
        -- 192: amp2+=std::pow(std::abs(M),2)
        .set .r 0 (.add (.loc .r 0) (.pow (.abs (.loc .c 0)) 2)))))) <|
  -- 195: return amp2/3.0
  .ret .r (.div (.loc .r 0) (.lit 3))⟩

end AZee

/-- `class AZee` (SM/AZee.cpp, SM/include/AZee.h:25-36).  Members:
* ldouble: 0 `e`, 1 `me`, 2 `MW`, 3 `SW`, 4 `CW`, 5 `MZ`, 6 `sqrt2`, 7 `preTU`, 8 `preh`, 9 `gL`, 10 `gR`
* cdouble: 0 `pDenT`, 1 `pDenU`
* propagator: 0 `prope`
* sproduct: 0 `s12s`, 1 `a12a`, 2 `s23s`, 3 `a23a`, 4 `s13s`, 5 `a13a`, 6 `s24s`, 7 `a24a`, 8 `s14s`, 9 `a14a`, 10 `s1341s`, 11 `a1341a` -/
def AZee : Proc where
  name := "AZee"
  nPar := 4
  ctor := AZee.ctor
  setMasses := AZee.setMasses
  massPar := [1, 2]
  setMomenta := AZee.setMomenta
  methods := [AZee.m_amp2_Aminus, AZee.m_amp2_Aplus, AZee.m_amp2, AZee.m_amp]
  amp2 := 1
  others := [("amp2_Aplus", 2), ("amp2_Aminus", 3)]

namespace AZuu

/-- constructor (SM/AZuu.cpp:32-64); parameters: 0 `echarge`, 1 `massu`, 2 `massW`, 3 `sinW` -/
def ctor : List SInstr := [
  -- 32: e(echarge)
  .set .r 0 (.loc .r 0),
  -- 32: Qu(2.0/3.0)
  .set .r 1 (.div (.lit 2) (.lit 3)),
  -- 32: mu(massu)
  .set .r 2 (.loc .r 1),
  -- 32: MW(massW)
  .set .r 3 (.loc .r 2),
  -- 32: SW(sinW)
  .set .r 4 (.loc .r 3),
  -- 32: CW(std::sqrt(1.0-sinW*sinW))
  .set .r 5 (.sqrt (.sub (.lit 1) (.mul (.loc .r 3) (.loc .r 3)))),
  -- 32: MZ(massW/CW)
  .set .r 6 (.div (.loc .r 2) (.mem .r 5)),
  -- 32: prope(massu,0)
  .prop 0 (.loc .r 1) (.lit 0),
  -- 35: sqrt2=std::sqrt(two)
  .set .r 7 (.sqrt (.lit 2)),
  -- 36: MZ=MW/CW
  .set .r 6 (.div (.mem .r 3) (.mem .r 5)),
  -- 37: p1=particle(0)
  .part 0 (.lit 0),
  -- 38: p2=particle(MZ)
  .part 1 (.mem .r 6),
  -- 39: p3=particle(mu)
  .part 2 (.mem .r 2),
  -- 40: p4=particle(mu)
  .part 3 (.mem .r 2),
  -- 42: a12a=sproduct(ANGLE,&p1,&p2)
  .sprod 0 ⟨true, 0, true, [], 1, true⟩,
  -- 43: a13a=sproduct(ANGLE,&p1,&p3)
  .sprod 1 ⟨true, 0, true, [], 2, true⟩,
  -- 44: a14a=sproduct(ANGLE,&p1,&p4)
  .sprod 2 ⟨true, 0, true, [], 3, true⟩,
  -- 45: s12s=sproduct(SQUARE,&p1,&p2)
  .sprod 3 ⟨false, 0, true, [], 1, true⟩,
  -- 46: s13s=sproduct(SQUARE,&p1,&p3)
  .sprod 4 ⟨false, 0, true, [], 2, true⟩,
  -- 47: s14s=sproduct(SQUARE,&p1,&p4)
  .sprod 5 ⟨false, 0, true, [], 3, true⟩,
  -- 48: a23a=sproduct(ANGLE,&p2,&p3)
  .sprod 6 ⟨true, 1, true, [], 2, true⟩,
  -- 49: a24a=sproduct(ANGLE,&p2,&p4)
  .sprod 7 ⟨true, 1, true, [], 3, true⟩,
  -- 50: s23s=sproduct(SQUARE,&p2,&p3)
  .sprod 8 ⟨false, 1, true, [], 2, true⟩,
  -- 51: s24s=sproduct(SQUARE,&p2,&p4)
  .sprod 9 ⟨false, 1, true, [], 3, true⟩,
  -- 52: s123a=sproduct(SQUARE,&p1,&p2,&p3)
  .sprod 10 ⟨false, 0, true, [1], 2, true⟩,
  -- 53: s124a=sproduct(SQUARE,&p1,&p2,&p4)
  .sprod 11 ⟨false, 0, true, [1], 3, true⟩,
  -- 54: s132a=sproduct(SQUARE,&p1,&p3,&p2)
  .sprod 12 ⟨false, 0, true, [2], 1, true⟩,
  -- 55: s142a=sproduct(SQUARE,&p1,&p4,&p2)
  .sprod 13 ⟨false, 0, true, [3], 1, true⟩,
  -- 56: s231a=sproduct(SQUARE,&p2,&p3,&p1)
  .sprod 14 ⟨false, 1, true, [2], 0, true⟩,
  -- 57: s241a=sproduct(SQUARE,&p2,&p4,&p1)
  .sprod 15 ⟨false, 1, true, [3], 0, true⟩,
  -- 58: s321a=sproduct(SQUARE,&p3,&p2,&p1)
  .sprod 16 ⟨false, 2, true, [1], 0, true⟩,
  -- 59: s421a=sproduct(SQUARE,&p4,&p2,&p1)
  .sprod 17 ⟨false, 3, true, [1], 0, true⟩,
  -- 61: preTU=e*e*Qu/(MW*SW)
  .set .r 8 (.div (.mul (.mul (.mem .r 0) (.mem .r 0)) (.mem .r 1)) (.mul (.mem .r 3) (.mem .r 4))),
  -- 62: gL=-2.0*Qu*SW*SW+1.0
  .set .r 10 (.add (.mul (.mul (.mul (.neg (.lit 2)) (.mem .r 1)) (.mem .r 4)) (.mem .r 4)) (.lit 1)),
  -- 63: gR=-2.0*Qu*SW*SW
  .set .r 11 (.mul (.mul (.mul (.neg (.lit 2)) (.mem .r 1)) (.mem .r 4)) (.mem .r 4))]

/-- `set_masses` (SM/AZuu.cpp:65-76); parameters: 0 `massu`, 1 `massW` -/
def setMasses : List SInstr := [
  -- 66: mu=massu
  .set .r 2 (.loc .r 0),
  -- 67: MW=massW
  .set .r 3 (.loc .r 1),
  -- 68: MZ=MW/CW
  .set .r 6 (.div (.mem .r 3) (.mem .r 5)),
  -- 69: p1.set_mass(0)
  .setMass 0 (.lit 0),
  -- 70: p2.set_mass(MZ)
  .setMass 1 (.mem .r 6),
  -- 71: p3.set_mass(mu)
  .setMass 2 (.mem .r 2),
  -- 72: p4.set_mass(mu)
  .setMass 3 (.mem .r 2),
  -- 73: prope.set_mass(mu)
  .propMass 0 (.mem .r 2),
  -- 75: preTU=e*e*Qu/(MW*SW)
  .set .r 8 (.div (.mul (.mul (.mem .r 0) (.mem .r 0)) (.mem .r 1)) (.mul (.mem .r 3) (.mem .r 4)))]

/-- `set_momenta` (SM/AZuu.cpp:77-110); parameters: 0 `mom1`, 1 `mom2`, 2 `mom3`, 3 `mom4` -/
def setMomenta : List SInstr := [
  -- 79: p1.set_momentum(mom1)
  .setMom 0 0,
  -- 80: p2.set_momentum(mom2)
  .setMom 1 1,
  -- 81: p3.set_momentum(mom3)
  .setMom 2 2,
  -- 82: p4.set_momentum(mom4)
  .setMom 3 3,
  -- 84: a12a.update()
  .update 0,
  -- 85: a13a.update()
  .update 1,
  -- 86: a14a.update()
  .update 2,
  -- 87: s12s.update()
  .update 3,
  -- 88: s13s.update()
  .update 4,
  -- 89: s14s.update()
  .update 5,
  -- 90: a23a.update()
  .update 6,
  -- 91: a24a.update()
  .update 7,
  -- 92: s23s.update()
  .update 8,
  -- 93: s24s.update()
  .update 9,
  -- 94: s123a.update()
  .update 10,
  -- 95: s124a.update()
  .update 11,
  -- 96: s132a.update()
  .update 12,
  -- 97: s142a.update()
  .update 13,
  -- 98: s231a.update()
  .update 14,
  -- 99: s241a.update()
  .update 15,
  -- 100: s321a.update()
  .update 16,
  -- 101: s421a.update()
  .update 17,
  -- 108: pDenT=prope.denominator(propTP)
  .den .c 0 0 (.sub 0 2),
  -- 109: pDenU=prope.denominator(propUP)
  .den .c 1 0 (.sub 0 3)]

/-- `cdouble amp(ds1,ds2,ds3,ds4)` (SM/AZuu.cpp:115-149); variables: i 0 `ds1`, i 1 `ds2`, i 2 `ds3`, i 3 `ds4`, c 0 `amplitude`, i 4 `ds2a`, i 5 `ds2b`, i 6 `nCombs`, r 0 `normFactor`, i 7 `i` -/
def m_amp : Method := ⟨4, 
  -- 116: cdouble amplitude
  .seq (.set .c 0 (.ofR (.lit 0))) <|
  -- 121: int nCombs
  .seq (.seti 6 (.loops [1])) <|
  -- 122: ldouble normFactor
  .seq (.set .r 0 (.norm [1])) <|
  -- 123: for(int i=0;i<nCombs;i++)
  .seq (.loop 7 0 false (.var 6) 1 (
    -- 124: get_spinor_spins(ds2,ds2a,ds2b,i)
    .seq (.spins [(1, 4, 5)] (.var 7)) <|
    -- 126: if(ds1>0)
    .ite (.lt (.lit 0) (.var 0)) (
      -- 134: amplitude+=normFactor*preTU*gL*(+mu*s12s.v(ds2a)*a24a.v(ds2b,ds4)*s123a.v(ds3)-MZ*s13s.v(ds3)*a24a.v(ds2a,ds4)*s142a.v(ds2b))/pDenT/pDenU
      .seq (.set .c 0 (.add (.loc .c 0) (.div (.div (.smul (.mul (.mul (.loc .r 0) (.mem .r 8)) (.mem .r 10)) (.sub (.mul (.mul (.smul (.mem .r 2) (.v 3 [.var 4])) (.v 7 [.var 5, .var 3])) (.v 10 [.var 2])) (.mul (.mul (.smul (.mem .r 6) (.v 4 [.var 2])) (.v 7 [.var 4, .var 3])) (.v 13 [.var 5])))) (.mem .c 0)) (.mem .c 1)))) <|
      -- 135: amplitude+=normFactor*preTU*gR*(-mu*s12s.v(ds2a)*a23a.v(ds2b,ds3)*s124a.v(ds4)+MZ*s14s.v(ds4)*a23a.v(ds2a,ds3)*s132a.v(ds2b))/pDenT/pDenU
      .set .c 0 (.add (.loc .c 0) (.div (.div (.smul (.mul (.mul (.loc .r 0) (.mem .r 8)) (.mem .r 11)) (.add (.mul (.mul (.smul (.neg (.mem .r 2)) (.v 3 [.var 4])) (.v 6 [.var 5, .var 2])) (.v 11 [.var 3])) (.mul (.mul (.smul (.mem .r 6) (.v 5 [.var 3])) (.v 6 [.var 4, .var 2])) (.v 12 [.var 5])))) (.mem .c 0)) (.mem .c 1)))) (
      -- 138: if(ds1<0)
      .ite (.lt (.var 0) (.lit 0)) (
        -- 139: amplitude+=normFactor*preTU*gR*s24s.v(ds2a,ds4)*(-MZ*a13a.v(ds3)*s241a.v(ds2b)+mu*a12a.v(ds2b)*s321a.v(ds3))/pDenT/pDenU
        .seq (.set .c 0 (.add (.loc .c 0) (.div (.div (.mul (.smul (.mul (.mul (.loc .r 0) (.mem .r 8)) (.mem .r 11)) (.v 9 [.var 4, .var 3])) (.add (.mul (.smul (.neg (.mem .r 6)) (.v 1 [.var 2])) (.v 15 [.var 5])) (.mul (.smul (.mem .r 2) (.v 0 [.var 5])) (.v 16 [.var 2])))) (.mem .c 0)) (.mem .c 1)))) <|
        -- 140: amplitude+=normFactor*preTU*gL*s23s.v(ds2a,ds3)*(+MZ*a14a.v(ds4)*s231a.v(ds2b)-mu*a12a.v(ds2b)*s421a.v(ds4))/pDenT/pDenU
        .set .c 0 (.add (.loc .c 0) (.div (.div (.mul (.smul (.mul (.mul (.loc .r 0) (.mem .r 8)) (.mem .r 10)) (.v 8 [.var 4, .var 2])) (.sub (.mul (.smul (.mem .r 6) (.v 2 [.var 3])) (.v 14 [.var 5])) (.mul (.smul (.mem .r 2) (.v 0 [.var 5])) (.v 17 [.var 3])))) (.mem .c 0)) (.mem .c 1)))) (
        .skip)))) <|
  -- 148: return amplitude
  .ret .c (.loc .c 0)⟩

/-- `ldouble amp2()` (SM/AZuu.cpp:152-166); variables: r 0 `amp2`, c 0 `M`, i 0 `j1`, i 1 `j2`, i 2 `j3`, i 3 `j4` -/
def m_amp2 : Method := ⟨0, 
  -- 153: ldouble amp2
  .seq (.set .r 0 (.lit 0)) <|
  -- 154: cdouble M
  .seq (.set .c 0 (.ofR (.lit 0))) <|
  -- 157: for(int j1=-2;j1<=2;j1+=4)
  .seq (.loop 0 (-2) true (.lit 2) 4 (
    -- 158: for(int j2=-2;j2<=2;j2+=2)
    .loop 1 (-2) true (.lit 2) 2 (
      -- 159: for(int j3=-1;j3<=1;j3+=2)
      .loop 2 (-1) true (.lit 1) 2 (
        -- 160: for(int j4=-1;j4<=1;j4+=2)
        .loop 3 (-1) true (.lit 1) 2 (
          -- 161: M=amp(j1,j2,j3,j4)
          .seq (.set .c 0 (.call 0 [.var 0, .var 1, .var 2, .var 3])) <|
          -- 162: amp2+=3.0*std::pow(std::abs(M),2)
          .set .r 0 (.add (.loc .r 0) (.mul (.lit 3) (.pow (.abs (.loc .c 0)) 2)))))))) <|
  -- 165: return amp2/6.0
  .ret .r (.div (.loc .r 0) (.lit 6))⟩

/-- `ldouble amp2_Aplus()` (SM/AZuu.cpp:168-181); variables: r 0 `amp2`, c 0 `M`, i 0 `j2`, i 1 `j3`, i 2 `j4` -/
def m_amp2_Aplus : Method := ⟨0, 
  -- 169: ldouble amp2
  .seq (.set .r 0 (.lit 0)) <|
  -- 170: cdouble M
  .seq (.set .c 0 (.ofR (.lit 0))) <|
  -- 173: for(int j2=-2;j2<=2;j2+=2)
  .seq (.loop 0 (-2) true (.lit 2) 2 (
    -- 174: for(int j3=-1;j3<=1;j3+=2)
    .loop 1 (-1) true (.lit 1) 2 (
      -- 175: for(int j4=-1;j4<=1;j4+=2)
      .loop 2 (-1) true (.lit 1) 2 (
        -- 176: M=amp(2,j2,j3,j4)
        .seq (.set .c 0 (.call 0 [.lit 2, .var 0, .var 1, .var 2])) <|
        -- 177: amp2+=3.0*std::pow(std::abs(M),2)
        .set .r 0 (.add (.loc .r 0) (.mul (.lit 3) (.pow (.abs (.loc .c 0)) 2))))))) <|
  -- 180: return amp2/3.0
  .ret .r (.div (.loc .r 0) (.lit 3))⟩

/-- `ldouble amp2_Aminus()` (SM/AZuu.cpp:183-196); variables: r 0 `amp2`, c 0 `M`, i 0 `j2`, i 1 `j3`, i 2 `j4` -/
def m_amp2_Aminus : Method := ⟨0, 
  -- 184: ldouble amp2
  .seq (.set .r 0 (.lit 0)) <|
  -- 185: cdouble M
  .seq (.set .c 0 (.ofR (.lit 0))) <|
  -- 188: for(int j2=-2;j2<=2;j2+=2)
  .seq (.loop 0 (-2) true (.lit 2) 2 (
    -- 189: for(int j3=-1;j3<=1;j3+=2)
    .loop 1 (-1) true (.lit 1) 2 (
      -- 190: for(int j4=-1;j4<=1;j4+=2)
      .loop 2 (-1) true (.lit 1) 2 (
        -- 191: M=amp(-2,j2,j3,j4)
        .seq (.set .c 0 (.call 0 [.lit (-2), .var 0, .var 1, .var 2])) <|
        -- 192: amp2+=3.0*std::pow(std::abs(M),2)
        .set .r 0 (.add (.loc .r 0) (.mul (.lit 3) (.pow (.abs (.loc .c 0)) 2))))))) <|
  -- 195: return amp2/3.0
  .ret .r (.div (.loc .r 0) (.lit 3))⟩

end AZuu

/-- `class AZuu` (SM/AZuu.cpp, SM/include/AZuu.h:25-34).  Members:
* ldouble: 0 `e`, 1 `Qu`, 2 `mu`, 3 `MW`, 4 `SW`, 5 `CW`, 6 `MZ`, 7 `sqrt2`, 8 `preTU`, 9 `preh`, 10 `gL`, 11 `gR`
* cdouble: 0 `pDenT`, 1 `pDenU`
* propagator: 0 `prope`
* sproduct: 0 `a12a`, 1 `a13a`, 2 `a14a`, 3 `s12s`, 4 `s13s`, 5 `s14s`, 6 `a23a`, 7 `a24a`, 8 `s23s`, 9 `s24s`, 10 `s123a`, 11 `s124a`, 12 `s132a`, 13 `s142a`, 14 `s231a`, 15 `s241a`, 16 `s321a`, 17 `s421a` -/
def AZuu : Proc where
  name := "AZuu"
  nPar := 4
  ctor := AZuu.ctor
  setMasses := AZuu.setMasses
  massPar := [1, 2]
  setMomenta := AZuu.setMomenta
  methods := [AZuu.m_amp2_Aminus, AZuu.m_amp2_Aplus, AZuu.m_amp2, AZuu.m_amp]
  amp2 := 1
  others := [("amp2_Aplus", 2), ("amp2_Aminus", 3)]

end Spinas.SM.Cls
