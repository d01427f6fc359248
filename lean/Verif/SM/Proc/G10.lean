import Verif.SM.Lang

/-! Generated by tools/sm/translate.py from SM/*.cpp: uAAu, uAuh, uWWu, uZZu, uZuh, ubdt, ucuc, udAW, udWh, udZW, udnl, udtb. -/

namespace Spinas.SM.Cls

namespace uAAu

/-- constructor (SM/uAAu.cpp:32-54); parameters: 0 `echarge`, 1 `massu` -/
def ctor : List SInstr := [
  -- 32: e(echarge)
  .set .r 0 (.loc .r 0),
  -- 32: Qu(2.0/3.0)
  .set .r 1 (.div (.lit 2) (.lit 3)),
  -- 32: mu(massu)
  .set .r 2 (.loc .r 1),
  -- 32: prop(massu,0)
  .prop 0 (.loc .r 1) (.lit 0),
  -- 35: sqrt2=std::sqrt(two)
  .set .r 3 (.sqrt (.lit 2)),
  -- 36: p1=particle(mu)
  .part 0 (.mem .r 2),
  -- 37: p2=particle(0)
  .part 1 (.lit 0),
  -- 38: p3=particle(0)
  .part 2 (.lit 0),
  -- 39: p4=particle(mu)
  .part 3 (.mem .r 2),
  -- 40: s34s=sproduct(SQUARE,&p3,&p4)
  .sprod 0 ⟨false, 2, true, [], 3, true⟩,
  -- 41: a34a=sproduct(ANGLE,&p3,&p4)
  .sprod 1 ⟨true, 2, true, [], 3, true⟩,
  -- 42: s12s=sproduct(SQUARE,&p1,&p2)
  .sprod 2 ⟨false, 0, true, [], 1, true⟩,
  -- 43: a12a=sproduct(ANGLE,&p1,&p2)
  .sprod 3 ⟨true, 0, true, [], 1, true⟩,
  -- 44: s13s=sproduct(SQUARE,&p1,&p3)
  .sprod 4 ⟨false, 0, true, [], 2, true⟩,
  -- 45: a13a=sproduct(ANGLE,&p1,&p3)
  .sprod 5 ⟨true, 0, true, [], 2, true⟩,
  -- 46: s24s=sproduct(SQUARE,&p2,&p4)
  .sprod 6 ⟨false, 1, true, [], 3, true⟩,
  -- 47: a24a=sproduct(ANGLE,&p2,&p4)
  .sprod 7 ⟨true, 1, true, [], 3, true⟩,
  -- 48: s23s=sproduct(SQUARE,&p2,&p3)
  .sprod 8 ⟨false, 1, true, [], 2, true⟩,
  -- 49: a23a=sproduct(ANGLE,&p2,&p3)
  .sprod 9 ⟨true, 1, true, [], 2, true⟩,
  -- 50: s14s=sproduct(SQUARE,&p1,&p4)
  .sprod 10 ⟨false, 0, true, [], 3, true⟩,
  -- 51: a14a=sproduct(ANGLE,&p1,&p4)
  .sprod 11 ⟨true, 0, true, [], 3, true⟩,
  -- 52: s342a=sproduct(SQUARE,&p3,&p4,&p2)
  .sprod 12 ⟨false, 2, true, [3], 1, true⟩,
  -- 53: s243a=sproduct(SQUARE,&p2,&p4,&p3)
  .sprod 13 ⟨false, 1, true, [3], 2, true⟩]

/-- `set_masses` (SM/uAAu.cpp:55-60); parameters: 0 `massu` -/
def setMasses : List SInstr := [
  -- 56: mu=massu
  .set .r 2 (.loc .r 0),
  -- 57: p1.set_mass(mu)
  .setMass 0 (.mem .r 2),
  -- 58: p4.set_mass(mu)
  .setMass 3 (.mem .r 2),
  -- 59: prop.set_mass(mu)
  .propMass 0 (.mem .r 2)]

/-- `set_momenta` (SM/uAAu.cpp:61-90); parameters: 0 `mom1`, 1 `mom2`, 2 `mom3`, 3 `mom4` -/
def setMomenta : List SInstr := [
  -- 63: p1.set_momentum(mom1)
  .setMom 0 0,
  -- 64: p2.set_momentum(mom2)
  .setMom 1 1,
  -- 65: p3.set_momentum(mom3)
  .setMom 2 2,
  -- 66: p4.set_momentum(mom4)
  .setMom 3 3,
  -- 67: s34s.update()
  .update 0,
  -- 68: a34a.update()
  .update 1,
  -- 69: s12s.update()
  .update 2,
  -- 70: a12a.update()
  .update 3,
  -- 71: s13s.update()
  .update 4,
  -- 72: a13a.update()
  .update 5,
  -- 73: s24s.update()
  .update 6,
  -- 74: a24a.update()
  .update 7,
  -- 75: s23s.update()
  .update 8,
  -- 76: a23a.update()
  .update 9,
  -- 77: s14s.update()
  .update 10,
  -- 78: a14a.update()
  .update 11,
  -- 79: s342a.update()
  .update 12,
  -- 80: s243a.update()
  .update 13,
  -- 87: pDenT=prop.denominator(propTP)
  .den .c 0 0 (.sub 0 2),
  -- 88: pDenS=prop.denominator(propSP)
  .den .c 1 0 (.add 0 1)]

/-- `cdouble amp(ds1,ds2,ds3,ds4)` (SM/uAAu.cpp:97-123); variables: i 0 `ds1`, i 1 `ds2`, i 2 `ds3`, i 3 `ds4` -/
def m_amp : Method := ⟨4, 
  -- 98: if(ds2>0&&ds3>0)
  .seq (.ite (.and (.lt (.lit 0) (.var 1)) (.lt (.lit 0) (.var 2))) (
    -- 102: return 2.0*e*e*Qu*Qu*mu*s23s.v()*s23s.v()*a14a.v(ds1,ds4)/pDenT/pDenS
    .ret .c (.div (.div (.mul (.mul (.smul (.mul (.mul (.mul (.mul (.mul (.lit 2) (.mem .r 0)) (.mem .r 0)) (.mem .r 1)) (.mem .r 1)) (.mem .r 2)) (.v 8 [])) (.v 8 [])) (.v 11 [.var 0, .var 3])) (.mem .c 0)) (.mem .c 1))) (
    -- 104: if(ds2<0&&ds3<0)
    .ite (.and (.lt (.var 1) (.lit 0)) (.lt (.var 2) (.lit 0))) (
      -- 108: return -2.0*e*e*Qu*Qu*mu*a23a.v()*a23a.v()*s14s.v(ds1,ds4)/pDenT/pDenS
      .ret .c (.div (.div (.mul (.mul (.smul (.mul (.mul (.mul (.mul (.mul (.neg (.lit 2)) (.mem .r 0)) (.mem .r 0)) (.mem .r 1)) (.mem .r 1)) (.mem .r 2)) (.v 9 [])) (.v 9 [])) (.v 10 [.var 0, .var 3])) (.mem .c 0)) (.mem .c 1))) (
      -- 110: if(ds3>0&&ds2<0)
      .ite (.and (.lt (.lit 0) (.var 2)) (.lt (.var 1) (.lit 0))) (
        -- 114: return 2.0*e*e*Qu*Qu*(s34s.v(ds4)*a12a.v(ds1)-s13s.v(ds1)*a24a.v(ds4))*s342a.v()/pDenT/pDenS
        .ret .c (.div (.div (.mul (.smul (.mul (.mul (.mul (.mul (.lit 2) (.mem .r 0)) (.mem .r 0)) (.mem .r 1)) (.mem .r 1)) (.sub (.mul (.v 0 [.var 3]) (.v 3 [.var 0])) (.mul (.v 4 [.var 0]) (.v 7 [.var 3])))) (.v 12 [])) (.mem .c 0)) (.mem .c 1))) (
        -- 116: if(ds3<0&&ds2>0)
        .ite (.and (.lt (.var 2) (.lit 0)) (.lt (.lit 0) (.var 1))) (
          -- 120: return -2.0*e*e*Qu*Qu*(a34a.v(ds4)*s12s.v(ds1)-a13a.v(ds1)*s24s.v(ds4))*s243a.v()/pDenT/pDenS
          .ret .c (.div (.div (.mul (.smul (.mul (.mul (.mul (.mul (.neg (.lit 2)) (.mem .r 0)) (.mem .r 0)) (.mem .r 1)) (.mem .r 1)) (.sub (.mul (.v 1 [.var 3]) (.v 2 [.var 0])) (.mul (.v 5 [.var 0]) (.v 6 [.var 3])))) (.v 13 [])) (.mem .c 0)) (.mem .c 1))) (
          .skip))))) <|
  -- 122: return cdouble(0,0)
  .ret .c (.ofR (.lit 0))⟩

/-- `ldouble amp2()` (SM/uAAu.cpp:127-142); variables: r 0 `amp2`, c 0 `M`, i 0 `j1`, i 1 `j2`, i 2 `j3`, i 3 `j4` -/
def m_amp2 : Method := ⟨0, 
  -- 128: ldouble amp2
  .seq (.set .r 0 (.lit 0)) <|
  -- 129: cdouble M
  .seq (.set .c 0 (.ofR (.lit 0))) <|
  -- 132: for(int j1=-1;j1<=1;j1+=2)
  .seq (.loop 0 (-1) true (.lit 1) 2 (
    -- 133: for(int j2=-2;j2<=2;j2+=4)
    .loop 1 (-2) true (.lit 2) 4 (
      -- 134: for(int j3=-2;j3<=2;j3+=4)
      .loop 2 (-2) true (.lit 2) 4 (
        -- 135: for(int j4=-1;j4<=1;j4+=2)
        .loop 3 (-1) true (.lit 1) 2 (
          -- 136: M=amp(j1,j2,j3,j4)
          .seq (.set .c 0 (.call 0 [.var 0, .var 1, .var 2, .var 3])) <|
          -- 137: amp2+=3.0*std::pow(std::abs(M),2)
          .set .r 0 (.add (.loc .r 0) (.mul (.lit 3) (.pow (.abs (.loc .c 0)) 2)))))))) <|
  -- 141: return amp2/12.0
  .ret .r (.div (.loc .r 0) (.lit 12))⟩

/-- `ldouble amp2_Aplus()` (SM/uAAu.cpp:145-159); variables: r 0 `amp2`, c 0 `M`, i 0 `j1`, i 1 `j3`, i 2 `j4` -/
def m_amp2_Aplus : Method := ⟨0, 
  -- 146: ldouble amp2
  .seq (.set .r 0 (.lit 0)) <|
  -- 147: cdouble M
  .seq (.set .c 0 (.ofR (.lit 0))) <|
  -- 150: for(int j1=-1;j1<=1;j1+=2)
  .seq (.loop 0 (-1) true (.lit 1) 2 (
    -- 151: for(int j3=-2;j3<=2;j3+=4)
    .loop 1 (-2) true (.lit 2) 4 (
      -- 152: for(int j4=-1;j4<=1;j4+=2)
      .loop 2 (-1) true (.lit 1) 2 (
        -- 153: M=amp(j1,2,j3,j4)
        .seq (.set .c 0 (.call 0 [.var 0, .lit 2, .var 1, .var 2])) <|
        -- 154: amp2+=3.0*std::pow(std::abs(M),2)
        .set .r 0 (.add (.loc .r 0) (.mul (.lit 3) (.pow (.abs (.loc .c 0)) 2))))))) <|
  -- 158: return amp2/6.0
  .ret .r (.div (.loc .r 0) (.lit 6))⟩

/-- `ldouble amp2_Aminus()` (SM/uAAu.cpp:162-176); variables: r 0 `amp2`, c 0 `M`, i 0 `j1`, i 1 `j3`, i 2 `j4` -/
def m_amp2_Aminus : Method := ⟨0, 
  -- 163: ldouble amp2
  .seq (.set .r 0 (.lit 0)) <|
  -- 164: cdouble M
  .seq (.set .c 0 (.ofR (.lit 0))) <|
  -- 167: for(int j1=-1;j1<=1;j1+=2)
  .seq (.loop 0 (-1) true (.lit 1) 2 (
    -- 168: for(int j3=-2;j3<=2;j3+=4)
    .loop 1 (-2) true (.lit 2) 4 (
      -- 169: for(int j4=-1;j4<=1;j4+=2)
      .loop 2 (-1) true (.lit 1) 2 (
        -- 170: M=amp(j1,-2,j3,j4)
        .seq (.set .c 0 (.call 0 [.var 0, .lit (-2), .var 1, .var 2])) <|
        -- 171: amp2+=3.0*std::pow(std::abs(M),2)
        .set .r 0 (.add (.loc .r 0) (.mul (.lit 3) (.pow (.abs (.loc .c 0)) 2))))))) <|
  -- 175: return amp2/6.0
  .ret .r (.div (.loc .r 0) (.lit 6))⟩

end uAAu

/-- `class uAAu` (SM/uAAu.cpp, SM/include/uAAu.h:25-32).  Members:
* ldouble: 0 `e`, 1 `Qu`, 2 `mu`, 3 `sqrt2`
* cdouble: 0 `pDenT`, 1 `pDenS`
* propagator: 0 `prop`
* sproduct: 0 `s34s`, 1 `a34a`, 2 `s12s`, 3 `a12a`, 4 `s13s`, 5 `a13a`, 6 `s24s`, 7 `a24a`, 8 `s23s`, 9 `a23a`, 10 `s14s`, 11 `a14a`, 12 `s342a`, 13 `s243a` -/
def uAAu : Proc where
  name := "uAAu"
  nPar := 2
  ctor := uAAu.ctor
  setMasses := uAAu.setMasses
  massPar := [1]
  setMomenta := uAAu.setMomenta
  methods := [uAAu.m_amp2_Aminus, uAAu.m_amp2_Aplus, uAAu.m_amp2, uAAu.m_amp]
  amp2 := 1
  others := [("amp2_Aplus", 2), ("amp2_Aminus", 3)]

namespace uAuh

/-- constructor (SM/uAuh.cpp:32-53); parameters: 0 `echarge`, 1 `massu`, 2 `massh`, 3 `massW`, 4 `sinW` -/
def ctor : List SInstr := [
  -- 32: e(echarge)
  .set .r 0 (.loc .r 0),
  -- 32: Qu(2.0/3.0)
  .set .r 1 (.div (.lit 2) (.lit 3)),
  -- 32: mu(massu)
  .set .r 2 (.loc .r 1),
  -- 32: mh(massh)
  .set .r 3 (.loc .r 2),
  -- 32: MW(massW)
  .set .r 4 (.loc .r 3),
  -- 32: SW(sinW)
  .set .r 5 (.loc .r 4),
  -- 32: prop(massu,0)
  .prop 0 (.loc .r 1) (.lit 0),
  -- 35: sqrt2=std::sqrt(two)
  .set .r 7 (.sqrt (.lit 2)),
  -- 36: p1=particle(mu)
  .part 0 (.mem .r 2),
  -- 37: p2=particle(0)
  .part 1 (.lit 0),
  -- 38: p3=particle(mu)
  .part 2 (.mem .r 2),
  -- 39: p4=particle(mh)
  .part 3 (.mem .r 3),
  -- 40: s12s=sproduct(SQUARE,&p1,&p2)
  .sprod 0 ⟨false, 0, true, [], 1, true⟩,
  -- 41: a12a=sproduct(ANGLE,&p1,&p2)
  .sprod 1 ⟨true, 0, true, [], 1, true⟩,
  -- 42: s23s=sproduct(SQUARE,&p2,&p3)
  .sprod 2 ⟨false, 1, true, [], 2, true⟩,
  -- 43: a23a=sproduct(ANGLE,&p2,&p3)
  .sprod 3 ⟨true, 1, true, [], 2, true⟩,
  -- 44: s13s=sproduct(SQUARE,&p1,&p3)
  .sprod 4 ⟨false, 0, true, [], 2, true⟩,
  -- 45: a13a=sproduct(ANGLE,&p1,&p3)
  .sprod 5 ⟨true, 0, true, [], 2, true⟩,
  -- 46: s243a=sproduct(SQUARE,&p2,&p4,&p3)
  .sprod 6 ⟨false, 1, true, [3], 2, true⟩,
  -- 47: a243s=sproduct(ANGLE,&p2,&p4,&p3)
  .sprod 7 ⟨true, 1, true, [3], 2, true⟩,
  -- 48: s241a=sproduct(SQUARE,&p2,&p4,&p1)
  .sprod 8 ⟨false, 1, true, [3], 0, true⟩,
  -- 49: a241s=sproduct(ANGLE,&p2,&p4,&p1)
  .sprod 9 ⟨true, 1, true, [3], 0, true⟩,
  -- 50: s2342s=sproduct(SQUARE,&p2,&p3,&p4,&p2)
  .sprod 10 ⟨false, 1, true, [2, 3], 1, true⟩,
  -- 51: a2342a=sproduct(ANGLE,&p2,&p3,&p4,&p2)
  .sprod 11 ⟨true, 1, true, [2, 3], 1, true⟩,
  -- 52: pre=sqrt2*e*e*Qu*mu/(2.0*MW*SW)
  .set .r 6 (.div (.mul (.mul (.mul (.mul (.mem .r 7) (.mem .r 0)) (.mem .r 0)) (.mem .r 1)) (.mem .r 2)) (.mul (.mul (.lit 2) (.mem .r 4)) (.mem .r 5)))]

/-- `set_masses` (SM/uAuh.cpp:54-62); parameters: 0 `massu`, 1 `massh`, 2 `massW` -/
def setMasses : List SInstr := [
  -- 55: mu=massu
  .set .r 2 (.loc .r 0),
  -- 56: mh=massh
  .set .r 3 (.loc .r 1),
  -- 57: p1.set_mass(mu)
  .setMass 0 (.mem .r 2),
  -- 58: p3.set_mass(mu)
  .setMass 2 (.mem .r 2),
  -- 59: p4.set_mass(mh)
  .setMass 3 (.mem .r 3),
  -- 60: prop.set_mass(mu)
  .propMass 0 (.mem .r 2),
  -- 61: pre=sqrt2*e*e*Qu*mu/(2.0*MW*SW)
  .set .r 6 (.div (.mul (.mul (.mul (.mul (.mem .r 7) (.mem .r 0)) (.mem .r 0)) (.mem .r 1)) (.mem .r 2)) (.mul (.mul (.lit 2) (.mem .r 4)) (.mem .r 5)))]

/-- `set_momenta` (SM/uAuh.cpp:63-89); parameters: 0 `mom1`, 1 `mom2`, 2 `mom3`, 3 `mom4` -/
def setMomenta : List SInstr := [
  -- 65: p1.set_momentum(mom1)
  .setMom 0 0,
  -- 66: p2.set_momentum(mom2)
  .setMom 1 1,
  -- 67: p3.set_momentum(mom3)
  .setMom 2 2,
  -- 68: p4.set_momentum(mom4)
  .setMom 3 3,
  -- 69: s12s.update()
  .update 0,
  -- 70: a12a.update()
  .update 1,
  -- 71: s23s.update()
  .update 2,
  -- 72: a23a.update()
  .update 3,
  -- 73: s13s.update()
  .update 4,
  -- 74: a13a.update()
  .update 5,
  -- 75: s243a.update()
  .update 6,
  -- 76: a243s.update()
  .update 7,
  -- 77: s241a.update()
  .update 8,
  -- 78: a241s.update()
  .update 9,
  -- 79: s2342s.update()
  .update 10,
  -- 80: a2342a.update()
  .update 11,
  -- 87: pDenS=prop.denominator(propSP)
  .den .c 0 0 (.add 0 1),
  -- 88: pDenU=prop.denominator(propUP)
  .den .c 1 0 (.sub 0 3)]

/-- `cdouble amp(ds1,ds2,ds3)` (SM/uAuh.cpp:94-108); variables: i 0 `ds1`, i 1 `ds2`, i 2 `ds3` -/
def m_amp : Method := ⟨3, 
  -- 99: if(ds2>0)
  .seq (.ite (.lt (.lit 0) (.var 1)) (
    -- 101: return pre*(mh*mh*s12s.v(ds1)*s23s.v(ds3)-mu*s12s.v(ds1)*s243a.v(ds3)-mu*s23s.v(ds3)*s241a.v(ds1)+a13a.v(ds1,ds3)*s2342s.v())/pDenS/pDenU
    .ret .c (.div (.div (.smul (.mem .r 6) (.add (.sub (.sub (.mul (.smul (.mul (.mem .r 3) (.mem .r 3)) (.v 0 [.var 0])) (.v 2 [.var 2])) (.mul (.smul (.mem .r 2) (.v 0 [.var 0])) (.v 6 [.var 2]))) (.mul (.smul (.mem .r 2) (.v 2 [.var 2])) (.v 8 [.var 0]))) (.mul (.v 5 [.var 0, .var 2]) (.v 10 [])))) (.mem .c 0)) (.mem .c 1))) (
    -- 103: if(ds2<0)
    .ite (.lt (.var 1) (.lit 0)) (
      -- 105: return pre*(-mh*mh*a12a.v(ds1)*a23a.v(ds3)+mu*a12a.v(ds1)*a243s.v(ds3)+mu*a23a.v(ds3)*a241s.v(ds1)-s13s.v(ds1,ds3)*a2342a.v())/pDenS/pDenU
      .ret .c (.div (.div (.smul (.mem .r 6) (.sub (.add (.add (.mul (.smul (.mul (.neg (.mem .r 3)) (.mem .r 3)) (.v 1 [.var 0])) (.v 3 [.var 2])) (.mul (.smul (.mem .r 2) (.v 1 [.var 0])) (.v 7 [.var 2]))) (.mul (.smul (.mem .r 2) (.v 3 [.var 2])) (.v 9 [.var 0]))) (.mul (.v 4 [.var 0, .var 2]) (.v 11 [])))) (.mem .c 0)) (.mem .c 1))) (
      .skip))) <|
  -- 107: return cdouble(0,0)
  .ret .c (.ofR (.lit 0))⟩

/-- `ldouble amp2()` (SM/uAuh.cpp:111-125); variables: r 0 `amp2`, c 0 `M`, i 0 `j1`, i 1 `j2`, i 2 `j3` -/
def m_amp2 : Method := ⟨0, 
  -- 112: ldouble amp2
  .seq (.set .r 0 (.lit 0)) <|
  -- 113: cdouble M
  .seq (.set .c 0 (.ofR (.lit 0))) <|
  -- 116: for(int j1=-1;j1<=1;j1+=2)
  .seq (.loop 0 (-1) true (.lit 1) 2 (
    -- 117: for(int j2=-2;j2<=2;j2+=4)
    .loop 1 (-2) true (.lit 2) 4 (
      -- 118: for(int j3=-1;j3<=1;j3+=2)
      .loop 2 (-1) true (.lit 1) 2 (
        -- 119: M=amp(j1,j2,j3)
        .seq (.set .c 0 (.call 0 [.var 0, .var 1, .var 2])) <|
        -- 120: amp2+=3.0*std::pow(std::abs(M),2)
        .set .r 0 (.add (.loc .r 0) (.mul (.lit 3) (.pow (.abs (.loc .c 0)) 2))))))) <|
  -- 124: return amp2/12.0
  .ret .r (.div (.loc .r 0) (.lit 12))⟩

/-- `ldouble amp2_Aplus()` (SM/uAuh.cpp:129-142); variables: r 0 `amp2`, c 0 `M`, i 0 `j1`, i 1 `j3` -/
def m_amp2_Aplus : Method := ⟨0, 
  -- 130: ldouble amp2
  .seq (.set .r 0 (.lit 0)) <|
  -- 131: cdouble M
  .seq (.set .c 0 (.ofR (.lit 0))) <|
  -- 134: for(int j1=-1;j1<=1;j1+=2)
  .seq (.loop 0 (-1) true (.lit 1) 2 (
    -- 135: for(int j3=-1;j3<=1;j3+=2)
    .loop 1 (-1) true (.lit 1) 2 (
      -- 136: M=amp(j1,2,j3)
      .seq (.set .c 0 (.call 0 [.var 0, .lit 2, .var 1])) <|
      -- 137: amp2+=3.0*std::pow(std::abs(M),2)
      .set .r 0 (.add (.loc .r 0) (.mul (.lit 3) (.pow (.abs (.loc .c 0)) 2)))))) <|
  -- 141: return amp2/6.0
  .ret .r (.div (.loc .r 0) (.lit 6))⟩

end uAuh

/-- `class uAuh` (SM/uAuh.cpp, SM/include/uAuh.h:25-33).  Members:
* ldouble: 0 `e`, 1 `Qu`, 2 `mu`, 3 `mh`, 4 `MW`, 5 `SW`, 6 `pre`, 7 `sqrt2`
* cdouble: 0 `pDenS`, 1 `pDenU`
* propagator: 0 `prop`
* sproduct: 0 `s12s`, 1 `a12a`, 2 `s23s`, 3 `a23a`, 4 `s13s`, 5 `a13a`, 6 `s243a`, 7 `a243s`, 8 `s241a`, 9 `a241s`, 10 `s2342s`, 11 `a2342a` -/
def uAuh : Proc where
  name := "uAuh"
  nPar := 5
  ctor := uAuh.ctor
  setMasses := uAuh.setMasses
  massPar := [1, 2, 3]
  setMomenta := uAuh.setMomenta
  methods := [uAuh.m_amp2_Aplus, uAuh.m_amp2, uAuh.m_amp]
  amp2 := 1
  others := [("amp2_Aplus", 2)]

namespace uWWu

/-- constructor (SM/uWWu.cpp:32-67); parameters: 0 `echarge`, 1 `massu`, 2 `massd`, 3 `massh`, 4 `widthh`, 5 `massW`, 6 `sinW`, 7 `widthZ` -/
def ctor : List SInstr := [
  -- 32: e(echarge)
  .set .r 0 (.loc .r 0),
  -- 32: Qf(2.0/3.0)
  .set .r 1 (.div (.lit 2) (.lit 3)),
  -- 32: mu(massu)
  .set .r 2 (.loc .r 1),
  -- 32: md(massd)
  .set .r 3 (.loc .r 2),
  -- 32: mh(massh)
  .set .r 4 (.loc .r 3),
  -- 32: wh(widthh)
  .set .r 5 (.loc .r 4),
  -- 32: MW(massW)
  .set .r 6 (.loc .r 5),
  -- 32: SW(sinW)
  .set .r 7 (.loc .r 6),
  -- 32: CW(std::sqrt(1.0-sinW*sinW))
  .set .r 8 (.sqrt (.sub (.lit 1) (.mul (.loc .r 6) (.loc .r 6)))),
  -- 32: MZ(massW/CW)
  .set .r 9 (.div (.loc .r 5) (.mem .r 8)),
  -- 32: WZ(widthZ)
  .set .r 10 (.loc .r 7),
  -- 32: propd(md,0)
  .prop 1 (.mem .r 3) (.lit 0),
  -- 32: propA(0,0)
  .prop 3 (.lit 0) (.lit 0),
  -- 35: sqrt2=std::sqrt(two)
  .set .r 11 (.sqrt (.lit 2)),
  -- 36: MZ=MW/CW
  .set .r 9 (.div (.mem .r 6) (.mem .r 8)),
  -- 37: propZ=propagator(MZ,WZ)
  .prop 2 (.mem .r 9) (.mem .r 10),
  -- 38: proph=propagator(mh,wh)
  .prop 0 (.mem .r 4) (.mem .r 5),
  -- 39: p1=particle(mu)
  .part 0 (.mem .r 2),
  -- 40: p2=particle(MW)
  .part 1 (.mem .r 6),
  -- 41: p3=particle(MW)
  .part 2 (.mem .r 6),
  -- 42: p4=particle(mu)
  .part 3 (.mem .r 2),
  -- 44: s12s=sproduct(SQUARE,&p1,&p2)
  .sprod 0 ⟨false, 0, true, [], 1, true⟩,
  -- 45: a12a=sproduct(ANGLE,&p1,&p2)
  .sprod 1 ⟨true, 0, true, [], 1, true⟩,
  -- 46: s23s=sproduct(SQUARE,&p2,&p3)
  .sprod 2 ⟨false, 1, true, [], 2, true⟩,
  -- 47: a23a=sproduct(ANGLE,&p2,&p3)
  .sprod 3 ⟨true, 1, true, [], 2, true⟩,
  -- 48: s13s=sproduct(SQUARE,&p1,&p3)
  .sprod 4 ⟨false, 0, true, [], 2, true⟩,
  -- 49: a13a=sproduct(ANGLE,&p1,&p3)
  .sprod 5 ⟨true, 0, true, [], 2, true⟩,
  -- 50: s34s=sproduct(SQUARE,&p3,&p4)
  .sprod 6 ⟨false, 2, true, [], 3, true⟩,
  -- 51: a34a=sproduct(ANGLE,&p3,&p4)
  .sprod 7 ⟨true, 2, true, [], 3, true⟩,
  -- 52: s24s=sproduct(SQUARE,&p2,&p4)
  .sprod 8 ⟨false, 1, true, [], 3, true⟩,
  -- 53: a24a=sproduct(ANGLE,&p2,&p4)
  .sprod 9 ⟨true, 1, true, [], 3, true⟩,
  -- 54: s14s=sproduct(SQUARE,&p1,&p4)
  .sprod 10 ⟨false, 0, true, [], 3, true⟩,
  -- 55: a14a=sproduct(ANGLE,&p1,&p4)
  .sprod 11 ⟨true, 0, true, [], 3, true⟩,
  -- 57: s213a=sproduct(SQUARE,&p2,&p1,&p3)
  .sprod 12 ⟨false, 1, true, [0], 2, true⟩,
  -- 58: s312a=sproduct(SQUARE,&p3,&p1,&p2)
  .sprod 13 ⟨false, 2, true, [0], 1, true⟩,
  -- 59: s431a=sproduct(SQUARE,&p4,&p3,&p1)
  .sprod 14 ⟨false, 3, true, [2], 0, true⟩,
  -- 60: s134a=sproduct(SQUARE,&p1,&p3,&p4)
  .sprod 15 ⟨false, 0, true, [2], 3, true⟩,
  -- 62: pred=2.0*e*e/(2.0*MW*MW*SW*SW)
  .set .r 12 (.div (.mul (.mul (.lit 2) (.mem .r 0)) (.mem .r 0)) (.mul (.mul (.mul (.mul (.lit 2) (.mem .r 6)) (.mem .r 6)) (.mem .r 7)) (.mem .r 7))),
  -- 63: preh=2.0*e*e*mu/(4.0*MW*MW*SW*SW)
  .set .r 13 (.div (.mul (.mul (.mul (.lit 2) (.mem .r 0)) (.mem .r 0)) (.mem .r 2)) (.mul (.mul (.mul (.mul (.lit 4) (.mem .r 6)) (.mem .r 6)) (.mem .r 7)) (.mem .r 7))),
  -- 64: preZ=e*e/(2.0*MW*MW*SW*SW)
  .set .r 14 (.div (.mul (.mem .r 0) (.mem .r 0)) (.mul (.mul (.mul (.mul (.lit 2) (.mem .r 6)) (.mem .r 6)) (.mem .r 7)) (.mem .r 7))),
  -- 65: gL=-2.0*Qf*SW*SW+1.0
  .set .r 15 (.add (.mul (.mul (.mul (.neg (.lit 2)) (.mem .r 1)) (.mem .r 7)) (.mem .r 7)) (.lit 1)),
  -- 66: gR=-2.0*Qf*SW*SW
  .set .r 16 (.mul (.mul (.mul (.neg (.lit 2)) (.mem .r 1)) (.mem .r 7)) (.mem .r 7))]

/-- `set_masses` (SM/uWWu.cpp:68-85); parameters: 0 `massu`, 1 `massd`, 2 `massh`, 3 `massW` -/
def setMasses : List SInstr := [
  -- 69: mu=massu
  .set .r 2 (.loc .r 0),
  -- 70: md=massd
  .set .r 3 (.loc .r 1),
  -- 71: mh=massh
  .set .r 4 (.loc .r 2),
  -- 72: MW=massW
  .set .r 6 (.loc .r 3),
  -- 73: MZ=MW/CW
  .set .r 9 (.div (.mem .r 6) (.mem .r 8)),
  -- 74: p1.set_mass(mu)
  .setMass 0 (.mem .r 2),
  -- 75: p2.set_mass(MW)
  .setMass 1 (.mem .r 6),
  -- 76: p3.set_mass(MW)
  .setMass 2 (.mem .r 6),
  -- 77: p4.set_mass(mu)
  .setMass 3 (.mem .r 2),
  -- 78: propd.set_mass(md)
  .propMass 1 (.mem .r 3),
  -- 79: proph.set_mass(mh)
  .propMass 0 (.mem .r 4),
  -- 80: propZ.set_mass(MZ)
  .propMass 2 (.mem .r 9),
  -- 82: pred=2.0*e*e/(2.0*MW*MW*SW*SW)
  .set .r 12 (.div (.mul (.mul (.lit 2) (.mem .r 0)) (.mem .r 0)) (.mul (.mul (.mul (.mul (.lit 2) (.mem .r 6)) (.mem .r 6)) (.mem .r 7)) (.mem .r 7))),
  -- 83: preh=2.0*e*e*mu/(4.0*MW*MW*SW*SW)
  .set .r 13 (.div (.mul (.mul (.mul (.lit 2) (.mem .r 0)) (.mem .r 0)) (.mem .r 2)) (.mul (.mul (.mul (.mul (.lit 4) (.mem .r 6)) (.mem .r 6)) (.mem .r 7)) (.mem .r 7))),
  -- 84: preZ=e*e/(2.0*MW*MW*SW*SW)
  .set .r 14 (.div (.mul (.mem .r 0) (.mem .r 0)) (.mul (.mul (.mul (.mul (.lit 2) (.mem .r 6)) (.mem .r 6)) (.mem .r 7)) (.mem .r 7)))]

/-- `set_momenta` (SM/uWWu.cpp:86-122); parameters: 0 `mom1`, 1 `mom2`, 2 `mom3`, 3 `mom4` -/
def setMomenta : List SInstr := [
  -- 88: p1.set_momentum(mom1)
  .setMom 0 0,
  -- 89: p2.set_momentum(mom2)
  .setMom 1 1,
  -- 90: p3.set_momentum(mom3)
  .setMom 2 2,
  -- 91: p4.set_momentum(mom4)
  .setMom 3 3,
  -- 93: s12s.update()
  .update 0,
  -- 94: a12a.update()
  .update 1,
  -- 95: s23s.update()
  .update 2,
  -- 96: a23a.update()
  .update 3,
  -- 97: s13s.update()
  .update 4,
  -- 98: a13a.update()
  .update 5,
  -- 99: s34s.update()
  .update 6,
  -- 100: a34a.update()
  .update 7,
  -- 101: s24s.update()
  .update 8,
  -- 102: a24a.update()
  .update 9,
  -- 103: s14s.update()
  .update 10,
  -- 104: a14a.update()
  .update 11,
  -- 106: s213a.update()
  .update 12,
  -- 107: s312a.update()
  .update 13,
  -- 108: s431a.update()
  .update 14,
  -- 109: s134a.update()
  .update 15,
  -- 117: pDenhU=proph.denominator(propUP)
  .den .c 0 0 (.sub 0 3),
  -- 118: pDendT=propd.denominator(propTP)
  .den .c 1 1 (.sub 0 2),
  -- 119: pDendS=propd.denominator(propSP)
  .den .c 2 1 (.add 0 1),
  -- 120: pDenZU=propZ.denominator(propUP)
  .den .c 3 2 (.sub 0 3),
  -- 121: pDenAU=propA.denominator(propUP)
  .den .c 4 3 (.sub 0 3)]

/-- `cdouble amp(ds1,ds2,ds3,ds4)` (SM/uWWu.cpp:127-206); variables: i 0 `ds1`, i 1 `ds2`, i 2 `ds3`, i 3 `ds4`, c 0 `amplitude`, i 4 `ds3a`, i 5 `ds3b`, i 6 `ds2a`, i 7 `ds2b`, i 8 `nCombs`, r 0 `normFactor`, i 9 `i` -/
def m_amp : Method := ⟨4, 
  -- 128: cdouble amplitude
  .seq (.set .c 0 (.ofR (.lit 0))) <|
  -- 133: int nCombs
  .seq (.seti 8 (.loops [2, 1])) <|
  -- 134: ldouble normFactor
  .seq (.set .r 0 (.norm [2, 1])) <|
  -- 136: for(int i=0;i<nCombs;i++)
  .seq (.loop 9 0 false (.var 8) 1 (
    -- 137: get_spinor_spins(ds3,ds3a,ds3b,ds2,ds2a,ds2b,i)
    .seq (.spins [(2, 4, 5), (1, 6, 7)] (.var 9)) <|
    -- 147: amplitude+=-normFactor*preh*s23s.v(ds2a,ds3a)*a23a.v(ds2b,ds3b)*(s14s.v(ds1,ds4)-a14a.v(ds1,ds4))/pDenhU
    .seq (.set .c 0 (.add (.loc .c 0) (.div (.mul (.mul (.smul (.mul (.neg (.loc .r 0)) (.mem .r 13)) (.v 2 [.var 6, .var 4])) (.v 3 [.var 7, .var 5])) (.sub (.v 10 [.var 0, .var 3]) (.v 11 [.var 0, .var 3]))) (.mem .c 0)))) <|
    -- 157: amplitude+=-normFactor*pred*s24s.v(ds2a,ds4)*a13a.v(ds1,ds3a)*(MW*a23a.v(ds2b,ds3b)+s312a.v(ds3b,ds2b))/pDendT
    .seq (.set .c 0 (.add (.loc .c 0) (.div (.mul (.mul (.smul (.mul (.neg (.loc .r 0)) (.mem .r 12)) (.v 8 [.var 6, .var 3])) (.v 5 [.var 0, .var 4])) (.add (.smul (.mem .r 6) (.v 3 [.var 7, .var 5])) (.v 13 [.var 5, .var 7]))) (.mem .c 1)))) <|
    -- 169: amplitude+=-normFactor*e*e*Qf*two/MW*(-a13a.v(ds1,ds3a)*s24s.v(ds2a,ds4)-s13s.v(ds1,ds3a)*a24a.v(ds2a,ds4)+a12a.v(ds1,ds2a)*s34s.v(ds3a,ds4)+s12s.v(ds1,ds2a)*a34a.v(ds3a,ds4))*(s23s.v(ds2b,ds3b)-a23a.v(ds2b,ds3b))/pDenAU-normFactor*e*e*Qf*two/MW/MW*(s23s.v(ds2a,ds3a)*a23a.v(ds2b,ds3b)*(s431a.v(ds4,ds1)-s134a.v(ds1,ds4)))/pDenAU
    .seq (.set .c 0 (.add (.loc .c 0) (.sub (.div (.mul (.smul (.div (.mul (.mul (.mul (.mul (.neg (.loc .r 0)) (.mem .r 0)) (.mem .r 0)) (.mem .r 1)) (.lit 2)) (.mem .r 6)) (.add (.add (.sub (.mul (.neg (.v 5 [.var 0, .var 4])) (.v 8 [.var 6, .var 3])) (.mul (.v 4 [.var 0, .var 4]) (.v 9 [.var 6, .var 3]))) (.mul (.v 1 [.var 0, .var 6]) (.v 6 [.var 4, .var 3]))) (.mul (.v 0 [.var 0, .var 6]) (.v 7 [.var 4, .var 3])))) (.sub (.v 2 [.var 7, .var 5]) (.v 3 [.var 7, .var 5]))) (.mem .c 4)) (.div (.smul (.div (.div (.mul (.mul (.mul (.mul (.loc .r 0) (.mem .r 0)) (.mem .r 0)) (.mem .r 1)) (.lit 2)) (.mem .r 6)) (.mem .r 6)) (.mul (.mul (.v 2 [.var 6, .var 4]) (.v 3 [.var 7, .var 5])) (.sub (.v 14 [.var 3, .var 0]) (.v 15 [.var 0, .var 3])))) (.mem .c 4))))) <|
    -- 195: amplitude+=-normFactor*preZ*(-(gL-gR)*mu*s23s.v(ds2a,ds3a)*a23a.v(ds2b,ds3b)*(s14s.v(ds1,ds4)+a14a.v(ds1,ds4))+two*s23s.v(ds2a,ds3a)*a23a.v(ds2b,ds3b)*(gL*s431a.v(ds4,ds1)-gR*s134a.v(ds1,ds4))+two*MW*(s23s.v(ds2a,ds3a)-a23a.v(ds2a,ds3a))*(+gL*(s34s.v(ds3b,ds4)*a12a.v(ds1,ds2b)-s24s.v(ds2b,ds4)*a13a.v(ds1,ds3b))-gR*(s13s.v(ds1,ds3b)*a24a.v(ds2b,ds4)-s12s.v(ds1,ds2b)*a34a.v(ds3b,ds4))))/pDenZU
    .set .c 0 (.add (.loc .c 0) (.div (.smul (.mul (.neg (.loc .r 0)) (.mem .r 14)) (.add (.add (.mul (.mul (.smul (.mul (.neg (.sub (.mem .r 15) (.mem .r 16))) (.mem .r 2)) (.v 2 [.var 6, .var 4])) (.v 3 [.var 7, .var 5])) (.add (.v 10 [.var 0, .var 3]) (.v 11 [.var 0, .var 3]))) (.mul (.mul (.smul (.lit 2) (.v 2 [.var 6, .var 4])) (.v 3 [.var 7, .var 5])) (.sub (.smul (.mem .r 15) (.v 14 [.var 3, .var 0])) (.smul (.mem .r 16) (.v 15 [.var 0, .var 3]))))) (.mul (.smul (.mul (.lit 2) (.mem .r 6)) (.sub (.v 2 [.var 6, .var 4]) (.v 3 [.var 6, .var 4]))) (.sub (.smul (.mem .r 15) (.sub (.mul (.v 6 [.var 5, .var 3]) (.v 1 [.var 0, .var 7])) (.mul (.v 8 [.var 7, .var 3]) (.v 5 [.var 0, .var 5])))) (.smul (.mem .r 16) (.sub (.mul (.v 4 [.var 0, .var 5]) (.v 9 [.var 7, .var 3])) (.mul (.v 0 [.var 0, .var 7]) (.v 7 [.var 5, .var 3])))))))) (.mem .c 3))))) <|
  -- 205: return amplitude
  .ret .c (.loc .c 0)⟩

/-- `ldouble amp2()` (SM/uWWu.cpp:209-224); variables: r 0 `amp2`, c 0 `M`, i 0 `j1`, i 1 `j2`, i 2 `j3`, i 3 `j4` -/
def m_amp2 : Method := ⟨0, 
  -- 210: ldouble amp2
  .seq (.set .r 0 (.lit 0)) <|
  -- 211: cdouble M
  .seq (.set .c 0 (.ofR (.lit 0))) <|
  -- 214: for(int j1=-1;j1<=1;j1+=2)
  .seq (.loop 0 (-1) true (.lit 1) 2 (
    -- 215: for(int j2=-2;j2<=2;j2+=2)
    .loop 1 (-2) true (.lit 2) 2 (
      -- 216: for(int j3=-2;j3<=2;j3+=2)
      .loop 2 (-2) true (.lit 2) 2 (
        -- 217: for(int j4=-1;j4<=1;j4+=2)
        .loop 3 (-1) true (.lit 1) 2 (
          -- 218: M=amp(j1,j2,j3,j4)
          .seq (.set .c 0 (.call 0 [.var 0, .var 1, .var 2, .var 3])) <|
          -- 219: amp2+=3.0*std::pow(std::abs(M),2)
          .set .r 0 (.add (.loc .r 0) (.mul (.lit 3) (.pow (.abs (.loc .c 0)) 2)))))))) <|
  -- 223: return amp2/18.0
  .ret .r (.div (.loc .r 0) (.lit 18))⟩

end uWWu

/-- `class uWWu` (SM/uWWu.cpp, SM/include/uWWu.h:25-36).  Members:
* ldouble: 0 `e`, 1 `Qf`, 2 `mu`, 3 `md`, 4 `mh`, 5 `wh`, 6 `MW`, 7 `SW`, 8 `CW`, 9 `MZ`, 10 `WZ`, 11 `sqrt2`, 12 `pred`, 13 `preh`, 14 `preZ`, 15 `gL`, 16 `gR`
* cdouble: 0 `pDenhU`, 1 `pDendT`, 2 `pDendS`, 3 `pDenZU`, 4 `pDenAU`
* propagator: 0 `proph`, 1 `propd`, 2 `propZ`, 3 `propA`
* sproduct: 0 `s12s`, 1 `a12a`, 2 `s23s`, 3 `a23a`, 4 `s13s`, 5 `a13a`, 6 `s34s`, 7 `a34a`, 8 `s24s`, 9 `a24a`, 10 `s14s`, 11 `a14a`, 12 `s213a`, 13 `s312a`, 14 `s431a`, 15 `s134a` -/
def uWWu : Proc where
  name := "uWWu"
  nPar := 8
  ctor := uWWu.ctor
  setMasses := uWWu.setMasses
  massPar := [1, 2, 3, 5]
  setMomenta := uWWu.setMomenta
  methods := [uWWu.m_amp2, uWWu.m_amp]
  amp2 := 1
  others := []

namespace uZZu

/-- constructor (SM/uZZu.cpp:32-63); parameters: 0 `echarge`, 1 `massf`, 2 `massh`, 3 `widthh`, 4 `massW`, 5 `sinW`, 6 `widthZ` -/
def ctor : List SInstr := [
  -- 32: e(echarge)
  .set .r 0 (.loc .r 0),
  -- 32: Qf(2.0/3.0)
  .set .r 1 (.div (.lit 2) (.lit 3)),
  -- 32: mf(massf)
  .set .r 2 (.loc .r 1),
  -- 32: mh(massh)
  .set .r 3 (.loc .r 2),
  -- 32: wh(widthh)
  .set .r 4 (.loc .r 3),
  -- 32: MW(massW)
  .set .r 5 (.loc .r 4),
  -- 32: SW(sinW)
  .set .r 6 (.loc .r 5),
  -- 32: CW(std::sqrt(1.0-sinW*sinW))
  .set .r 7 (.sqrt (.sub (.lit 1) (.mul (.loc .r 5) (.loc .r 5)))),
  -- 32: MZ(massW/CW)
  .set .r 8 (.div (.loc .r 4) (.mem .r 7)),
  -- 32: WZ(widthZ)
  .set .r 9 (.loc .r 6),
  -- 32: propf(massf,0)
  .prop 1 (.loc .r 1) (.lit 0),
  -- 35: sqrt2=std::sqrt(two)
  .set .r 10 (.sqrt (.lit 2)),
  -- 36: MZ=MW/CW
  .set .r 8 (.div (.mem .r 5) (.mem .r 7)),
  -- 37: proph=propagator(mh,wh)
  .prop 0 (.mem .r 3) (.mem .r 4),
  -- 38: p1=particle(mf)
  .part 0 (.mem .r 2),
  -- 39: p2=particle(MZ)
  .part 1 (.mem .r 8),
  -- 40: p3=particle(MZ)
  .part 2 (.mem .r 8),
  -- 41: p4=particle(mf)
  .part 3 (.mem .r 2),
  -- 43: s12s=sproduct(SQUARE,&p1,&p2)
  .sprod 0 ⟨false, 0, true, [], 1, true⟩,
  -- 44: a12a=sproduct(ANGLE,&p1,&p2)
  .sprod 1 ⟨true, 0, true, [], 1, true⟩,
  -- 45: s23s=sproduct(SQUARE,&p2,&p3)
  .sprod 2 ⟨false, 1, true, [], 2, true⟩,
  -- 46: a23a=sproduct(ANGLE,&p2,&p3)
  .sprod 3 ⟨true, 1, true, [], 2, true⟩,
  -- 47: s13s=sproduct(SQUARE,&p1,&p3)
  .sprod 4 ⟨false, 0, true, [], 2, true⟩,
  -- 48: a13a=sproduct(ANGLE,&p1,&p3)
  .sprod 5 ⟨true, 0, true, [], 2, true⟩,
  -- 49: s34s=sproduct(SQUARE,&p3,&p4)
  .sprod 6 ⟨false, 2, true, [], 3, true⟩,
  -- 50: a34a=sproduct(ANGLE,&p3,&p4)
  .sprod 7 ⟨true, 2, true, [], 3, true⟩,
  -- 51: s24s=sproduct(SQUARE,&p2,&p4)
  .sprod 8 ⟨false, 1, true, [], 3, true⟩,
  -- 52: a24a=sproduct(ANGLE,&p2,&p4)
  .sprod 9 ⟨true, 1, true, [], 3, true⟩,
  -- 53: s14s=sproduct(SQUARE,&p1,&p4)
  .sprod 10 ⟨false, 0, true, [], 3, true⟩,
  -- 54: a14a=sproduct(ANGLE,&p1,&p4)
  .sprod 11 ⟨true, 0, true, [], 3, true⟩,
  -- 56: s312a=sproduct(SQUARE,&p3,&p1,&p2)
  .sprod 12 ⟨false, 2, true, [0], 1, true⟩,
  -- 57: s213a=sproduct(SQUARE,&p2,&p1,&p3)
  .sprod 13 ⟨false, 1, true, [0], 2, true⟩,
  -- 59: preTU=e*e/(2.0*MW*MW*SW*SW)
  .set .r 11 (.div (.mul (.mem .r 0) (.mem .r 0)) (.mul (.mul (.mul (.mul (.lit 2) (.mem .r 5)) (.mem .r 5)) (.mem .r 6)) (.mem .r 6))),
  -- 60: gL=-2.0*Qf*SW*SW+1.0
  .set .r 13 (.add (.mul (.mul (.mul (.neg (.lit 2)) (.mem .r 1)) (.mem .r 6)) (.mem .r 6)) (.lit 1)),
  -- 61: gR=-2.0*Qf*SW*SW
  .set .r 14 (.mul (.mul (.mul (.neg (.lit 2)) (.mem .r 1)) (.mem .r 6)) (.mem .r 6)),
  -- 62: preh=e*e*mf/(2.0*MW*MW*SW*SW)
  .set .r 12 (.div (.mul (.mul (.mem .r 0) (.mem .r 0)) (.mem .r 2)) (.mul (.mul (.mul (.mul (.lit 2) (.mem .r 5)) (.mem .r 5)) (.mem .r 6)) (.mem .r 6)))]

/-- `set_masses` (SM/uZZu.cpp:64-78); parameters: 0 `massf`, 1 `massh`, 2 `massW` -/
def setMasses : List SInstr := [
  -- 65: mf=massf
  .set .r 2 (.loc .r 0),
  -- 66: mh=massh
  .set .r 3 (.loc .r 1),
  -- 67: MW=massW
  .set .r 5 (.loc .r 2),
  -- 68: MZ=MW/CW
  .set .r 8 (.div (.mem .r 5) (.mem .r 7)),
  -- 69: p1.set_mass(mf)
  .setMass 0 (.mem .r 2),
  -- 70: p2.set_mass(MZ)
  .setMass 1 (.mem .r 8),
  -- 71: p3.set_mass(MZ)
  .setMass 2 (.mem .r 8),
  -- 72: p4.set_mass(mf)
  .setMass 3 (.mem .r 2),
  -- 73: propf.set_mass(mf)
  .propMass 1 (.mem .r 2),
  -- 74: proph.set_mass(mh)
  .propMass 0 (.mem .r 3),
  -- 76: preTU=e*e/(2.0*MW*MW*SW*SW)
  .set .r 11 (.div (.mul (.mem .r 0) (.mem .r 0)) (.mul (.mul (.mul (.mul (.lit 2) (.mem .r 5)) (.mem .r 5)) (.mem .r 6)) (.mem .r 6))),
  -- 77: preh=e*e*mf/(2.0*MW*MW*SW*SW)
  .set .r 12 (.div (.mul (.mul (.mem .r 0) (.mem .r 0)) (.mem .r 2)) (.mul (.mul (.mul (.mul (.lit 2) (.mem .r 5)) (.mem .r 5)) (.mem .r 6)) (.mem .r 6)))]

/-- `set_momenta` (SM/uZZu.cpp:79-111); parameters: 0 `mom1`, 1 `mom2`, 2 `mom3`, 3 `mom4` -/
def setMomenta : List SInstr := [
  -- 81: p1.set_momentum(mom1)
  .setMom 0 0,
  -- 82: p2.set_momentum(mom2)
  .setMom 1 1,
  -- 83: p3.set_momentum(mom3)
  .setMom 2 2,
  -- 84: p4.set_momentum(mom4)
  .setMom 3 3,
  -- 86: s12s.update()
  .update 0,
  -- 87: a12a.update()
  .update 1,
  -- 88: s23s.update()
  .update 2,
  -- 89: a23a.update()
  .update 3,
  -- 90: s13s.update()
  .update 4,
  -- 91: a13a.update()
  .update 5,
  -- 92: s34s.update()
  .update 6,
  -- 93: a34a.update()
  .update 7,
  -- 94: s24s.update()
  .update 8,
  -- 95: a24a.update()
  .update 9,
  -- 96: s14s.update()
  .update 10,
  -- 97: a14a.update()
  .update 11,
  -- 99: s312a.update()
  .update 12,
  -- 100: s213a.update()
  .update 13,
  -- 108: pDenS=propf.denominator(propSP)
  .den .c 0 1 (.add 0 1),
  -- 109: pDenT=propf.denominator(propTP)
  .den .c 1 1 (.sub 0 2),
  -- 110: pDenU=proph.denominator(propUP)
  .den .c 2 0 (.sub 0 3)]

/-- `cdouble amp(ds1,ds2,ds3,ds4)` (SM/uZZu.cpp:116-178); variables: i 0 `ds1`, i 1 `ds2`, i 2 `ds3`, i 3 `ds4`, c 0 `amplitude`, i 4 `ds3a`, i 5 `ds3b`, i 6 `ds2a`, i 7 `ds2b`, i 8 `nCombs`, r 0 `normFactor`, i 9 `i` -/
def m_amp : Method := ⟨4, 
  -- 117: cdouble amplitude
  .seq (.set .c 0 (.ofR (.lit 0))) <|
  -- 121: int nCombs
  .seq (.seti 8 (.loops [2, 1])) <|
  -- 122: ldouble normFactor
  .seq (.set .r 0 (.norm [2, 1])) <|
  -- 124: for(int i=0;i<nCombs;i++)
  .seq (.loop 9 0 false (.var 8) 1 (
    -- 125: get_spinor_spins(ds3,ds3a,ds3b,ds2,ds2a,ds2b,i)
    .seq (.spins [(2, 4, 5), (1, 6, 7)] (.var 9)) <|
    -- 135: amplitude+=-normFactor*preh*s23s.v(ds2a,ds3a)*a23a.v(ds2b,ds3b)*(s14s.v(ds1,ds4)-a14a.v(ds1,ds4))/pDenU
    .seq (.set .c 0 (.add (.loc .c 0) (.div (.mul (.mul (.smul (.mul (.neg (.loc .r 0)) (.mem .r 12)) (.v 2 [.var 6, .var 4])) (.v 3 [.var 7, .var 5])) (.sub (.v 10 [.var 0, .var 3]) (.v 11 [.var 0, .var 3]))) (.mem .c 2)))) <|
    -- 151: amplitude+=-normFactor*preTU*gL*gL*s24s.v(ds2a,ds4)*a13a.v(ds1,ds3a)*(MZ*a23a.v(ds2b,ds3b)+s312a.v(ds3b,ds2b))/pDenT+normFactor*preTU*gR*gR*a24a.v(ds2a,ds4)*s13s.v(ds1,ds3a)*(MZ*s23s.v(ds2b,ds3b)+s213a.v(ds2b,ds3b))/pDenT+normFactor*preTU*gL*gR*mf*(s13s.v(ds1,ds3a)*s24s.v(ds2a,ds4)*a23a.v(ds2b,ds3b)-a13a.v(ds1,ds3a)*a24a.v(ds2a,ds4)*s23s.v(ds2b,ds3b))/pDenT
    .seq (.set .c 0 (.add (.loc .c 0) (.add (.add (.div (.mul (.mul (.smul (.mul (.mul (.mul (.neg (.loc .r 0)) (.mem .r 11)) (.mem .r 13)) (.mem .r 13)) (.v 8 [.var 6, .var 3])) (.v 5 [.var 0, .var 4])) (.add (.smul (.mem .r 8) (.v 3 [.var 7, .var 5])) (.v 12 [.var 5, .var 7]))) (.mem .c 1)) (.div (.mul (.mul (.smul (.mul (.mul (.mul (.loc .r 0) (.mem .r 11)) (.mem .r 14)) (.mem .r 14)) (.v 9 [.var 6, .var 3])) (.v 4 [.var 0, .var 4])) (.add (.smul (.mem .r 8) (.v 2 [.var 7, .var 5])) (.v 13 [.var 7, .var 5]))) (.mem .c 1))) (.div (.smul (.mul (.mul (.mul (.mul (.loc .r 0) (.mem .r 11)) (.mem .r 13)) (.mem .r 14)) (.mem .r 2)) (.sub (.mul (.mul (.v 4 [.var 0, .var 4]) (.v 8 [.var 6, .var 3])) (.v 3 [.var 7, .var 5])) (.mul (.mul (.v 5 [.var 0, .var 4]) (.v 9 [.var 6, .var 3])) (.v 2 [.var 7, .var 5])))) (.mem .c 1))))) <|
    -- 170: amplitude+=-normFactor*preTU*gL*gL*s34s.v(ds3a,ds4)*a12a.v(ds1,ds2a)*(MZ*a23a.v(ds2b,ds3b)+s213a.v(ds2b,ds3b))/pDenS+normFactor*preTU*gR*gR*s12s.v(ds1,ds2a)*a34a.v(ds3a,ds4)*(MZ*s23s.v(ds2b,ds3b)+s312a.v(ds3b,ds2b))/pDenS+normFactor*preTU*gL*gR*mf*(-s12s.v(ds1,ds2a)*s34s.v(ds3a,ds4)*a23a.v(ds2b,ds3b)+a12a.v(ds1,ds2a)*a34a.v(ds3a,ds4)*s23s.v(ds2b,ds3b))/pDenS
    .set .c 0 (.add (.loc .c 0) (.add (.add (.div (.mul (.mul (.smul (.mul (.mul (.mul (.neg (.loc .r 0)) (.mem .r 11)) (.mem .r 13)) (.mem .r 13)) (.v 6 [.var 4, .var 3])) (.v 1 [.var 0, .var 6])) (.add (.smul (.mem .r 8) (.v 3 [.var 7, .var 5])) (.v 13 [.var 7, .var 5]))) (.mem .c 0)) (.div (.mul (.mul (.smul (.mul (.mul (.mul (.loc .r 0) (.mem .r 11)) (.mem .r 14)) (.mem .r 14)) (.v 0 [.var 0, .var 6])) (.v 7 [.var 4, .var 3])) (.add (.smul (.mem .r 8) (.v 2 [.var 7, .var 5])) (.v 12 [.var 5, .var 7]))) (.mem .c 0))) (.div (.smul (.mul (.mul (.mul (.mul (.loc .r 0) (.mem .r 11)) (.mem .r 13)) (.mem .r 14)) (.mem .r 2)) (.add (.mul (.mul (.neg (.v 0 [.var 0, .var 6])) (.v 6 [.var 4, .var 3])) (.v 3 [.var 7, .var 5])) (.mul (.mul (.v 1 [.var 0, .var 6]) (.v 7 [.var 4, .var 3])) (.v 2 [.var 7, .var 5])))) (.mem .c 0)))))) <|
  -- 177: return amplitude
  .ret .c (.loc .c 0)⟩

/-- `ldouble amp2()` (SM/uZZu.cpp:181-196); variables: r 0 `amp2`, c 0 `M`, i 0 `j1`, i 1 `j2`, i 2 `j3`, i 3 `j4` -/
def m_amp2 : Method := ⟨0, 
  -- 182: ldouble amp2
  .seq (.set .r 0 (.lit 0)) <|
  -- 183: cdouble M
  .seq (.set .c 0 (.ofR (.lit 0))) <|
  -- 186: for(int j1=-1;j1<=1;j1+=2)
  .seq (.loop 0 (-1) true (.lit 1) 2 (
    -- 187: for(int j2=-2;j2<=2;j2+=2)
    .loop 1 (-2) true (.lit 2) 2 (
      -- 188: for(int j3=-2;j3<=2;j3+=2)
      .loop 2 (-2) true (.lit 2) 2 (
        -- 189: for(int j4=-1;j4<=1;j4+=2)
        .loop 3 (-1) true (.lit 1) 2 (
          -- 190: M=amp(j1,j2,j3,j4)
          .seq (.set .c 0 (.call 0 [.var 0, .var 1, .var 2, .var 3])) <|
          -- 191: amp2+=3.0*std::pow(std::abs(M),2)
          .set .r 0 (.add (.loc .r 0) (.mul (.lit 3) (.pow (.abs (.loc .c 0)) 2)))))))) <|
  -- 195: return amp2/18.0
  .ret .r (.div (.loc .r 0) (.lit 18))⟩

end uZZu

/-- `class uZZu` (SM/uZZu.cpp, SM/include/uZZu.h:25-36).  Members:
* ldouble: 0 `e`, 1 `Qf`, 2 `mf`, 3 `mh`, 4 `wh`, 5 `MW`, 6 `SW`, 7 `CW`, 8 `MZ`, 9 `WZ`, 10 `sqrt2`, 11 `preTU`, 12 `preh`, 13 `gL`, 14 `gR`
* cdouble: 0 `pDenS`, 1 `pDenT`, 2 `pDenU`
* propagator: 0 `proph`, 1 `propf`
* sproduct: 0 `s12s`, 1 `a12a`, 2 `s23s`, 3 `a23a`, 4 `s13s`, 5 `a13a`, 6 `s34s`, 7 `a34a`, 8 `s24s`, 9 `a24a`, 10 `s14s`, 11 `a14a`, 12 `s312a`, 13 `s213a` -/
def uZZu : Proc where
  name := "uZZu"
  nPar := 7
  ctor := uZZu.ctor
  setMasses := uZZu.setMasses
  massPar := [1, 2, 4]
  setMomenta := uZZu.setMomenta
  methods := [uZZu.m_amp2, uZZu.m_amp]
  amp2 := 1
  others := []

namespace uZuh

/-- constructor (SM/uZuh.cpp:32-60); parameters: 0 `echarge`, 1 `massu`, 2 `massh`, 3 `widthh`, 4 `massW`, 5 `sinW`, 6 `widthZ` -/
def ctor : List SInstr := [
  -- 32: e(echarge)
  .set .r 0 (.loc .r 0),
  -- 32: mu(massu)
  .set .r 1 (.loc .r 1),
  -- 32: mh(massh)
  .set .r 2 (.loc .r 2),
  -- 32: wh(widthh)
  .set .r 3 (.loc .r 3),
  -- 32: MW(massW)
  .set .r 4 (.loc .r 4),
  -- 32: SW(sinW)
  .set .r 5 (.loc .r 5),
  -- 32: CW(std::sqrt(1.0-sinW*sinW))
  .set .r 6 (.sqrt (.sub (.lit 1) (.mul (.loc .r 5) (.loc .r 5)))),
  -- 32: MZ(massW/CW)
  .set .r 7 (.div (.loc .r 4) (.mem .r 6)),
  -- 32: WZ(widthZ)
  .set .r 8 (.loc .r 6),
  -- 32: propu(massu,0)
  .prop 1 (.loc .r 1) (.lit 0),
  -- 35: sqrt2=std::sqrt(two)
  .set .r 9 (.sqrt (.lit 2)),
  -- 36: MZ=MW/CW
  .set .r 7 (.div (.mem .r 4) (.mem .r 6)),
  -- 37: propZ=propagator(MZ,WZ)
  .prop 0 (.mem .r 7) (.mem .r 8),
  -- 38: p1=particle(mu)
  .part 0 (.mem .r 1),
  -- 39: p2=particle(MZ)
  .part 1 (.mem .r 7),
  -- 40: p3=particle(mu)
  .part 2 (.mem .r 1),
  -- 41: p4=particle(mh)
  .part 3 (.mem .r 2),
  -- 43: s12s=sproduct(SQUARE,&p1,&p2)
  .sprod 0 ⟨false, 0, true, [], 1, true⟩,
  -- 44: a12a=sproduct(ANGLE,&p1,&p2)
  .sprod 1 ⟨true, 0, true, [], 1, true⟩,
  -- 45: s23s=sproduct(SQUARE,&p2,&p3)
  .sprod 2 ⟨false, 1, true, [], 2, true⟩,
  -- 46: a23a=sproduct(ANGLE,&p2,&p3)
  .sprod 3 ⟨true, 1, true, [], 2, true⟩,
  -- 47: s13s=sproduct(SQUARE,&p1,&p3)
  .sprod 4 ⟨false, 0, true, [], 2, true⟩,
  -- 48: a13a=sproduct(ANGLE,&p1,&p3)
  .sprod 5 ⟨true, 0, true, [], 2, true⟩,
  -- 50: s213a=sproduct(SQUARE,&p2,&p1,&p3)
  .sprod 6 ⟨false, 1, true, [0], 2, true⟩,
  -- 51: s312a=sproduct(SQUARE,&p3,&p1,&p2)
  .sprod 7 ⟨false, 2, true, [0], 1, true⟩,
  -- 52: s242a=sproduct(SQUARE,&p2,&p4,&p2)
  .sprod 8 ⟨false, 1, true, [3], 1, true⟩,
  -- 53: s142a=sproduct(SQUARE,&p1,&p4,&p2)
  .sprod 9 ⟨false, 0, true, [3], 1, true⟩,
  -- 54: s241a=sproduct(SQUARE,&p2,&p4,&p1)
  .sprod 10 ⟨false, 1, true, [3], 0, true⟩,
  -- 56: preTU=sqrt2*e*e*mu/(4.0*MW*MW*SW*SW)
  .set .r 10 (.div (.mul (.mul (.mul (.mem .r 9) (.mem .r 0)) (.mem .r 0)) (.mem .r 1)) (.mul (.mul (.mul (.mul (.lit 4) (.mem .r 4)) (.mem .r 4)) (.mem .r 5)) (.mem .r 5))),
  -- 57: gL=-4.0/3.0*SW*SW+1.0
  .set .r 12 (.add (.mul (.mul (.div (.neg (.lit 4)) (.lit 3)) (.mem .r 5)) (.mem .r 5)) (.lit 1)),
  -- 58: gR=-4.0/3.0*SW*SW
  .set .r 13 (.mul (.mul (.div (.neg (.lit 4)) (.lit 3)) (.mem .r 5)) (.mem .r 5)),
  -- 59: preZ=sqrt2*e*e/(4.0*MW*MW*SW*SW)
  .set .r 11 (.div (.mul (.mul (.mem .r 9) (.mem .r 0)) (.mem .r 0)) (.mul (.mul (.mul (.mul (.lit 4) (.mem .r 4)) (.mem .r 4)) (.mem .r 5)) (.mem .r 5)))]

/-- `set_masses` (SM/uZuh.cpp:61-75); parameters: 0 `massu`, 1 `massh`, 2 `massW` -/
def setMasses : List SInstr := [
  -- 62: mu=massu
  .set .r 1 (.loc .r 0),
  -- 63: mh=massh
  .set .r 2 (.loc .r 1),
  -- 64: MW=massW
  .set .r 4 (.loc .r 2),
  -- 65: MZ=MW/CW
  .set .r 7 (.div (.mem .r 4) (.mem .r 6)),
  -- 66: p1.set_mass(mu)
  .setMass 0 (.mem .r 1),
  -- 67: p2.set_mass(MZ)
  .setMass 1 (.mem .r 7),
  -- 68: p3.set_mass(mu)
  .setMass 2 (.mem .r 1),
  -- 69: p4.set_mass(mh)
  .setMass 3 (.mem .r 2),
  -- 70: propu.set_mass(mu)
  .propMass 1 (.mem .r 1),
  -- 71: propZ.set_mass(MZ)
  .propMass 0 (.mem .r 7),
  -- 73: preTU=sqrt2*e*e*mu/(4.0*MW*MW*SW*SW)
  .set .r 10 (.div (.mul (.mul (.mul (.mem .r 9) (.mem .r 0)) (.mem .r 0)) (.mem .r 1)) (.mul (.mul (.mul (.mul (.lit 4) (.mem .r 4)) (.mem .r 4)) (.mem .r 5)) (.mem .r 5))),
  -- 74: preZ=sqrt2*e*e/(4.0*MW*MW*SW*SW)
  .set .r 11 (.div (.mul (.mul (.mem .r 9) (.mem .r 0)) (.mem .r 0)) (.mul (.mul (.mul (.mul (.lit 4) (.mem .r 4)) (.mem .r 4)) (.mem .r 5)) (.mem .r 5)))]

/-- `set_momenta` (SM/uZuh.cpp:76-105); parameters: 0 `mom1`, 1 `mom2`, 2 `mom3`, 3 `mom4` -/
def setMomenta : List SInstr := [
  -- 78: p1.set_momentum(mom1)
  .setMom 0 0,
  -- 79: p2.set_momentum(mom2)
  .setMom 1 1,
  -- 80: p3.set_momentum(mom3)
  .setMom 2 2,
  -- 81: p4.set_momentum(mom4)
  .setMom 3 3,
  -- 83: s12s.update()
  .update 0,
  -- 84: a12a.update()
  .update 1,
  -- 85: s23s.update()
  .update 2,
  -- 86: a23a.update()
  .update 3,
  -- 87: s13s.update()
  .update 4,
  -- 88: a13a.update()
  .update 5,
  -- 90: s213a.update()
  .update 6,
  -- 91: s312a.update()
  .update 7,
  -- 92: s242a.update()
  .update 8,
  -- 93: s142a.update()
  .update 9,
  -- 94: s241a.update()
  .update 10,
  -- 102: pDenS=propu.denominator(propSP)
  .den .c 0 1 (.add 0 1),
  -- 103: pDenT=propZ.denominator(propTP)
  .den .c 1 0 (.sub 0 2),
  -- 104: pDenU=propu.denominator(propUP)
  .den .c 2 1 (.sub 0 3)]

/-- `cdouble amp(ds1,ds2,ds3)` (SM/uZuh.cpp:110-152); variables: i 0 `ds1`, i 1 `ds2`, i 2 `ds3`, c 0 `amplitude`, i 3 `ds2a`, i 4 `ds2b`, i 5 `nCombs`, r 0 `normFactor`, i 6 `i` -/
def m_amp : Method := ⟨3, 
  -- 111: cdouble amplitude
  .seq (.set .c 0 (.ofR (.lit 0))) <|
  -- 115: int nCombs
  .seq (.seti 5 (.loops [1])) <|
  -- 116: ldouble normFactor
  .seq (.set .r 0 (.norm [1])) <|
  -- 117: for(int i=0;i<nCombs;i++)
  .seq (.loop 6 0 false (.var 5) 1 (
    -- 118: get_spinor_spins(ds2,ds2a,ds2b,i)
    .seq (.spins [(1, 3, 4)] (.var 6)) <|
    -- 128: amplitude+=normFactor*preZ*(mu*(gL-gR)*(a13a.v(ds1,ds3)+s13s.v(ds1,ds3))*s242a.v(ds2a,ds2b)-2.0*MZ*MZ*(gL*s23s.v(ds2a,ds3)*a12a.v(ds1,ds2b)-gR*a23a.v(ds2a,ds3)*s12s.v(ds1,ds2b)))/pDenT
    .seq (.set .c 0 (.add (.loc .c 0) (.div (.smul (.mul (.loc .r 0) (.mem .r 11)) (.sub (.mul (.smul (.mul (.mem .r 1) (.sub (.mem .r 12) (.mem .r 13))) (.add (.v 5 [.var 0, .var 2]) (.v 4 [.var 0, .var 2]))) (.v 8 [.var 3, .var 4])) (.smul (.mul (.mul (.lit 2) (.mem .r 7)) (.mem .r 7)) (.sub (.mul (.smul (.mem .r 12) (.v 2 [.var 3, .var 2])) (.v 1 [.var 0, .var 4])) (.mul (.smul (.mem .r 13) (.v 3 [.var 3, .var 2])) (.v 0 [.var 0, .var 4])))))) (.mem .c 1)))) <|
    -- 138: amplitude+=normFactor*preTU*(gL*a12a.v(ds1,ds2a)*(-mu*s23s.v(ds2b,ds3)+s213a.v(ds2b,ds3)+MZ*a23a.v(ds2b,ds3))+gR*s12s.v(ds1,ds2a)*(mu*a23a.v(ds2b,ds3)-s312a.v(ds3,ds2b)-MZ*s23s.v(ds2b,ds3)))/pDenS
    .seq (.set .c 0 (.add (.loc .c 0) (.div (.smul (.mul (.loc .r 0) (.mem .r 10)) (.add (.mul (.smul (.mem .r 12) (.v 1 [.var 0, .var 3])) (.add (.add (.smul (.neg (.mem .r 1)) (.v 2 [.var 4, .var 2])) (.v 6 [.var 4, .var 2])) (.smul (.mem .r 7) (.v 3 [.var 4, .var 2])))) (.mul (.smul (.mem .r 13) (.v 0 [.var 0, .var 3])) (.sub (.sub (.smul (.mem .r 1) (.v 3 [.var 4, .var 2])) (.v 7 [.var 2, .var 4])) (.smul (.mem .r 7) (.v 2 [.var 4, .var 2])))))) (.mem .c 0)))) <|
    -- 148: amplitude+=-normFactor*preTU*(gL*s23s.v(ds2a,ds3)*(-s142a.v(ds1,ds2b)+2.0*mu*a12a.v(ds1,ds2b))-gR*a23a.v(ds2a,ds3)*(-s241a.v(ds2b,ds1)+2.0*mu*s12s.v(ds1,ds2b)))/pDenU
    .set .c 0 (.add (.loc .c 0) (.div (.smul (.mul (.neg (.loc .r 0)) (.mem .r 10)) (.sub (.mul (.smul (.mem .r 12) (.v 2 [.var 3, .var 2])) (.add (.neg (.v 9 [.var 0, .var 4])) (.smul (.mul (.lit 2) (.mem .r 1)) (.v 1 [.var 0, .var 4])))) (.mul (.smul (.mem .r 13) (.v 3 [.var 3, .var 2])) (.add (.neg (.v 10 [.var 4, .var 0])) (.smul (.mul (.lit 2) (.mem .r 1)) (.v 0 [.var 0, .var 4])))))) (.mem .c 2))))) <|
  -- 151: return amplitude
  .ret .c (.loc .c 0)⟩

/-- `ldouble amp2()` (SM/uZuh.cpp:155-169); variables: r 0 `amp2`, c 0 `M`, i 0 `j1`, i 1 `j2`, i 2 `j3` -/
def m_amp2 : Method := ⟨0, 
  -- 156: ldouble amp2
  .seq (.set .r 0 (.lit 0)) <|
  -- 157: cdouble M
  .seq (.set .c 0 (.ofR (.lit 0))) <|
  -- 160: for(int j1=-1;j1<=1;j1+=2)
  .seq (.loop 0 (-1) true (.lit 1) 2 (
    -- 161: for(int j2=-2;j2<=2;j2+=2)
    .loop 1 (-2) true (.lit 2) 2 (
      -- 162: for(int j3=-1;j3<=1;j3+=2)
      .loop 2 (-1) true (.lit 1) 2 (
        -- 163: M=amp(j1,j2,j3)
        .seq (.set .c 0 (.call 0 [.var 0, .var 1, .var 2])) <|
        -- 164: amp2+=3.0*std::pow(std::abs(M),2)
        .set .r 0 (.add (.loc .r 0) (.mul (.lit 3) (.pow (.abs (.loc .c 0)) 2))))))) <|
  -- 168: return amp2/18.0
  .ret .r (.div (.loc .r 0) (.lit 18))⟩

end uZuh

/-- `class uZuh` (SM/uZuh.cpp, SM/include/uZuh.h:25-36).  Members:
* ldouble: 0 `e`, 1 `mu`, 2 `mh`, 3 `wh`, 4 `MW`, 5 `SW`, 6 `CW`, 7 `MZ`, 8 `WZ`, 9 `sqrt2`, 10 `preTU`, 11 `preZ`, 12 `gL`, 13 `gR`
* cdouble: 0 `pDenS`, 1 `pDenT`, 2 `pDenU`
* propagator: 0 `propZ`, 1 `propu`
* sproduct: 0 `s12s`, 1 `a12a`, 2 `s23s`, 3 `a23a`, 4 `s13s`, 5 `a13a`, 6 `s213a`, 7 `s312a`, 8 `s242a`, 9 `s142a`, 10 `s241a` -/
def uZuh : Proc where
  name := "uZuh"
  nPar := 7
  ctor := uZuh.ctor
  setMasses := uZuh.setMasses
  massPar := [1, 2, 4]
  setMomenta := uZuh.setMomenta
  methods := [uZuh.m_amp2, uZuh.m_amp]
  amp2 := 1
  others := []

namespace ubdt

/-- constructor (SM/ubdt.cpp:32-45); parameters: 0 `echarge`, 1 `massu`, 2 `massd`, 3 `masst`, 4 `massb`, 5 `massW`, 6 `widthW`, 7 `sinW` -/
def ctor : List SInstr := [
  -- 32: e(echarge)
  .set .r 0 (.loc .r 0),
  -- 32: mu(massu)
  .set .r 1 (.loc .r 1),
  -- 32: md(massd)
  .set .r 2 (.loc .r 2),
  -- 32: mt(masst)
  .set .r 3 (.loc .r 3),
  -- 32: mb(massb)
  .set .r 4 (.loc .r 4),
  -- 32: MW(massW)
  .set .r 5 (.loc .r 5),
  -- 32: WW(widthW)
  .set .r 6 (.loc .r 6),
  -- 32: SW(sinW)
  .set .r 7 (.loc .r 7),
  -- 32: p1(particle(mu))
  .part 0 (.mem .r 1),
  -- 32: p2(particle(mb))
  .part 1 (.mem .r 4),
  -- 32: p3(particle(md))
  .part 2 (.mem .r 2),
  -- 32: p4(particle(mt))
  .part 3 (.mem .r 3),
  -- 32: prop(massW,widthW)
  .prop 0 (.loc .r 5) (.loc .r 6),
  -- 32: s34s(sproduct(SQUARE,&p3,&p4))
  .sprod 0 ⟨false, 2, true, [], 3, true⟩,
  -- 32: a12a(sproduct(ANGLE,&p1,&p2))
  .sprod 1 ⟨true, 0, true, [], 1, true⟩,
  -- 32: a13a(sproduct(ANGLE,&p1,&p3))
  .sprod 2 ⟨true, 0, true, [], 2, true⟩,
  -- 32: s13s(sproduct(SQUARE,&p1,&p3))
  .sprod 3 ⟨false, 0, true, [], 2, true⟩,
  -- 32: a24a(sproduct(ANGLE,&p2,&p4))
  .sprod 4 ⟨true, 1, true, [], 3, true⟩,
  -- 32: s24s(sproduct(SQUARE,&p2,&p4))
  .sprod 5 ⟨false, 1, true, [], 3, true⟩,
  -- 44: preW=e*e/(4.0*MW*MW*SW*SW)
  .set .r 8 (.div (.mul (.mem .r 0) (.mem .r 0)) (.mul (.mul (.mul (.mul (.lit 4) (.mem .r 5)) (.mem .r 5)) (.mem .r 7)) (.mem .r 7)))]

/-- `set_masses` (SM/ubdt.cpp:46-58); parameters: 0 `massu`, 1 `massd`, 2 `masst`, 3 `massb`, 4 `massW` -/
def setMasses : List SInstr := [
  -- 47: mu=massu
  .set .r 1 (.loc .r 0),
  -- 48: md=massd
  .set .r 2 (.loc .r 1),
  -- 49: mt=masst
  .set .r 3 (.loc .r 2),
  -- 50: mb=massb
  .set .r 4 (.loc .r 3),
  -- 51: MW=massW
  .set .r 5 (.loc .r 4),
  -- 52: p1.set_mass(mu)
  .setMass 0 (.mem .r 1),
  -- 53: p2.set_mass(mb)
  .setMass 1 (.mem .r 4),
  -- 54: p3.set_mass(md)
  .setMass 2 (.mem .r 2),
  -- 55: p4.set_mass(mt)
  .setMass 3 (.mem .r 3),
  -- 56: prop.set_mass(massW)
  .propMass 0 (.loc .r 4),
  -- 57: preW=e*e/(4.0*MW*MW*SW*SW)
  .set .r 8 (.div (.mul (.mem .r 0) (.mem .r 0)) (.mul (.mul (.mul (.mul (.lit 4) (.mem .r 5)) (.mem .r 5)) (.mem .r 7)) (.mem .r 7)))]

/-- `set_momenta` (SM/ubdt.cpp:59-77); parameters: 0 `mom1`, 1 `mom2`, 2 `mom3`, 3 `mom4` -/
def setMomenta : List SInstr := [
  -- 61: p1.set_momentum(mom1)
  .setMom 0 0,
  -- 62: p2.set_momentum(mom2)
  .setMom 1 1,
  -- 63: p3.set_momentum(mom3)
  .setMom 2 2,
  -- 64: p4.set_momentum(mom4)
  .setMom 3 3,
  -- 65: s34s.update()
  .update 0,
  -- 66: a12a.update()
  .update 1,
  -- 67: a13a.update()
  .update 2,
  -- 68: s13s.update()
  .update 3,
  -- 69: s24s.update()
  .update 5,
  -- 70: a24a.update()
  .update 4,
  -- 76: pDenT=prop.denominator(propPS)
  .den .c 0 0 (.sub 0 2)]

/-- `cdouble amp(ds1,ds2,ds3,ds4)` (SM/ubdt.cpp:82-97); variables: i 0 `ds1`, i 1 `ds2`, i 2 `ds3`, i 3 `ds4` -/
def m_amp : Method := ⟨4, 
  -- 90: return preW*2.0*(+2.0*MW*MW*s34s.v(ds3,ds4)*a12a.v(ds1,ds2)-md*mt*a13a.v(ds1,ds3)*a24a.v(ds2,ds4)-mt*mu*s13s.v(ds1,ds3)*a24a.v(ds2,ds4)-mb*md*a13a.v(ds1,ds3)*s24s.v(ds2,ds4)-mu*mb*s13s.v(ds1,ds3)*s24s.v(ds2,ds4))/pDenT
  .ret .c (.div (.smul (.mul (.mem .r 8) (.lit 2)) (.sub (.sub (.sub (.sub (.mul (.smul (.mul (.mul (.lit 2) (.mem .r 5)) (.mem .r 5)) (.v 0 [.var 2, .var 3])) (.v 1 [.var 0, .var 1])) (.mul (.smul (.mul (.mem .r 2) (.mem .r 3)) (.v 2 [.var 0, .var 2])) (.v 4 [.var 1, .var 3]))) (.mul (.smul (.mul (.mem .r 3) (.mem .r 1)) (.v 3 [.var 0, .var 2])) (.v 4 [.var 1, .var 3]))) (.mul (.smul (.mul (.mem .r 4) (.mem .r 2)) (.v 2 [.var 0, .var 2])) (.v 5 [.var 1, .var 3]))) (.mul (.smul (.mul (.mem .r 1) (.mem .r 4)) (.v 3 [.var 0, .var 2])) (.v 5 [.var 1, .var 3])))) (.mem .c 0))⟩

/-- `ldouble amp2()` (SM/ubdt.cpp:100-116); variables: r 0 `amp2`, c 0 `M`, i 0 `j1`, i 1 `j2`, i 2 `j3`, i 3 `j4` -/
def m_amp2 : Method := ⟨0, 
  -- 101: ldouble amp2
  .seq (.set .r 0 (.lit 0)) <|
  -- 102: cdouble M
  .seq (.set .c 0 (.ofR (.lit 0))) <|
  -- 105: for(int j1=-1;j1<=1;j1+=2)
  .seq (.loop 0 (-1) true (.lit 1) 2 (
    -- 106: for(int j2=-1;j2<=1;j2+=2)
    .loop 1 (-1) true (.lit 1) 2 (
      -- 107: for(int j3=-1;j3<=1;j3+=2)
      .loop 2 (-1) true (.lit 1) 2 (
        -- 108: for(int j4=-1;j4<=1;j4+=2)
        .loop 3 (-1) true (.lit 1) 2 (
          -- 109: M=amp(j1,j2,j3,j4)
          .seq (.set .c 0 (.call 0 [.var 0, .var 1, .var 2, .var 3])) <|
          -- 110: amp2+=std::pow(std::abs(M),2)
          .set .r 0 (.add (.loc .r 0) (.pow (.abs (.loc .c 0)) 2))))))) <|
  -- 115: return amp2/4.0
  .ret .r (.div (.loc .r 0) (.lit 4))⟩

end ubdt

/-- `class ubdt` (SM/ubdt.cpp, SM/include/ubdt.h:25-32).  Members:
* ldouble: 0 `e`, 1 `mu`, 2 `md`, 3 `mt`, 4 `mb`, 5 `MW`, 6 `WW`, 7 `SW`, 8 `preW`
* cdouble: 0 `pDenT`
* propagator: 0 `prop`
* sproduct: 0 `s34s`, 1 `a12a`, 2 `a13a`, 3 `s13s`, 4 `a24a`, 5 `s24s` -/
def ubdt : Proc where
  name := "ubdt"
  nPar := 8
  ctor := ubdt.ctor
  setMasses := ubdt.setMasses
  massPar := [1, 2, 3, 4, 5]
  setMomenta := ubdt.setMomenta
  methods := [ubdt.m_amp2, ubdt.m_amp]
  amp2 := 1
  others := []

namespace ucuc

/-- constructor (SM/ucuc.cpp:32-59); parameters: 0 `echarge`, 1 `gscharge`, 2 `massu`, 3 `massc`, 4 `massh`, 5 `widthh`, 6 `massW`, 7 `sinW`, 8 `widthZ` -/
def ctor : List SInstr := [
  -- 32: e(echarge)
  .set .r 0 (.loc .r 0),
  -- 32: gs(gscharge)
  .set .r 1 (.loc .r 1),
  -- 32: mu(massu)
  .set .r 2 (.loc .r 2),
  -- 32: mc(massc)
  .set .r 3 (.loc .r 3),
  -- 32: mh(massh)
  .set .r 4 (.loc .r 4),
  -- 32: wh(widthh)
  .set .r 5 (.loc .r 5),
  -- 32: WZ(widthZ)
  .set .r 7 (.loc .r 8),
  -- 32: MW(massW)
  .set .r 8 (.loc .r 6),
  -- 32: SW(sinW)
  .set .r 9 (.loc .r 7),
  -- 32: CW(std::sqrt(1.0-sinW*sinW))
  .set .r 10 (.sqrt (.sub (.lit 1) (.mul (.loc .r 7) (.loc .r 7)))),
  -- 32: p1(particle(mu))
  .part 0 (.mem .r 2),
  -- 32: p2(particle(mc))
  .part 1 (.mem .r 3),
  -- 32: p3(particle(mu))
  .part 2 (.mem .r 2),
  -- 32: p4(particle(mc))
  .part 3 (.mem .r 3),
  -- 32: propAG(0,0)
  .prop 0 (.lit 0) (.lit 0),
  -- 32: proph(mh,wh)
  .prop 1 (.mem .r 4) (.mem .r 5),
  -- 32: a13a(sproduct(ANGLE,&p1,&p3))
  .sprod 0 ⟨true, 0, true, [], 2, true⟩,
  -- 32: s13s(sproduct(SQUARE,&p1,&p3))
  .sprod 1 ⟨false, 0, true, [], 2, true⟩,
  -- 32: a14a(sproduct(ANGLE,&p1,&p4))
  .sprod 2 ⟨true, 0, true, [], 3, true⟩,
  -- 32: s14s(sproduct(SQUARE,&p1,&p4))
  .sprod 3 ⟨false, 0, true, [], 3, true⟩,
  -- 32: a23a(sproduct(ANGLE,&p2,&p3))
  .sprod 4 ⟨true, 1, true, [], 2, true⟩,
  -- 32: s23s(sproduct(SQUARE,&p2,&p3))
  .sprod 5 ⟨false, 1, true, [], 2, true⟩,
  -- 32: a24a(sproduct(ANGLE,&p2,&p4))
  .sprod 6 ⟨true, 1, true, [], 3, true⟩,
  -- 32: s24s(sproduct(SQUARE,&p2,&p4))
  .sprod 7 ⟨false, 1, true, [], 3, true⟩,
  -- 32: s12s(sproduct(SQUARE,&p1,&p2))
  .sprod 8 ⟨false, 0, true, [], 1, true⟩,
  -- 32: a12a(sproduct(ANGLE,&p1,&p2))
  .sprod 9 ⟨true, 0, true, [], 1, true⟩,
  -- 32: s34s(sproduct(SQUARE,&p3,&p4))
  .sprod 10 ⟨false, 2, true, [], 3, true⟩,
  -- 32: a34a(sproduct(ANGLE,&p3,&p4))
  .sprod 11 ⟨true, 2, true, [], 3, true⟩,
  -- 51: MZ=MW/CW
  .set .r 6 (.div (.mem .r 8) (.mem .r 10)),
  -- 52: propZ.set_mass(MZ)
  .propMass 2 (.mem .r 6),
  -- 53: preh=e*e*mu*mc/(4.0*MW*MW*SW*SW)
  .set .r 11 (.div (.mul (.mul (.mul (.mem .r 0) (.mem .r 0)) (.mem .r 2)) (.mem .r 3)) (.mul (.mul (.mul (.mul (.lit 4) (.mem .r 8)) (.mem .r 8)) (.mem .r 9)) (.mem .r 9))),
  -- 54: gL=1.0-4.0/3.0*SW*SW
  .set .r 12 (.sub (.lit 1) (.mul (.mul (.div (.lit 4) (.lit 3)) (.mem .r 9)) (.mem .r 9))),
  -- 55: gR=-4.0/3.0*SW*SW
  .set .r 13 (.mul (.mul (.div (.neg (.lit 4)) (.lit 3)) (.mem .r 9)) (.mem .r 9)),
  -- 56: preZ=e*e/(4.0*CW*CW*SW*SW)
  .set .r 14 (.div (.mul (.mem .r 0) (.mem .r 0)) (.mul (.mul (.mul (.mul (.lit 4) (.mem .r 10)) (.mem .r 10)) (.mem .r 9)) (.mem .r 9))),
  -- 57: preZ0=preZ*(gL-gR)*(gL-gR)*mu*mc/MZ/MZ
  .set .r 15 (.div (.div (.mul (.mul (.mul (.mul (.mem .r 14) (.sub (.mem .r 12) (.mem .r 13))) (.sub (.mem .r 12) (.mem .r 13))) (.mem .r 2)) (.mem .r 3)) (.mem .r 6)) (.mem .r 6))]

/-- `set_masses` (SM/ucuc.cpp:60-75); parameters: 0 `massu`, 1 `massc`, 2 `massh`, 3 `massW` -/
def setMasses : List SInstr := [
  -- 61: mu=massu
  .set .r 2 (.loc .r 0),
  -- 62: mc=massc
  .set .r 3 (.loc .r 1),
  -- 63: mh=massh
  .set .r 4 (.loc .r 2),
  -- 64: proph.set_mass(mh)
  .propMass 1 (.mem .r 4),
  -- 65: MW=massW
  .set .r 8 (.loc .r 3),
  -- 66: MZ=MW/CW
  .set .r 6 (.div (.mem .r 8) (.mem .r 10)),
  -- 67: propZ.set_mass(MZ)
  .propMass 2 (.mem .r 6),
  -- 68: p1.set_mass(mu)
  .setMass 0 (.mem .r 2),
  -- 69: p2.set_mass(mc)
  .setMass 1 (.mem .r 3),
  -- 70: p3.set_mass(mu)
  .setMass 2 (.mem .r 2),
  -- 71: p4.set_mass(mc)
  .setMass 3 (.mem .r 3),
  -- 72: preh=e*e*mu*mc/(4.0*MW*MW*SW*SW)
  .set .r 11 (.div (.mul (.mul (.mul (.mem .r 0) (.mem .r 0)) (.mem .r 2)) (.mem .r 3)) (.mul (.mul (.mul (.mul (.lit 4) (.mem .r 8)) (.mem .r 8)) (.mem .r 9)) (.mem .r 9))),
  -- 73: preZ0=preZ*(gL-gR)*(gL-gR)*mu*mc/MZ/MZ
  .set .r 15 (.div (.div (.mul (.mul (.mul (.mul (.mem .r 14) (.sub (.mem .r 12) (.mem .r 13))) (.sub (.mem .r 12) (.mem .r 13))) (.mem .r 2)) (.mem .r 3)) (.mem .r 6)) (.mem .r 6))]

/-- `set_momenta` (SM/ucuc.cpp:76-101); parameters: 0 `mom1`, 1 `mom2`, 2 `mom3`, 3 `mom4` -/
def setMomenta : List SInstr := [
  -- 78: p1.set_momentum(mom1)
  .setMom 0 0,
  -- 79: p2.set_momentum(mom2)
  .setMom 1 1,
  -- 80: p3.set_momentum(mom3)
  .setMom 2 2,
  -- 81: p4.set_momentum(mom4)
  .setMom 3 3,
  -- 82: a13a.update()
  .update 0,
  -- 83: s13s.update()
  .update 1,
  -- 84: a14a.update()
  .update 2,
  -- 85: s14s.update()
  .update 3,
  -- 86: a23a.update()
  .update 4,
  -- 87: s23s.update()
  .update 5,
  -- 88: a24a.update()
  .update 6,
  -- 89: s24s.update()
  .update 7,
  -- 90: s12s.update()
  .update 8,
  -- 91: a12a.update()
  .update 9,
  -- 92: s34s.update()
  .update 10,
  -- 93: a34a.update()
  .update 11,
  -- 98: pDenTAG=propAG.denominator(propP)
  .den .c 0 0 (.sub 0 2),
  -- 99: pDenTh=proph.denominator(propP)
  .den .c 1 1 (.sub 0 2),
  -- 100: pDenTZ=propZ.denominator(propP)
  .den .c 2 2 (.sub 0 2)]

/-- `cdouble amp_gluon(ds1,ds2,ds3,ds4)` (SM/ucuc.cpp:109-128); variables: i 0 `ds1`, i 1 `ds2`, i 2 `ds3`, i 3 `ds4`, c 0 `amplitude` -/
def m_amp_gluon : Method := ⟨4, 
  -- 111: cdouble amplitude
  .seq (.set .c 0 (.ofR (.lit 0))) <|
  -- 122: amplitude=-two*gs*gs*(+a12a.v(ds1,ds2)*s34s.v(ds3,ds4)+a14a.v(ds1,ds4)*s23s.v(ds2,ds3)+s12s.v(ds1,ds2)*a34a.v(ds3,ds4)+s14s.v(ds1,ds4)*a23a.v(ds2,ds3))/pDenTAG
  .seq (.set .c 0 (.div (.smul (.mul (.mul (.neg (.lit 2)) (.mem .r 1)) (.mem .r 1)) (.add (.add (.add (.mul (.v 9 [.var 0, .var 1]) (.v 10 [.var 2, .var 3])) (.mul (.v 2 [.var 0, .var 3]) (.v 5 [.var 1, .var 2]))) (.mul (.v 8 [.var 0, .var 1]) (.v 11 [.var 2, .var 3]))) (.mul (.v 3 [.var 0, .var 3]) (.v 4 [.var 1, .var 2])))) (.mem .c 0))) <|
  -- 127: return amplitude
  .ret .c (.loc .c 0)⟩

/-- `cdouble amp_rest(ds1,ds2,ds3,ds4)` (SM/ucuc.cpp:129-183); variables: i 0 `ds1`, i 1 `ds2`, i 2 `ds3`, i 3 `ds4`, c 0 `amplitude` -/
def m_amp_rest : Method := ⟨4, 
  -- 131: cdouble amplitude
  .seq (.set .c 0 (.ofR (.lit 0))) <|
  -- 142: amplitude+=-two*e*e*4.0/9.0*(+a12a.v(ds1,ds2)*s34s.v(ds3,ds4)+a14a.v(ds1,ds4)*s23s.v(ds2,ds3)+s12s.v(ds1,ds2)*a34a.v(ds3,ds4)+s14s.v(ds1,ds4)*a23a.v(ds2,ds3))/pDenTAG
  .seq (.set .c 0 (.add (.loc .c 0) (.div (.smul (.div (.mul (.mul (.mul (.neg (.lit 2)) (.mem .r 0)) (.mem .r 0)) (.lit 4)) (.lit 9)) (.add (.add (.add (.mul (.v 9 [.var 0, .var 1]) (.v 10 [.var 2, .var 3])) (.mul (.v 2 [.var 0, .var 3]) (.v 5 [.var 1, .var 2]))) (.mul (.v 8 [.var 0, .var 1]) (.v 11 [.var 2, .var 3]))) (.mul (.v 3 [.var 0, .var 3]) (.v 4 [.var 1, .var 2])))) (.mem .c 0)))) <|
  -- 156: amplitude+=-preh*(s13s.v(ds1,ds3)-a13a.v(ds1,ds3))*(s24s.v(ds2,ds4)-a24a.v(ds2,ds4))/pDenTh
  .seq (.set .c 0 (.add (.loc .c 0) (.div (.mul (.smul (.neg (.mem .r 11)) (.sub (.v 1 [.var 0, .var 2]) (.v 0 [.var 0, .var 2]))) (.sub (.v 7 [.var 1, .var 3]) (.v 6 [.var 1, .var 3]))) (.mem .c 1)))) <|
  -- 174: amplitude+=+preZ0*(a13a.v(ds1,ds3)+s13s.v(ds1,ds3))*(a24a.v(ds2,ds4)+s24s.v(ds2,ds4))/pDenTZ-two*preZ*(+gL*gL*s34s.v(ds3,ds4)*a12a.v(ds1,ds2)+gL*gR*(s14s.v(ds1,ds4)*a23a.v(ds2,ds3)+s23s.v(ds2,ds3)*a14a.v(ds1,ds4))+gR*gR*s12s.v(ds1,ds2)*a34a.v(ds3,ds4))/pDenTZ
  .seq (.set .c 0 (.add (.loc .c 0) (.sub (.div (.mul (.smul (.mem .r 15) (.add (.v 0 [.var 0, .var 2]) (.v 1 [.var 0, .var 2]))) (.add (.v 6 [.var 1, .var 3]) (.v 7 [.var 1, .var 3]))) (.mem .c 2)) (.div (.smul (.mul (.lit 2) (.mem .r 14)) (.add (.add (.mul (.smul (.mul (.mem .r 12) (.mem .r 12)) (.v 10 [.var 2, .var 3])) (.v 9 [.var 0, .var 1])) (.smul (.mul (.mem .r 12) (.mem .r 13)) (.add (.mul (.v 3 [.var 0, .var 3]) (.v 4 [.var 1, .var 2])) (.mul (.v 5 [.var 1, .var 2]) (.v 2 [.var 0, .var 3]))))) (.mul (.smul (.mul (.mem .r 13) (.mem .r 13)) (.v 8 [.var 0, .var 1])) (.v 11 [.var 2, .var 3])))) (.mem .c 2))))) <|
  -- 182: return amplitude
  .ret .c (.loc .c 0)⟩

/-- `ldouble amp2()` (SM/ucuc.cpp:186-205); variables: r 0 `amp2`, c 0 `M_rest`, c 1 `M_gluon`, i 0 `j1`, i 1 `j2`, i 2 `j3`, i 3 `j4` -/
def m_amp2 : Method := ⟨0, 
  -- 187: ldouble amp2
  .seq (.set .r 0 (.lit 0)) <|
  -- 189: cdouble M_rest
  .seq (.set .c 0 (.ofR (.lit 0))) <|
  -- 189: cdouble M_gluon
  .seq (.set .c 1 (.ofR (.lit 0))) <|
  -- 192: for(int j1=-1;j1<=1;j1+=2)
  .seq (.loop 0 (-1) true (.lit 1) 2 (
    -- 193: for(int j2=-1;j2<=1;j2+=2)
    .loop 1 (-1) true (.lit 1) 2 (
      -- 194: for(int j3=-1;j3<=1;j3+=2)
      .loop 2 (-1) true (.lit 1) 2 (
        -- 195: for(int j4=-1;j4<=1;j4+=2)
        .loop 3 (-1) true (.lit 1) 2 (
          -- 196: M_rest=amp_rest(j1,j2,j3,j4)
          .seq (.set .c 0 (.call 1 [.var 0, .var 1, .var 2, .var 3])) <|
          -- 197: M_gluon=amp_gluon(j1,j2,j3,j4)
          .seq (.set .c 1 (.call 0 [.var 0, .var 1, .var 2, .var 3])) <|
          -- 198: amp2+=nine*std::pow(std::abs(M_rest),2)
          .seq (.set .r 0 (.add (.loc .r 0) (.mul (.lit 9) (.pow (.abs (.loc .c 0)) 2)))) <|
          -- 200: amp2+=two*std::pow(std::abs(M_gluon),2)
          .set .r 0 (.add (.loc .r 0) (.mul (.lit 2) (.pow (.abs (.loc .c 1)) 2)))))))) <|
  -- 204: return amp2/36.0
  .ret .r (.div (.loc .r 0) (.lit 36))⟩

end ucuc

/-- `class ucuc` (SM/ucuc.cpp, SM/include/ucuc.h:25-33).  Members:
* ldouble: 0 `e`, 1 `gs`, 2 `mu`, 3 `mc`, 4 `mh`, 5 `wh`, 6 `MZ`, 7 `WZ`, 8 `MW`, 9 `SW`, 10 `CW`, 11 `preh`, 12 `gL`, 13 `gR`, 14 `preZ`, 15 `preZ0`
* cdouble: 0 `pDenTAG`, 1 `pDenTh`, 2 `pDenTZ`
* propagator: 0 `propAG`, 1 `proph`, 2 `propZ`
* sproduct: 0 `a13a`, 1 `s13s`, 2 `a14a`, 3 `s14s`, 4 `a23a`, 5 `s23s`, 6 `a24a`, 7 `s24s`, 8 `s12s`, 9 `a12a`, 10 `s34s`, 11 `a34a` -/
def ucuc : Proc where
  name := "ucuc"
  nPar := 9
  ctor := ucuc.ctor
  setMasses := ucuc.setMasses
  massPar := [2, 3, 4, 6]
  setMomenta := ucuc.setMomenta
  methods := [ucuc.m_amp2, ucuc.m_amp_rest, ucuc.m_amp_gluon]
  amp2 := 2
  others := []

namespace udAW

/-- constructor (SM/udAW.cpp:32-53); parameters: 0 `echarge`, 1 `massu`, 2 `massd`, 3 `massW`, 4 `sinW`, 5 `widthW` -/
def ctor : List SInstr := [
  -- 32: e(echarge)
  .set .r 0 (.loc .r 0),
  -- 32: mu(massu)
  .set .r 1 (.loc .r 1),
  -- 32: md(massd)
  .set .r 2 (.loc .r 2),
  -- 32: MW(massW)
  .set .r 3 (.loc .r 3),
  -- 32: SW(sinW)
  .set .r 4 (.loc .r 4),
  -- 32: WW(widthW)
  .set .r 5 (.loc .r 5),
  -- 35: propW=propagator(MW,WW)
  .prop 0 (.mem .r 3) (.mem .r 5),
  -- 36: propu=propagator(mu,0)
  .prop 1 (.mem .r 1) (.lit 0),
  -- 37: propd=propagator(md,0)
  .prop 2 (.mem .r 2) (.lit 0),
  -- 38: p1=particle(mu)
  .part 0 (.mem .r 1),
  -- 39: p2=particle(md)
  .part 1 (.mem .r 2),
  -- 40: p3=particle(0)
  .part 2 (.lit 0),
  -- 41: p4=particle(MW)
  .part 3 (.mem .r 3),
  -- 43: a42a=sproduct(ANGLE,&p4,&p2)
  .sprod 0 ⟨true, 3, true, [], 1, true⟩,
  -- 44: s41s=sproduct(SQUARE,&p4,&p1)
  .sprod 1 ⟨false, 3, true, [], 0, true⟩,
  -- 45: s34s=sproduct(SQUARE,&p3,&p4)
  .sprod 2 ⟨false, 2, true, [], 3, true⟩,
  -- 46: s31s=sproduct(SQUARE,&p3,&p1)
  .sprod 3 ⟨false, 2, true, [], 0, true⟩,
  -- 47: s3123s=sproduct(SQUARE,&p3,&p1,&p2,&p3)
  .sprod 4 ⟨false, 2, true, [0, 1], 2, true⟩,
  -- 48: a3123a=sproduct(ANGLE,&p3,&p1,&p2,&p3)
  .sprod 5 ⟨true, 2, true, [0, 1], 2, true⟩,
  -- 49: a34a=sproduct(ANGLE,&p3,&p4)
  .sprod 6 ⟨true, 2, true, [], 3, true⟩,
  -- 50: a32a=sproduct(ANGLE,&p3,&p2)
  .sprod 7 ⟨true, 2, true, [], 1, true⟩,
  -- 52: pre=std::sqrt(2.0)*e*e/(MW*SW)
  .set .r 6 (.div (.mul (.mul (.sqrt (.lit 2)) (.mem .r 0)) (.mem .r 0)) (.mul (.mem .r 3) (.mem .r 4)))]

/-- `set_masses` (SM/udAW.cpp:54-66); parameters: 0 `massu`, 1 `massd`, 2 `massW` -/
def setMasses : List SInstr := [
  -- 56: mu=massu
  .set .r 1 (.loc .r 0),
  -- 57: md=massd
  .set .r 2 (.loc .r 1),
  -- 58: MW=massW
  .set .r 3 (.loc .r 2),
  -- 59: p1.set_mass(mu)
  .setMass 0 (.mem .r 1),
  -- 60: p2.set_mass(md)
  .setMass 1 (.mem .r 2),
  -- 61: p4.set_mass(MW)
  .setMass 3 (.mem .r 3),
  -- 62: propW.set_mass(MW)
  .propMass 0 (.mem .r 3),
  -- 63: propu.set_mass(mu)
  .propMass 1 (.mem .r 1),
  -- 64: propd.set_mass(md)
  .propMass 2 (.mem .r 2),
  -- 65: pre=std::sqrt(2.0)*e*e/(MW*SW)
  .set .r 6 (.div (.mul (.mul (.sqrt (.lit 2)) (.mem .r 0)) (.mem .r 0)) (.mul (.mem .r 3) (.mem .r 4)))]

/-- `set_momenta` (SM/udAW.cpp:67-96); parameters: 0 `mom1`, 1 `mom2`, 2 `mom3`, 3 `mom4` -/
def setMomenta : List SInstr := [
  -- 70: p1.set_momentum(mom1)
  .setMom 0 0,
  -- 71: p2.set_momentum(mom2)
  .setMom 1 1,
  -- 72: p3.set_momentum(mom3)
  .setMom 2 2,
  -- 73: p4.set_momentum(mom4)
  .setMom 3 3,
  -- 75: a42a.update()
  .update 0,
  -- 76: s41s.update()
  .update 1,
  -- 77: s34s.update()
  .update 2,
  -- 78: s31s.update()
  .update 3,
  -- 79: s3123s.update()
  .update 4,
  -- 80: a3123a.update()
  .update 5,
  -- 81: a34a.update()
  .update 6,
  -- 82: a32a.update()
  .update 7,
  -- 90: pDenS=propW.denominator(propSP)
  .den .c 0 0 (.add 0 1),
  -- 91: pDenT=propu.denominator(propTP)
  .den .c 1 1 (.sub 0 2),
  -- 92: pDenU=propd.denominator(propUP)
  .den .c 2 2 (.sub 0 3),
  -- 93: prop=(one/three/pDenS/pDenU-two/three/pDenS/pDenT)
  .set .c 3 (.sub (.div (.div (.ofR (.div (.lit 1) (.lit 3))) (.mem .c 0)) (.mem .c 2)) (.div (.div (.ofR (.div (.lit 2) (.lit 3))) (.mem .c 0)) (.mem .c 1))),
  -- 94: propAp=(one/pDenS+two/three/pDenT)
  .set .c 4 (.add (.div (.ofR (.lit 1)) (.mem .c 0)) (.div (.ofR (.div (.lit 2) (.lit 3))) (.mem .c 1))),
  -- 95: propAm=(one/pDenS+one/three/pDenU)
  .set .c 5 (.add (.div (.ofR (.lit 1)) (.mem .c 0)) (.div (.ofR (.div (.lit 1) (.lit 3))) (.mem .c 2)))]

/-- `cdouble amp(ds1,ds2,ds3,ds4)` (SM/udAW.cpp:101-168); variables: i 0 `ds1`, i 1 `ds2`, i 2 `ds3`, i 3 `ds4`, c 0 `amplitude`, i 4 `ds4a`, i 5 `ds4b`, i 6 `nCombs`, r 0 `normFactor`, i 7 `i` -/
def m_amp : Method := ⟨4, 
  -- 102: cdouble amplitude
  .seq (.set .c 0 (.ofR (.lit 0))) <|
  -- 106: int nCombs
  .seq (.seti 6 (.loops [3])) <|
  -- 107: ldouble normFactor
  .seq (.set .r 0 (.norm [3])) <|
  -- 109: for(int i=0;i<nCombs;i++)
  .seq (.loop 7 0 false (.var 6) 1 (
    -- 110: get_spinor_spins(ds4,ds4a,ds4b,i)
    .seq (.spins [(3, 4, 5)] (.var 7)) <|
    -- 112: if(ds3>0)
    .ite (.lt (.lit 0) (.var 2)) (
      -- 133: amplitude+=normFactor*pre*a42a.v(ds4a,ds2)*s41s.v(ds4b,ds1)*s3123s.v()*prop-normFactor*pre*s34s.v(ds4a)*s31s.v(ds1)*a42a.v(ds4b,ds2)*propAp
      .set .c 0 (.add (.loc .c 0) (.sub (.mul (.mul (.mul (.smul (.mul (.loc .r 0) (.mem .r 6)) (.v 0 [.var 4, .var 1])) (.v 1 [.var 5, .var 0])) (.v 4 [])) (.mem .c 3)) (.mul (.mul (.mul (.smul (.mul (.loc .r 0) (.mem .r 6)) (.v 2 [.var 4])) (.v 3 [.var 0])) (.v 0 [.var 5, .var 1])) (.mem .c 4))))) (
      -- 138: if(ds3<0)
      .ite (.lt (.var 2) (.lit 0)) (
        -- 159: amplitude+=normFactor*pre*a42a.v(ds4a,ds2)*s41s.v(ds4b,ds1)*a3123a.v()*prop-normFactor*pre*a34a.v(ds4a)*a32a.v(ds2)*s41s.v(ds4b,ds1)*propAm
        .set .c 0 (.add (.loc .c 0) (.sub (.mul (.mul (.mul (.smul (.mul (.loc .r 0) (.mem .r 6)) (.v 0 [.var 4, .var 1])) (.v 1 [.var 5, .var 0])) (.v 5 [])) (.mem .c 3)) (.mul (.mul (.mul (.smul (.mul (.loc .r 0) (.mem .r 6)) (.v 6 [.var 4])) (.v 7 [.var 1])) (.v 1 [.var 5, .var 0])) (.mem .c 5))))) (
        .skip)))) <|
  -- 167: return amplitude
  .ret .c (.loc .c 0)⟩

/-- `ldouble amp2()` (SM/udAW.cpp:171-188); variables: r 0 `amp2`, c 0 `M`, i 0 `j1`, i 1 `j2`, i 2 `j3`, i 3 `j4` -/
def m_amp2 : Method := ⟨0, 
  -- 173: ldouble amp2
  .seq (.set .r 0 (.lit 0)) <|
  -- 174: cdouble M
  .seq (.set .c 0 (.ofR (.lit 0))) <|
  -- 177: for(int j1=-1;j1<=1;j1+=2)
  .seq (.loop 0 (-1) true (.lit 1) 2 (
    -- 178: for(int j2=-1;j2<=1;j2+=2)
    .loop 1 (-1) true (.lit 1) 2 (
      -- 179: for(int j3=-2;j3<=2;j3+=4)
      .loop 2 (-2) true (.lit 2) 4 (
        -- 180: for(int j4=-2;j4<=2;j4+=2)
        .loop 3 (-2) true (.lit 2) 2 (
          -- 181: M=amp(j1,j2,j3,j4)
          .seq (.set .c 0 (.call 0 [.var 0, .var 1, .var 2, .var 3])) <|
          -- 183: amp2+=three*std::pow(std::abs(M),2)
          .set .r 0 (.add (.loc .r 0) (.mul (.lit 3) (.pow (.abs (.loc .c 0)) 2)))))))) <|
  -- 187: return amp2/36.0
  .ret .r (.div (.loc .r 0) (.lit 36))⟩

end udAW

/-- `class udAW` (SM/udAW.cpp, SM/include/udAW.h:25-34).  Members:
* ldouble: 0 `e`, 1 `mu`, 2 `md`, 3 `MW`, 4 `SW`, 5 `WW`, 6 `pre`
* cdouble: 0 `pDenS`, 1 `pDenT`, 2 `pDenU`, 3 `prop`, 4 `propAp`, 5 `propAm`
* propagator: 0 `propW`, 1 `propu`, 2 `propd`
* sproduct: 0 `a42a`, 1 `s41s`, 2 `s34s`, 3 `s31s`, 4 `s3123s`, 5 `a3123a`, 6 `a34a`, 7 `a32a` -/
def udAW : Proc where
  name := "udAW"
  nPar := 6
  ctor := udAW.ctor
  setMasses := udAW.setMasses
  massPar := [1, 2, 3]
  setMomenta := udAW.setMomenta
  methods := [udAW.m_amp2, udAW.m_amp]
  amp2 := 1
  others := []

namespace udWh

/-- constructor (SM/udWh.cpp:32-52); parameters: 0 `echarge`, 1 `massu`, 2 `massd`, 3 `massh`, 4 `massW`, 5 `widthW`, 6 `sinW` -/
def ctor : List SInstr := [
  -- 32: e(echarge)
  .set .r 0 (.loc .r 0),
  -- 32: mu(massu)
  .set .r 1 (.loc .r 1),
  -- 32: md(massd)
  .set .r 2 (.loc .r 2),
  -- 32: mh(massh)
  .set .r 3 (.loc .r 3),
  -- 32: MW(massW)
  .set .r 4 (.loc .r 4),
  -- 32: WW(widthW)
  .set .r 5 (.loc .r 5),
  -- 32: SW(sinW)
  .set .r 6 (.loc .r 6),
  -- 32: propu(massu,0)
  .prop 0 (.loc .r 1) (.lit 0),
  -- 32: propd(massd,0)
  .prop 1 (.loc .r 2) (.lit 0),
  -- 32: propW(massW,widthW)
  .prop 2 (.loc .r 4) (.loc .r 5),
  -- 34: p1=particle(mu)
  .part 0 (.mem .r 1),
  -- 35: p2=particle(md)
  .part 1 (.mem .r 2),
  -- 36: p3=particle(MW)
  .part 2 (.mem .r 4),
  -- 37: p4=particle(mh)
  .part 3 (.mem .r 3),
  -- 39: a13a=sproduct(ANGLE,&p1,&p3)
  .sprod 0 ⟨true, 0, true, [], 2, true⟩,
  -- 40: s23s=sproduct(SQUARE,&p2,&p3)
  .sprod 1 ⟨false, 1, true, [], 2, true⟩,
  -- 41: a12a=sproduct(ANGLE,&p1,&p2)
  .sprod 2 ⟨true, 0, true, [], 1, true⟩,
  -- 42: s12s=sproduct(SQUARE,&p1,&p2)
  .sprod 3 ⟨false, 0, true, [], 1, true⟩,
  -- 43: s343a=sproduct(SQUARE,&p3,&p4,&p3)
  .sprod 4 ⟨false, 2, true, [3], 2, true⟩,
  -- 45: s342a=sproduct(SQUARE,&p3,&p4,&p2)
  .sprod 5 ⟨false, 2, true, [3], 1, true⟩,
  -- 47: s143a=sproduct(SQUARE,&p1,&p4,&p3)
  .sprod 6 ⟨false, 0, true, [3], 2, true⟩,
  -- 49: preW=e*e/(2.0*MW*MW*SW*SW)
  .set .r 9 (.div (.mul (.mem .r 0) (.mem .r 0)) (.mul (.mul (.mul (.mul (.lit 2) (.mem .r 4)) (.mem .r 4)) (.mem .r 6)) (.mem .r 6))),
  -- 50: preu=mu*preW
  .set .r 7 (.mul (.mem .r 1) (.mem .r 9)),
  -- 51: pred=md*preW
  .set .r 8 (.mul (.mem .r 2) (.mem .r 9))]

/-- `set_masses` (SM/udWh.cpp:53-69); parameters: 0 `massu`, 1 `massd`, 2 `massh`, 3 `massW` -/
def setMasses : List SInstr := [
  -- 54: mu=massu
  .set .r 1 (.loc .r 0),
  -- 55: md=massd
  .set .r 2 (.loc .r 1),
  -- 56: mh=massh
  .set .r 3 (.loc .r 2),
  -- 57: MW=massW
  .set .r 4 (.loc .r 3),
  -- 58: p1.set_mass(mu)
  .setMass 0 (.mem .r 1),
  -- 59: p2.set_mass(md)
  .setMass 1 (.mem .r 2),
  -- 60: p3.set_mass(MW)
  .setMass 2 (.mem .r 4),
  -- 61: p4.set_mass(mh)
  .setMass 3 (.mem .r 3),
  -- 62: propu.set_mass(mu)
  .propMass 0 (.mem .r 1),
  -- 63: propd.set_mass(md)
  .propMass 1 (.mem .r 2),
  -- 64: propW.set_mass(MW)
  .propMass 2 (.mem .r 4),
  -- 66: preW=e*e/(2.0*MW*MW*SW*SW)
  .set .r 9 (.div (.mul (.mem .r 0) (.mem .r 0)) (.mul (.mul (.mul (.mul (.lit 2) (.mem .r 4)) (.mem .r 4)) (.mem .r 6)) (.mem .r 6))),
  -- 67: preu=mu*preW
  .set .r 7 (.mul (.mem .r 1) (.mem .r 9)),
  -- 68: pred=md*preW
  .set .r 8 (.mul (.mem .r 2) (.mem .r 9))]

/-- `set_momenta` (SM/udWh.cpp:70-96); parameters: 0 `mom1`, 1 `mom2`, 2 `mom3`, 3 `mom4` -/
def setMomenta : List SInstr := [
  -- 72: p1.set_momentum(mom1)
  .setMom 0 0,
  -- 73: p2.set_momentum(mom2)
  .setMom 1 1,
  -- 74: p3.set_momentum(mom3)
  .setMom 2 2,
  -- 75: p4.set_momentum(mom4)
  .setMom 3 3,
  -- 77: a13a.update()
  .update 0,
  -- 78: s23s.update()
  .update 1,
  -- 79: a12a.update()
  .update 2,
  -- 80: s12s.update()
  .update 3,
  -- 81: s343a.update()
  .update 4,
  -- 83: s342a.update()
  .update 5,
  -- 85: s143a.update()
  .update 6,
  -- 93: pDenS=propW.denominator(propSP)
  .den .c 0 2 (.add 0 1),
  -- 94: pDenU=propu.denominator(propUP)
  .den .c 1 0 (.sub 0 3),
  -- 95: pDenT=propd.denominator(propTP)
  .den .c 2 1 (.sub 0 2)]

/-- `cdouble amp(ds1,ds2,ds3)` (SM/udWh.cpp:101-140); variables: i 0 `ds1`, i 1 `ds2`, i 2 `ds3`, c 0 `amplitude`, i 3 `ds3a`, i 4 `ds3b`, i 5 `nCombs`, r 0 `normFactor`, i 6 `i` -/
def m_amp : Method := ⟨3, 
  -- 102: cdouble amplitude
  .seq (.set .c 0 (.ofR (.lit 0))) <|
  -- 107: int nCombs
  .seq (.seti 5 (.loops [2])) <|
  -- 108: ldouble normFactor
  .seq (.set .r 0 (.norm [2])) <|
  -- 110: for(int i=0;i<nCombs;i++)
  .seq (.loop 6 0 false (.var 5) 1 (
    -- 111: get_spinor_spins(ds3,ds3a,ds3b,i)
    .seq (.spins [(2, 3, 4)] (.var 6)) <|
    -- 119: amplitude+=normFactor*preW*(two*MW*MW*a13a.v(ds1,ds3a)*s23s.v(ds2,ds3b)-(md*a12a.v(ds1,ds2)-mu*s12s.v(ds1,ds2))*s343a.v(ds3a,ds3b))/pDenS
    .seq (.set .c 0 (.add (.loc .c 0) (.div (.smul (.mul (.loc .r 0) (.mem .r 9)) (.sub (.mul (.smul (.mul (.mul (.lit 2) (.mem .r 4)) (.mem .r 4)) (.v 0 [.var 0, .var 3])) (.v 1 [.var 1, .var 4])) (.mul (.sub (.smul (.mem .r 2) (.v 2 [.var 0, .var 1])) (.smul (.mem .r 1) (.v 3 [.var 0, .var 1]))) (.v 4 [.var 3, .var 4])))) (.mem .c 0)))) <|
    -- 127: amplitude+=normFactor*pred*a13a.v(ds1,ds3a)*(two*md*s23s.v(ds2,ds3b)-s342a.v(ds3b,ds2))/pDenT
    .seq (.set .c 0 (.add (.loc .c 0) (.div (.mul (.smul (.mul (.loc .r 0) (.mem .r 8)) (.v 0 [.var 0, .var 3])) (.sub (.smul (.mul (.lit 2) (.mem .r 2)) (.v 1 [.var 1, .var 4])) (.v 5 [.var 4, .var 1]))) (.mem .c 2)))) <|
    -- 135: amplitude+=normFactor*preu*s23s.v(ds2,ds3a)*(two*mu*a13a.v(ds1,ds3b)-s143a.v(ds1,ds3b))/pDenU
    .set .c 0 (.add (.loc .c 0) (.div (.mul (.smul (.mul (.loc .r 0) (.mem .r 7)) (.v 1 [.var 1, .var 3])) (.sub (.smul (.mul (.lit 2) (.mem .r 1)) (.v 0 [.var 0, .var 4])) (.v 6 [.var 0, .var 4]))) (.mem .c 1))))) <|
  -- 139: return amplitude
  .ret .c (.loc .c 0)⟩

/-- `ldouble amp2()` (SM/udWh.cpp:143-159); variables: r 0 `amp2`, c 0 `M`, i 0 `j1`, i 1 `j2`, i 2 `j3` -/
def m_amp2 : Method := ⟨0, 
  -- 145: ldouble amp2
  .seq (.set .r 0 (.lit 0)) <|
  -- 146: cdouble M
  .seq (.set .c 0 (.ofR (.lit 0))) <|
  -- 149: for(int j1=-1;j1<=1;j1+=2)
  .seq (.loop 0 (-1) true (.lit 1) 2 (
    -- 150: for(int j2=-1;j2<=1;j2+=2)
    .loop 1 (-1) true (.lit 1) 2 (
      -- 151: for(int j3=-2;j3<=2;j3+=2)
      .loop 2 (-2) true (.lit 2) 2 (
        -- 152: M=amp(j1,j2,j3)
        .seq (.set .c 0 (.call 0 [.var 0, .var 1, .var 2])) <|
        -- 154: amp2+=three*std::pow(std::abs(M),2)
        .set .r 0 (.add (.loc .r 0) (.mul (.lit 3) (.pow (.abs (.loc .c 0)) 2))))))) <|
  -- 158: return amp2/36.0
  .ret .r (.div (.loc .r 0) (.lit 36))⟩

end udWh

/-- `class udWh` (SM/udWh.cpp, SM/include/udWh.h:25-37).  Members:
* ldouble: 0 `e`, 1 `mu`, 2 `md`, 3 `mh`, 4 `MW`, 5 `WW`, 6 `SW`, 7 `preu`, 8 `pred`, 9 `preW`
* cdouble: 0 `pDenS`, 1 `pDenU`, 2 `pDenT`
* propagator: 0 `propu`, 1 `propd`, 2 `propW`
* sproduct: 0 `a13a`, 1 `s23s`, 2 `a12a`, 3 `s12s`, 4 `s343a`, 5 `s342a`, 6 `s143a` -/
def udWh : Proc where
  name := "udWh"
  nPar := 7
  ctor := udWh.ctor
  setMasses := udWh.setMasses
  massPar := [1, 2, 3, 4]
  setMomenta := udWh.setMomenta
  methods := [udWh.m_amp2, udWh.m_amp]
  amp2 := 1
  others := []

namespace udZW

/-- constructor (SM/udZW.cpp:32-65); parameters: 0 `echarge`, 1 `massu`, 2 `massd`, 3 `massW`, 4 `sinW`, 5 `widthW` -/
def ctor : List SInstr := [
  -- 32: e(echarge)
  .set .r 0 (.loc .r 0),
  -- 32: Qu(2.0/3.0)
  .set .r 1 (.div (.lit 2) (.lit 3)),
  -- 32: Qd(-1.0/3.0)
  .set .r 2 (.div (.neg (.lit 1)) (.lit 3)),
  -- 32: mu(massu)
  .set .r 7 (.loc .r 1),
  -- 32: md(massd)
  .set .r 8 (.loc .r 2),
  -- 32: MW(massW)
  .set .r 9 (.loc .r 3),
  -- 32: SW(sinW)
  .set .r 10 (.loc .r 4),
  -- 32: WW(widthW)
  .set .r 11 (.loc .r 5),
  -- 35: CW=std::sqrt(1.0-SW*SW)
  .set .r 13 (.sqrt (.sub (.lit 1) (.mul (.mem .r 10) (.mem .r 10)))),
  -- 36: MZ=MW/CW
  .set .r 12 (.div (.mem .r 9) (.mem .r 13)),
  -- 37: propW=propagator(MW,WW)
  .prop 0 (.mem .r 9) (.mem .r 11),
  -- 38: propu=propagator(mu,0)
  .prop 1 (.mem .r 7) (.lit 0),
  -- 39: propd=propagator(md,0)
  .prop 2 (.mem .r 8) (.lit 0),
  -- 40: p1=particle(mu)
  .part 0 (.mem .r 7),
  -- 41: p2=particle(md)
  .part 1 (.mem .r 8),
  -- 42: p3=particle(MZ)
  .part 2 (.mem .r 12),
  -- 43: p4=particle(MW)
  .part 3 (.mem .r 9),
  -- 45: a12a=sproduct(ANGLE,&p1,&p2)
  .sprod 0 ⟨true, 0, true, [], 1, true⟩,
  -- 46: a13a=sproduct(ANGLE,&p1,&p3)
  .sprod 1 ⟨true, 0, true, [], 2, true⟩,
  -- 47: a23a=sproduct(ANGLE,&p2,&p3)
  .sprod 2 ⟨true, 1, true, [], 2, true⟩,
  -- 48: a24a=sproduct(ANGLE,&p2,&p4)
  .sprod 3 ⟨true, 1, true, [], 3, true⟩,
  -- 49: a34a=sproduct(ANGLE,&p3,&p4)
  .sprod 4 ⟨true, 2, true, [], 3, true⟩,
  -- 50: s12s=sproduct(SQUARE,&p1,&p2)
  .sprod 5 ⟨false, 0, true, [], 1, true⟩,
  -- 51: s13s=sproduct(SQUARE,&p1,&p3)
  .sprod 6 ⟨false, 0, true, [], 2, true⟩,
  -- 52: s14s=sproduct(SQUARE,&p1,&p4)
  .sprod 7 ⟨false, 0, true, [], 3, true⟩,
  -- 53: s23s=sproduct(SQUARE,&p2,&p3)
  .sprod 8 ⟨false, 1, true, [], 2, true⟩,
  -- 54: s34s=sproduct(SQUARE,&p3,&p4)
  .sprod 9 ⟨false, 2, true, [], 3, true⟩,
  -- 55: s132a=sproduct(SQUARE,&p1,&p3,&p2)
  .sprod 10 ⟨false, 0, true, [2], 1, true⟩,
  -- 56: s314a=sproduct(SQUARE,&p3,&p1,&p4)
  .sprod 11 ⟨false, 2, true, [0], 3, true⟩,
  -- 57: s413a=sproduct(SQUARE,&p4,&p1,&p3)
  .sprod 12 ⟨false, 3, true, [0], 2, true⟩,
  -- 59: preud=e*e/(std::sqrt(2.0)*MW*MW*SW*SW)
  .set .r 15 (.div (.mul (.mem .r 0) (.mem .r 0)) (.mul (.mul (.mul (.mul (.sqrt (.lit 2)) (.mem .r 9)) (.mem .r 9)) (.mem .r 10)) (.mem .r 10))),
  -- 60: preW=preud/(MZ*MZ)
  .set .r 14 (.div (.mem .r 15) (.mul (.mem .r 12) (.mem .r 12))),
  -- 61: gLu=-2.0*Qu*SW*SW+1.0
  .set .r 3 (.add (.mul (.mul (.mul (.neg (.lit 2)) (.mem .r 1)) (.mem .r 10)) (.mem .r 10)) (.lit 1)),
  -- 62: gRu=-2.0*Qu*SW*SW
  .set .r 4 (.mul (.mul (.mul (.neg (.lit 2)) (.mem .r 1)) (.mem .r 10)) (.mem .r 10)),
  -- 63: gLd=-2.0*Qd*SW*SW-1.0
  .set .r 5 (.sub (.mul (.mul (.mul (.neg (.lit 2)) (.mem .r 2)) (.mem .r 10)) (.mem .r 10)) (.lit 1)),
  -- 64: gRd=-2.0*Qd*SW*SW
  .set .r 6 (.mul (.mul (.mul (.neg (.lit 2)) (.mem .r 2)) (.mem .r 10)) (.mem .r 10))]

/-- `set_masses` (SM/udZW.cpp:66-81); parameters: 0 `massu`, 1 `massd`, 2 `massW` -/
def setMasses : List SInstr := [
  -- 68: mu=massu
  .set .r 7 (.loc .r 0),
  -- 69: md=massd
  .set .r 8 (.loc .r 1),
  -- 70: MW=massW
  .set .r 9 (.loc .r 2),
  -- 71: MZ=MW/CW
  .set .r 12 (.div (.mem .r 9) (.mem .r 13)),
  -- 72: p1.set_mass(mu)
  .setMass 0 (.mem .r 7),
  -- 73: p2.set_mass(md)
  .setMass 1 (.mem .r 8),
  -- 74: p3.set_mass(MZ)
  .setMass 2 (.mem .r 12),
  -- 75: p4.set_mass(MW)
  .setMass 3 (.mem .r 9),
  -- 76: propW.set_mass(MW)
  .propMass 0 (.mem .r 9),
  -- 77: propu.set_mass(mu)
  .propMass 1 (.mem .r 7),
  -- 78: propd.set_mass(md)
  .propMass 2 (.mem .r 8),
  -- 79: preud=e*e/(std::sqrt(2.0)*MW*MW*SW*SW)
  .set .r 15 (.div (.mul (.mem .r 0) (.mem .r 0)) (.mul (.mul (.mul (.mul (.sqrt (.lit 2)) (.mem .r 9)) (.mem .r 9)) (.mem .r 10)) (.mem .r 10))),
  -- 80: preW=preud/(MZ*MZ)
  .set .r 14 (.div (.mem .r 15) (.mul (.mem .r 12) (.mem .r 12)))]

/-- `set_momenta` (SM/udZW.cpp:82-113); parameters: 0 `mom1`, 1 `mom2`, 2 `mom3`, 3 `mom4` -/
def setMomenta : List SInstr := [
  -- 85: p1.set_momentum(mom1)
  .setMom 0 0,
  -- 86: p2.set_momentum(mom2)
  .setMom 1 1,
  -- 87: p3.set_momentum(mom3)
  .setMom 2 2,
  -- 88: p4.set_momentum(mom4)
  .setMom 3 3,
  -- 90: a12a.update()
  .update 0,
  -- 91: a13a.update()
  .update 1,
  -- 92: a23a.update()
  .update 2,
  -- 93: a24a.update()
  .update 3,
  -- 94: a34a.update()
  .update 4,
  -- 95: s12s.update()
  .update 5,
  -- 96: s13s.update()
  .update 6,
  -- 97: s14s.update()
  .update 7,
  -- 98: s23s.update()
  .update 8,
  -- 99: s34s.update()
  .update 9,
  -- 100: s132a.update()
  .update 10,
  -- 101: s314a.update()
  .update 11,
  -- 102: s413a.update()
  .update 12,
  -- 110: pDenS=propW.denominator(propSP)
  .den .c 0 0 (.add 0 1),
  -- 111: pDenT=propu.denominator(propTP)
  .den .c 1 1 (.sub 0 2),
  -- 112: pDenU=propd.denominator(propUP)
  .den .c 2 2 (.sub 0 3)]

/-- `cdouble amp(ds1,ds2,ds3,ds4)` (SM/udZW.cpp:118-171); variables: i 0 `ds1`, i 1 `ds2`, i 2 `ds3`, i 3 `ds4`, c 0 `amplitude`, i 4 `ds3a`, i 5 `ds3b`, i 6 `ds4a`, i 7 `ds4b`, i 8 `nCombs`, r 0 `normFactor`, i 9 `i` -/
def m_amp : Method := ⟨4, 
  -- 120: cdouble amplitude
  .seq (.set .c 0 (.ofR (.lit 0))) <|
  -- 124: int nCombs
  .seq (.seti 8 (.loops [2, 3])) <|
  -- 125: ldouble normFactor
  .seq (.set .r 0 (.norm [2, 3])) <|
  -- 127: for(int i=0;i<nCombs;i++)
  .seq (.loop 9 0 false (.var 8) 1 (
    -- 128: get_spinor_spins(ds3,ds3a,ds3b,ds4,ds4a,ds4b,i)
    .seq (.spins [(2, 4, 5), (3, 6, 7)] (.var 9)) <|
    -- 135: amplitude+=+normFactor*preW*(two*(MW*a34a.v(ds3a,ds4b)+MZ*s34s.v(ds3a,ds4b))*MW*MW*a24a.v(ds2,ds4a)*s13s.v(ds1,ds3b)+two*(MZ*a34a.v(ds3a,ds4b)+MW*s34s.v(ds3a,ds4b))*MW*MW*a23a.v(ds2,ds3b)*s14s.v(ds1,ds4a)+a34a.v(ds3a,ds4a)*s34s.v(ds3b,ds4b)*((MZ*MZ-two*MW*MW)*mu*a12a.v(ds1,ds2)+(two*MW*MW-MZ*MZ)*md*s12s.v(ds1,ds2)+two*MW*MW*s132a.v(ds1,ds2)))/pDenS
    .seq (.set .c 0 (.add (.loc .c 0) (.div (.smul (.mul (.loc .r 0) (.mem .r 14)) (.add (.add (.mul (.mul (.smul (.mem .r 9) (.smul (.mem .r 9) (.smul (.lit 2) (.add (.smul (.mem .r 9) (.v 4 [.var 4, .var 7])) (.smul (.mem .r 12) (.v 9 [.var 4, .var 7])))))) (.v 3 [.var 1, .var 6])) (.v 6 [.var 0, .var 5])) (.mul (.mul (.smul (.mem .r 9) (.smul (.mem .r 9) (.smul (.lit 2) (.add (.smul (.mem .r 12) (.v 4 [.var 4, .var 7])) (.smul (.mem .r 9) (.v 9 [.var 4, .var 7])))))) (.v 2 [.var 1, .var 5])) (.v 7 [.var 0, .var 6]))) (.mul (.mul (.v 4 [.var 4, .var 6]) (.v 9 [.var 5, .var 7])) (.add (.add (.smul (.mul (.sub (.mul (.mem .r 12) (.mem .r 12)) (.mul (.mul (.lit 2) (.mem .r 9)) (.mem .r 9))) (.mem .r 7)) (.v 0 [.var 0, .var 1])) (.smul (.mul (.sub (.mul (.mul (.lit 2) (.mem .r 9)) (.mem .r 9)) (.mul (.mem .r 12) (.mem .r 12))) (.mem .r 8)) (.v 5 [.var 0, .var 1]))) (.smul (.mul (.mul (.lit 2) (.mem .r 9)) (.mem .r 9)) (.v 10 [.var 0, .var 1])))))) (.mem .c 0)))) <|
    -- 151: amplitude+=-normFactor*preud*a24a.v(ds2,ds4a)*(+gRu*mu*a13a.v(ds1,ds3b)*s34s.v(ds3a,ds4b)-gLu*s13s.v(ds1,ds3a)*(MZ*s34s.v(ds3b,ds4b)-s413a.v(ds4b,ds3b)))/pDenT
    .seq (.set .c 0 (.add (.loc .c 0) (.div (.mul (.smul (.mul (.neg (.loc .r 0)) (.mem .r 15)) (.v 3 [.var 1, .var 6])) (.sub (.mul (.smul (.mul (.mem .r 4) (.mem .r 7)) (.v 1 [.var 0, .var 5])) (.v 9 [.var 4, .var 7])) (.mul (.smul (.mem .r 3) (.v 6 [.var 0, .var 4])) (.sub (.smul (.mem .r 12) (.v 9 [.var 5, .var 7])) (.v 12 [.var 7, .var 5]))))) (.mem .c 1)))) <|
    -- 162: amplitude+=+normFactor*preud*s14s.v(ds1,ds4a)*(+gRd*md*a34a.v(ds3a,ds4b)*s23s.v(ds2,ds3b)-gLd*a23a.v(ds2,ds3a)*(MW*s34s.v(ds3b,ds4b)+s314a.v(ds3b,ds4b)))/pDenU
    .set .c 0 (.add (.loc .c 0) (.div (.mul (.smul (.mul (.loc .r 0) (.mem .r 15)) (.v 7 [.var 0, .var 6])) (.sub (.mul (.smul (.mul (.mem .r 6) (.mem .r 8)) (.v 4 [.var 4, .var 7])) (.v 8 [.var 1, .var 5])) (.mul (.smul (.mem .r 5) (.v 2 [.var 1, .var 4])) (.add (.smul (.mem .r 9) (.v 9 [.var 5, .var 7])) (.v 11 [.var 5, .var 7]))))) (.mem .c 2))))) <|
  -- 170: return amplitude
  .ret .c (.loc .c 0)⟩

/-- `ldouble amp2()` (SM/udZW.cpp:174-191); variables: r 0 `amp2`, c 0 `M`, i 0 `j1`, i 1 `j2`, i 2 `j3`, i 3 `j4` -/
def m_amp2 : Method := ⟨0, 
  -- 176: ldouble amp2
  .seq (.set .r 0 (.lit 0)) <|
  -- 177: cdouble M
  .seq (.set .c 0 (.ofR (.lit 0))) <|
  -- 180: for(int j1=-1;j1<=1;j1+=2)
  .seq (.loop 0 (-1) true (.lit 1) 2 (
    -- 181: for(int j2=-1;j2<=1;j2+=2)
    .loop 1 (-1) true (.lit 1) 2 (
      -- 182: for(int j3=-2;j3<=2;j3+=2)
      .loop 2 (-2) true (.lit 2) 2 (
        -- 183: for(int j4=-2;j4<=2;j4+=2)
        .loop 3 (-2) true (.lit 2) 2 (
          -- 184: M=amp(j1,j2,j3,j4)
          .seq (.set .c 0 (.call 0 [.var 0, .var 1, .var 2, .var 3])) <|
          -- 186: amp2+=three*std::pow(std::abs(M),2)
          .set .r 0 (.add (.loc .r 0) (.mul (.lit 3) (.pow (.abs (.loc .c 0)) 2)))))))) <|
  -- 190: return amp2/36.0
  .ret .r (.div (.loc .r 0) (.lit 36))⟩

end udZW

/-- `class udZW` (SM/udZW.cpp, SM/include/udZW.h:25-33).  Members:
* ldouble: 0 `e`, 1 `Qu`, 2 `Qd`, 3 `gLu`, 4 `gRu`, 5 `gLd`, 6 `gRd`, 7 `mu`, 8 `md`, 9 `MW`, 10 `SW`, 11 `WW`, 12 `MZ`, 13 `CW`, 14 `preW`, 15 `preud`
* cdouble: 0 `pDenS`, 1 `pDenT`, 2 `pDenU`
* propagator: 0 `propW`, 1 `propu`, 2 `propd`
* sproduct: 0 `a12a`, 1 `a13a`, 2 `a23a`, 3 `a24a`, 4 `a34a`, 5 `s12s`, 6 `s13s`, 7 `s14s`, 8 `s23s`, 9 `s34s`, 10 `s132a`, 11 `s314a`, 12 `s413a` -/
def udZW : Proc where
  name := "udZW"
  nPar := 6
  ctor := udZW.ctor
  setMasses := udZW.setMasses
  massPar := [1, 2, 3]
  setMomenta := udZW.setMomenta
  methods := [udZW.m_amp2, udZW.m_amp]
  amp2 := 1
  others := []

namespace udnl

/-- constructor (SM/udnl.cpp:32-42); parameters: 0 `echarge`, 1 `massu`, 2 `massd`, 3 `masstau`, 4 `massW`, 5 `widthW`, 6 `sinW` -/
def ctor : List SInstr := [
  -- 32: e(echarge)
  .set .r 0 (.loc .r 0),
  -- 32: mu(massu)
  .set .r 1 (.loc .r 1),
  -- 32: md(massd)
  .set .r 2 (.loc .r 2),
  -- 32: ml(masstau)
  .set .r 3 (.loc .r 3),
  -- 32: MW(massW)
  .set .r 4 (.loc .r 4),
  -- 32: WW(widthW)
  .set .r 5 (.loc .r 5),
  -- 32: SW(sinW)
  .set .r 6 (.loc .r 6),
  -- 32: p1(particle(mu))
  .part 0 (.mem .r 1),
  -- 32: p2(particle(md))
  .part 1 (.mem .r 2),
  -- 32: p3(particle(0))
  .part 2 (.lit 0),
  -- 32: p4(particle(ml))
  .part 3 (.mem .r 3),
  -- 32: prop(massW,widthW)
  .prop 0 (.loc .r 4) (.loc .r 5),
  -- 32: s14s(sproduct(SQUARE,&p1,&p4))
  .sprod 0 ⟨false, 0, true, [], 3, true⟩,
  -- 32: a23a(sproduct(ANGLE,&p2,&p3))
  .sprod 1 ⟨true, 1, true, [], 2, true⟩,
  -- 32: a34a(sproduct(ANGLE,&p3,&p4))
  .sprod 2 ⟨true, 2, true, [], 3, true⟩,
  -- 32: s12s(sproduct(SQUARE,&p1,&p2))
  .sprod 3 ⟨false, 0, true, [], 1, true⟩,
  -- 32: a12a(sproduct(ANGLE,&p1,&p2))
  .sprod 4 ⟨true, 0, true, [], 1, true⟩]

/-- `set_masses` (SM/udnl.cpp:43-53); parameters: 0 `massu`, 1 `massd`, 2 `masstau`, 3 `massW` -/
def setMasses : List SInstr := [
  -- 44: mu=massu
  .set .r 1 (.loc .r 0),
  -- 45: md=massd
  .set .r 2 (.loc .r 1),
  -- 46: ml=masstau
  .set .r 3 (.loc .r 2),
  -- 47: MW=massW
  .set .r 4 (.loc .r 3),
  -- 48: p1.set_mass(mu)
  .setMass 0 (.mem .r 1),
  -- 49: p2.set_mass(md)
  .setMass 1 (.mem .r 2),
  -- 50: p3.set_mass(0)
  .setMass 2 (.lit 0),
  -- 51: p4.set_mass(ml)
  .setMass 3 (.mem .r 3),
  -- 52: prop.set_mass(massW)
  .propMass 0 (.loc .r 3)]

/-- `set_momenta` (SM/udnl.cpp:54-71); parameters: 0 `mom1`, 1 `mom2`, 2 `mom3`, 3 `mom4` -/
def setMomenta : List SInstr := [
  -- 56: p1.set_momentum(mom1)
  .setMom 0 0,
  -- 57: p2.set_momentum(mom2)
  .setMom 1 1,
  -- 58: p3.set_momentum(mom3)
  .setMom 2 2,
  -- 59: p4.set_momentum(mom4)
  .setMom 3 3,
  -- 60: s14s.update()
  .update 0,
  -- 61: a23a.update()
  .update 1,
  -- 62: s12s.update()
  .update 3,
  -- 63: a12a.update()
  .update 4,
  -- 64: a34a.update()
  .update 2,
  -- 70: pDenS=prop.denominator(propPS)
  .den .c 0 0 (.add 0 1)]

/-- `cdouble amp(ds1,ds2,ds4)` (SM/udnl.cpp:76-83); variables: i 0 `ds1`, i 1 `ds2`, i 2 `ds4` -/
def m_amp : Method := ⟨3, 
  -- 80: return e*e/2.0/SW/SW*(2.0*MW*MW*s14s.v(ds1,ds4)*a23a.v(ds2)+ml*md*a34a.v(ds4)*s12s.v(ds1,ds2)-mu*ml*a12a.v(ds1,ds2)*a34a.v(ds4))/(MW*MW*pDenS)
  .ret .c (.div (.smul (.div (.div (.div (.mul (.mem .r 0) (.mem .r 0)) (.lit 2)) (.mem .r 6)) (.mem .r 6)) (.sub (.add (.mul (.smul (.mul (.mul (.lit 2) (.mem .r 4)) (.mem .r 4)) (.v 0 [.var 0, .var 2])) (.v 1 [.var 1])) (.mul (.smul (.mul (.mem .r 3) (.mem .r 2)) (.v 2 [.var 2])) (.v 3 [.var 0, .var 1]))) (.mul (.smul (.mul (.mem .r 1) (.mem .r 3)) (.v 4 [.var 0, .var 1])) (.v 2 [.var 2])))) (.smul (.mul (.mem .r 4) (.mem .r 4)) (.mem .c 0)))⟩

/-- `ldouble amp2()` (SM/udnl.cpp:86-100); variables: r 0 `amp2`, c 0 `M`, i 0 `j1`, i 1 `j2`, i 2 `j4` -/
def m_amp2 : Method := ⟨0, 
  -- 87: ldouble amp2
  .seq (.set .r 0 (.lit 0)) <|
  -- 88: cdouble M
  .seq (.set .c 0 (.ofR (.lit 0))) <|
  -- 91: for(int j1=-1;j1<=1;j1+=2)
  .seq (.loop 0 (-1) true (.lit 1) 2 (
    -- 92: for(int j2=-1;j2<=1;j2+=2)
    .loop 1 (-1) true (.lit 1) 2 (
      -- 93: for(int j4=-1;j4<=1;j4+=2)
      .loop 2 (-1) true (.lit 1) 2 (
        -- 94: M=amp(j1,j2,j4)
        .seq (.set .c 0 (.call 0 [.var 0, .var 1, .var 2])) <|
        -- 95: amp2+=std::pow(std::abs(M),2)
        .set .r 0 (.add (.loc .r 0) (.pow (.abs (.loc .c 0)) 2)))))) <|
  -- 99: return amp2/12.0
  .ret .r (.div (.loc .r 0) (.lit 12))⟩

end udnl

/-- `class udnl` (SM/udnl.cpp, SM/include/udnl.h:25-32).  Members:
* ldouble: 0 `e`, 1 `mu`, 2 `md`, 3 `ml`, 4 `MW`, 5 `WW`, 6 `SW`
* cdouble: 0 `pDenS`
* propagator: 0 `prop`
* sproduct: 0 `s14s`, 1 `a23a`, 2 `a34a`, 3 `s12s`, 4 `a12a` -/
def udnl : Proc where
  name := "udnl"
  nPar := 7
  ctor := udnl.ctor
  setMasses := udnl.setMasses
  massPar := [1, 2, 3, 4]
  setMomenta := udnl.setMomenta
  methods := [udnl.m_amp2, udnl.m_amp]
  amp2 := 1
  others := []

namespace udtb

/-- constructor (SM/udtb.cpp:32-43); parameters: 0 `echarge`, 1 `massu`, 2 `massd`, 3 `masst`, 4 `massb`, 5 `massW`, 6 `widthW`, 7 `sinW` -/
def ctor : List SInstr := [
  -- 32: e(echarge)
  .set .r 0 (.loc .r 0),
  -- 32: mu(massu)
  .set .r 1 (.loc .r 1),
  -- 32: md(massd)
  .set .r 2 (.loc .r 2),
  -- 32: mt(masst)
  .set .r 3 (.loc .r 3),
  -- 32: mb(massb)
  .set .r 4 (.loc .r 4),
  -- 32: MW(massW)
  .set .r 5 (.loc .r 5),
  -- 32: WW(widthW)
  .set .r 6 (.loc .r 6),
  -- 32: SW(sinW)
  .set .r 7 (.loc .r 7),
  -- 32: p1(particle(mu))
  .part 0 (.mem .r 1),
  -- 32: p2(particle(md))
  .part 1 (.mem .r 2),
  -- 32: p3(particle(mt))
  .part 2 (.mem .r 3),
  -- 32: p4(particle(mb))
  .part 3 (.mem .r 4),
  -- 32: prop(massW,widthW)
  .prop 0 (.loc .r 5) (.loc .r 6),
  -- 32: a14a(sproduct(ANGLE,&p1,&p4))
  .sprod 0 ⟨true, 0, true, [], 3, true⟩,
  -- 32: s23s(sproduct(SQUARE,&p2,&p3))
  .sprod 1 ⟨false, 1, true, [], 2, true⟩,
  -- 32: s12s(sproduct(SQUARE,&p1,&p2))
  .sprod 2 ⟨false, 0, true, [], 1, true⟩,
  -- 32: a12a(sproduct(ANGLE,&p1,&p2))
  .sprod 3 ⟨true, 0, true, [], 1, true⟩,
  -- 32: s34s(sproduct(SQUARE,&p3,&p4))
  .sprod 4 ⟨false, 2, true, [], 3, true⟩,
  -- 32: a34a(sproduct(ANGLE,&p3,&p4))
  .sprod 5 ⟨true, 2, true, [], 3, true⟩]

/-- `set_masses` (SM/udtb.cpp:44-55); parameters: 0 `massu`, 1 `massd`, 2 `masst`, 3 `massb`, 4 `massW` -/
def setMasses : List SInstr := [
  -- 45: mu=massu
  .set .r 1 (.loc .r 0),
  -- 46: md=massd
  .set .r 2 (.loc .r 1),
  -- 47: mt=masst
  .set .r 3 (.loc .r 2),
  -- 48: mb=massb
  .set .r 4 (.loc .r 3),
  -- 49: MW=massW
  .set .r 5 (.loc .r 4),
  -- 50: p1.set_mass(mu)
  .setMass 0 (.mem .r 1),
  -- 51: p2.set_mass(md)
  .setMass 1 (.mem .r 2),
  -- 52: p3.set_mass(mt)
  .setMass 2 (.mem .r 3),
  -- 53: p4.set_mass(mb)
  .setMass 3 (.mem .r 4),
  -- 54: prop.set_mass(massW)
  .propMass 0 (.loc .r 4)]

/-- `set_momenta` (SM/udtb.cpp:56-74); parameters: 0 `mom1`, 1 `mom2`, 2 `mom3`, 3 `mom4` -/
def setMomenta : List SInstr := [
  -- 58: p1.set_momentum(mom1)
  .setMom 0 0,
  -- 59: p2.set_momentum(mom2)
  .setMom 1 1,
  -- 60: p3.set_momentum(mom3)
  .setMom 2 2,
  -- 61: p4.set_momentum(mom4)
  .setMom 3 3,
  -- 62: a14a.update()
  .update 0,
  -- 63: s23s.update()
  .update 1,
  -- 64: s12s.update()
  .update 2,
  -- 65: a12a.update()
  .update 3,
  -- 66: s34s.update()
  .update 4,
  -- 67: a34a.update()
  .update 5,
  -- 73: pDenS=prop.denominator(propPS)
  .den .c 0 0 (.add 0 1)]

/-- `cdouble amp(ds1,ds2,ds3,ds4)` (SM/udtb.cpp:79-88); variables: i 0 `ds1`, i 1 `ds2`, i 2 `ds3`, i 3 `ds4` -/
def m_amp : Method := ⟨4, 
  -- 84: return e*e/2.0/SW/SW*(2.0*MW*MW*a14a.v(ds1,ds4)*s23s.v(ds2,ds3)-md*mt*a34a.v(ds3,ds4)*a12a.v(ds1,ds2)+mt*mu*s12s.v(ds1,ds2)*a34a.v(ds3,ds4)+mb*md*s34s.v(ds3,ds4)*a12a.v(ds1,ds2)-mu*mb*s12s.v(ds1,ds2)*s34s.v(ds3,ds4))/(MW*MW*pDenS)
  .ret .c (.div (.smul (.div (.div (.div (.mul (.mem .r 0) (.mem .r 0)) (.lit 2)) (.mem .r 7)) (.mem .r 7)) (.sub (.add (.add (.sub (.mul (.smul (.mul (.mul (.lit 2) (.mem .r 5)) (.mem .r 5)) (.v 0 [.var 0, .var 3])) (.v 1 [.var 1, .var 2])) (.mul (.smul (.mul (.mem .r 2) (.mem .r 3)) (.v 5 [.var 2, .var 3])) (.v 3 [.var 0, .var 1]))) (.mul (.smul (.mul (.mem .r 3) (.mem .r 1)) (.v 2 [.var 0, .var 1])) (.v 5 [.var 2, .var 3]))) (.mul (.smul (.mul (.mem .r 4) (.mem .r 2)) (.v 4 [.var 2, .var 3])) (.v 3 [.var 0, .var 1]))) (.mul (.smul (.mul (.mem .r 1) (.mem .r 4)) (.v 2 [.var 0, .var 1])) (.v 4 [.var 2, .var 3])))) (.smul (.mul (.mem .r 5) (.mem .r 5)) (.mem .c 0)))⟩

/-- `ldouble amp2()` (SM/udtb.cpp:91-107); variables: r 0 `amp2`, c 0 `M`, i 0 `j1`, i 1 `j2`, i 2 `j3`, i 3 `j4` -/
def m_amp2 : Method := ⟨0, 
  -- 93: ldouble amp2
  .seq (.set .r 0 (.lit 0)) <|
  -- 94: cdouble M
  .seq (.set .c 0 (.ofR (.lit 0))) <|
  -- 97: for(int j1=-1;j1<=1;j1+=2)
  .seq (.loop 0 (-1) true (.lit 1) 2 (
    -- 98: for(int j2=-1;j2<=1;j2+=2)
    .loop 1 (-1) true (.lit 1) 2 (
      -- 99: for(int j3=-1;j3<=1;j3+=2)
      .loop 2 (-1) true (.lit 1) 2 (
        -- 100: for(int j4=-1;j4<=1;j4+=2)
        .loop 3 (-1) true (.lit 1) 2 (
          -- 101: M=amp(j1,j2,j3,j4)
          .seq (.set .c 0 (.call 0 [.var 0, .var 1, .var 2, .var 3])) <|
          -- 102: amp2+=nine*std::pow(std::abs(M),2)
          .set .r 0 (.add (.loc .r 0) (.mul (.lit 9) (.pow (.abs (.loc .c 0)) 2)))))))) <|
  -- 106: return amp2/36.0
  .ret .r (.div (.loc .r 0) (.lit 36))⟩

end udtb

/-- `class udtb` (SM/udtb.cpp, SM/include/udtb.h:25-31).  Members:
* ldouble: 0 `e`, 1 `mu`, 2 `md`, 3 `mt`, 4 `mb`, 5 `MW`, 6 `WW`, 7 `SW`
* cdouble: 0 `pDenS`, 1 `pDenT`, 2 `pDenU`
* propagator: 0 `prop`
* sproduct: 0 `a14a`, 1 `s23s`, 2 `s12s`, 3 `a12a`, 4 `s34s`, 5 `a34a` -/
def udtb : Proc where
  name := "udtb"
  nPar := 8
  ctor := udtb.ctor
  setMasses := udtb.setMasses
  massPar := [1, 2, 3, 4, 5]
  setMomenta := udtb.setMomenta
  methods := [udtb.m_amp2, udtb.m_amp]
  amp2 := 1
  others := []

end Spinas.SM.Cls
