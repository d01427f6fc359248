import Verif.SM.Lang

/-! Generated by tools/sm/translate.py from SM/*.cpp: gguu, guAu, guZu, gugu, hWWh, hZZh, hgdd, hguu, hhWW, hhZZ, hhhh, hnWe. -/

namespace Spinas.SM.Cls

namespace gguu

/-- constructor (SM/gguu.cpp:32-54); parameters: 0 `gcharge`, 1 `massu` -/
def ctor : List SInstr := [
  -- 32: gs(gcharge)
  .set .r 0 (.loc .r 0),
  -- 32: mu(massu)
  .set .r 1 (.loc .r 1),
  -- 32: propu(massu,0)
  .prop 0 (.loc .r 1) (.lit 0),
  -- 32: propg(0,0)
  .prop 1 (.lit 0) (.lit 0),
  -- 35: sqrt2=std::sqrt(two)
  .set .r 5 (.sqrt (.lit 2)),
  -- 36: p1=particle(0)
  .part 0 (.lit 0),
  -- 37: p2=particle(0)
  .part 1 (.lit 0),
  -- 38: p3=particle(mu)
  .part 2 (.mem .r 1),
  -- 39: p4=particle(mu)
  .part 3 (.mem .r 1),
  -- 40: s34s=sproduct(SQUARE,&p3,&p4)
  .sprod 0 ⟨false, 2, true, [], 3, true⟩,
  -- 41: a34a=sproduct(ANGLE,&p3,&p4)
  .sprod 1 ⟨true, 2, true, [], 3, true⟩,
  -- 42: s12s=sproduct(SQUARE,&p1,&p2)
  .sprod 2 ⟨false, 0, true, [], 1, true⟩,
  -- 43: a12a=sproduct(ANGLE,&p1,&p2)
  .sprod 3 ⟨true, 0, true, [], 1, true⟩,
  -- 44: s13s=sproduct(SQUARE,&p1,&p3)
  .sprod 4 ⟨false, 0, true, [], 2, true⟩,
  -- 45: a13a=sproduct(ANGLE,&p1,&p3)
  .sprod 5 ⟨true, 0, true, [], 2, true⟩,
  -- 46: s24s=sproduct(SQUARE,&p2,&p4)
  .sprod 6 ⟨false, 1, true, [], 3, true⟩,
  -- 47: a24a=sproduct(ANGLE,&p2,&p4)
  .sprod 7 ⟨true, 1, true, [], 3, true⟩,
  -- 48: s23s=sproduct(SQUARE,&p2,&p3)
  .sprod 8 ⟨false, 1, true, [], 2, true⟩,
  -- 49: a23a=sproduct(ANGLE,&p2,&p3)
  .sprod 9 ⟨true, 1, true, [], 2, true⟩,
  -- 50: s14s=sproduct(SQUARE,&p1,&p4)
  .sprod 10 ⟨false, 0, true, [], 3, true⟩,
  -- 51: a14a=sproduct(ANGLE,&p1,&p4)
  .sprod 11 ⟨true, 0, true, [], 3, true⟩,
  -- 52: s132a=sproduct(SQUARE,&p1,&p3,&p2)
  .sprod 12 ⟨false, 0, true, [2], 1, true⟩,
  -- 53: s231a=sproduct(SQUARE,&p2,&p3,&p1)
  .sprod 13 ⟨false, 1, true, [2], 0, true⟩]

/-- `set_masses` (SM/gguu.cpp:55-60); parameters: 0 `massu` -/
def setMasses : List SInstr := [
  -- 56: mu=massu
  .set .r 1 (.loc .r 0),
  -- 57: p3.set_mass(mu)
  .setMass 2 (.mem .r 1),
  -- 58: p4.set_mass(mu)
  .setMass 3 (.mem .r 1),
  -- 59: propu.set_mass(mu)
  .propMass 0 (.mem .r 1)]

/-- `set_momenta` (SM/gguu.cpp:61-92); parameters: 0 `mom1`, 1 `mom2`, 2 `mom3`, 3 `mom4` -/
def setMomenta : List SInstr := [
  -- 63: p1.set_momentum(mom1)
  .setMom 0 0,
  -- 64: p2.set_momentum(mom2)
  .setMom 1 1,
  -- 65: p3.set_momentum(mom3)
  .setMom 2 2,
  -- 66: p4.set_momentum(mom4)
  .setMom 3 3,
  -- 67: s34s.update()
  .update 0,
  -- 68: a34a.update()
  .update 1,
  -- 69: s12s.update()
  .update 2,
  -- 70: a12a.update()
  .update 3,
  -- 71: s13s.update()
  .update 4,
  -- 72: a13a.update()
  .update 5,
  -- 73: s24s.update()
  .update 6,
  -- 74: a24a.update()
  .update 7,
  -- 75: s23s.update()
  .update 8,
  -- 76: a23a.update()
  .update 9,
  -- 77: s14s.update()
  .update 10,
  -- 78: a14a.update()
  .update 11,
  -- 79: s132a.update()
  .update 12,
  -- 80: s231a.update()
  .update 13,
  -- 88: pDenS=std::real(propg.denominator(propSP))
  .den .r 2 1 (.add 0 1),
  -- 89: pDenT=std::real(propu.denominator(propTP))
  .den .r 3 0 (.sub 0 2),
  -- 90: pDenU=std::real(propu.denominator(propUP))
  .den .r 4 0 (.sub 0 3)]

/-- `cdouble amp_Num(ds1,ds2,ds3,ds4)` (SM/gguu.cpp:99-125); variables: i 0 `ds1`, i 1 `ds2`, i 2 `ds3`, i 3 `ds4` -/
def m_amp_Num : Method := ⟨4, 
  -- 100: if(ds1>0&&ds2>0)
  .seq (.ite (.and (.lt (.lit 0) (.var 0)) (.lt (.lit 0) (.var 1))) (
    -- 104: return 2.0*gs*gs*mu*s12s.v()*s12s.v()*a34a.v(ds3,ds4)
    .ret .c (.mul (.mul (.smul (.mul (.mul (.mul (.lit 2) (.mem .r 0)) (.mem .r 0)) (.mem .r 1)) (.v 2 [])) (.v 2 [])) (.v 1 [.var 2, .var 3]))) (
    -- 106: if(ds1<0&&ds2<0)
    .ite (.and (.lt (.var 0) (.lit 0)) (.lt (.var 1) (.lit 0))) (
      -- 110: return 2.0*gs*gs*mu*a12a.v()*a12a.v()*s34s.v(ds3,ds4)
      .ret .c (.mul (.mul (.smul (.mul (.mul (.mul (.lit 2) (.mem .r 0)) (.mem .r 0)) (.mem .r 1)) (.v 3 [])) (.v 3 [])) (.v 0 [.var 2, .var 3]))) (
      -- 112: if(ds1>0&&ds2<0)
      .ite (.and (.lt (.lit 0) (.var 0)) (.lt (.var 1) (.lit 0))) (
        -- 116: return -2.0*gs*gs*(s13s.v(ds3)*a24a.v(ds4)+s14s.v(ds4)*a23a.v(ds3))*s132a.v()
        .ret .c (.mul (.smul (.mul (.mul (.neg (.lit 2)) (.mem .r 0)) (.mem .r 0)) (.add (.mul (.v 4 [.var 2]) (.v 7 [.var 3])) (.mul (.v 10 [.var 3]) (.v 9 [.var 2])))) (.v 12 []))) (
        -- 118: if(ds1<0&&ds2>0)
        .ite (.and (.lt (.var 0) (.lit 0)) (.lt (.lit 0) (.var 1))) (
          -- 122: return -2.0*gs*gs*(a13a.v(ds3)*s24s.v(ds4)+a14a.v(ds4)*s23s.v(ds3))*s231a.v()
          .ret .c (.mul (.smul (.mul (.mul (.neg (.lit 2)) (.mem .r 0)) (.mem .r 0)) (.add (.mul (.v 5 [.var 2]) (.v 6 [.var 3])) (.mul (.v 11 [.var 3]) (.v 8 [.var 2])))) (.v 13 []))) (
          .skip))))) <|
  -- 124: return cdouble(0,0)
  .ret .c (.ofR (.lit 0))⟩

/-- `ldouble amp2_Feynman()` (SM/gguu.cpp:133-138); variables: r 0 `pre`, r 1 `oneSixth`, r 2 `threeEights`, c 0 `M2` -/
def m_amp2_Feynman : Method := ⟨0, 
  -- 134: ldouble pre
  .seq (.set .r 0 (.mul (.mul (.mul (.mem .r 0) (.mem .r 0)) (.mem .r 0)) (.mem .r 0))) <|
  -- 135: ldouble oneSixth
  .seq (.set .r 1 (.div (.lit 1) (.lit 6))) <|
  -- 135: ldouble threeEights
  .seq (.set .r 2 (.div (.lit 3) (.lit 8))) <|
  -- 136: cdouble M2
  .seq (.set .c 0 (.ofR (.mul (.mul (.loc .r 0) (.add (.mul (.mem .r 3) (.mem .r 3)) (.mul (.mem .r 4) (.mem .r 4)))) (.sub (.div (.div (.loc .r 1) (.mem .r 3)) (.mem .r 4)) (.div (.div (.loc .r 2) (.mem .r 2)) (.mem .r 2)))))) <|
  -- 137: return std::abs(M2)
  .ret .r (.abs (.loc .c 0))⟩

/-- `ldouble amp2()` (SM/gguu.cpp:142-157); variables: r 0 `amp2`, c 0 `M_Num`, i 0 `j1`, i 1 `j2`, i 2 `j3`, i 3 `j4` -/
def m_amp2 : Method := ⟨0, 
  -- 143: ldouble amp2
  .seq (.set .r 0 (.lit 0)) <|
  -- 144: cdouble M_Num
  .seq (.set .c 0 (.ofR (.lit 0))) <|
  -- 147: for(int j1=-2;j1<=2;j1+=4)
  .seq (.loop 0 (-2) true (.lit 2) 4 (
    -- 148: for(int j2=-2;j2<=2;j2+=4)
    .loop 1 (-2) true (.lit 2) 4 (
      -- 149: for(int j3=-1;j3<=1;j3+=2)
      .loop 2 (-1) true (.lit 1) 2 (
        -- 150: for(int j4=-1;j4<=1;j4+=2)
        .loop 3 (-1) true (.lit 1) 2 (
          -- 151: M_Num=amp_Num(j1,j2,j3,j4)
          .seq (.set .c 0 (.call 0 [.var 0, .var 1, .var 2, .var 3])) <|
          -- 152: amp2+=std::pow(std::abs(M_Num),2)*(6.0/std::pow(pDenS*pDenT,2)+6.0/std::pow(pDenS*pDenU,2)-2.0/3.0/std::pow(pDenT*pDenU,2))
          .set .r 0 (.add (.loc .r 0) (.mul (.pow (.abs (.loc .c 0)) 2) (.sub (.add (.div (.lit 6) (.pow (.mul (.mem .r 2) (.mem .r 3)) 2)) (.div (.lit 6) (.pow (.mul (.mem .r 2) (.mem .r 4)) 2))) (.div (.div (.lit 2) (.lit 3)) (.pow (.mul (.mem .r 3) (.mem .r 4)) 2)))))))))) <|
  -- 156: return amp2/256.0
  .ret .r (.div (.loc .r 0) (.lit 256))⟩

/-- `ldouble amp2_gplus_gplus()` (SM/gguu.cpp:160-172); variables: r 0 `amp2`, c 0 `M_Num`, i 0 `j3`, i 1 `j4` -/
def m_amp2_gplus_gplus : Method := ⟨0, 
  -- 161: ldouble amp2
  .seq (.set .r 0 (.lit 0)) <|
  -- 162: cdouble M_Num
  .seq (.set .c 0 (.ofR (.lit 0))) <|
  -- 165: for(int j3=-1;j3<=1;j3+=2)
  .seq (.loop 0 (-1) true (.lit 1) 2 (
    -- 166: for(int j4=-1;j4<=1;j4+=2)
    .loop 1 (-1) true (.lit 1) 2 (
      -- 167: M_Num=amp_Num(2,2,j3,j4)
      .seq (.set .c 0 (.call 0 [.lit 2, .lit 2, .var 0, .var 1])) <|
      -- 168: amp2+=std::pow(std::abs(M_Num),2)*(6.0/std::pow(pDenS*pDenT,2)+6.0/std::pow(pDenS*pDenU,2)-2.0/3.0/std::pow(pDenT*pDenU,2))
      .set .r 0 (.add (.loc .r 0) (.mul (.pow (.abs (.loc .c 0)) 2) (.sub (.add (.div (.lit 6) (.pow (.mul (.mem .r 2) (.mem .r 3)) 2)) (.div (.lit 6) (.pow (.mul (.mem .r 2) (.mem .r 4)) 2))) (.div (.div (.lit 2) (.lit 3)) (.pow (.mul (.mem .r 3) (.mem .r 4)) 2)))))))) <|
  -- 171: return amp2/64.0
  .ret .r (.div (.loc .r 0) (.lit 64))⟩

/-- `ldouble amp2_gplus_gminus()` (SM/gguu.cpp:175-187); variables: r 0 `amp2`, c 0 `M_Num`, i 0 `j3`, i 1 `j4` -/
def m_amp2_gplus_gminus : Method := ⟨0, 
  -- 176: ldouble amp2
  .seq (.set .r 0 (.lit 0)) <|
  -- 177: cdouble M_Num
  .seq (.set .c 0 (.ofR (.lit 0))) <|
  -- 180: for(int j3=-1;j3<=1;j3+=2)
  .seq (.loop 0 (-1) true (.lit 1) 2 (
    -- 181: for(int j4=-1;j4<=1;j4+=2)
    .loop 1 (-1) true (.lit 1) 2 (
      -- 182: M_Num=amp_Num(2,-2,j3,j4)
      .seq (.set .c 0 (.call 0 [.lit 2, .lit (-2), .var 0, .var 1])) <|
      -- 183: amp2+=std::pow(std::abs(M_Num),2)*(6.0/std::pow(pDenS*pDenT,2)+6.0/std::pow(pDenS*pDenU,2)-2.0/3.0/std::pow(pDenT*pDenU,2))
      .set .r 0 (.add (.loc .r 0) (.mul (.pow (.abs (.loc .c 0)) 2) (.sub (.add (.div (.lit 6) (.pow (.mul (.mem .r 2) (.mem .r 3)) 2)) (.div (.lit 6) (.pow (.mul (.mem .r 2) (.mem .r 4)) 2))) (.div (.div (.lit 2) (.lit 3)) (.pow (.mul (.mem .r 3) (.mem .r 4)) 2)))))))) <|
  -- 186: return amp2/64.0
  .ret .r (.div (.loc .r 0) (.lit 64))⟩

end gguu

/-- `class gguu` (SM/gguu.cpp, SM/include/gguu.h:25-32).  Members:
* ldouble: 0 `gs`, 1 `mu`, 2 `pDenS`, 3 `pDenT`, 4 `pDenU`, 5 `sqrt2`
* propagator: 0 `propu`, 1 `propg`
* sproduct: 0 `s34s`, 1 `a34a`, 2 `s12s`, 3 `a12a`, 4 `s13s`, 5 `a13a`, 6 `s24s`, 7 `a24a`, 8 `s23s`, 9 `a23a`, 10 `s14s`, 11 `a14a`, 12 `s132a`, 13 `s231a` -/
def gguu : Proc where
  name := "gguu"
  nPar := 2
  ctor := gguu.ctor
  setMasses := gguu.setMasses
  massPar := [1]
  setMomenta := gguu.setMomenta
  methods := [gguu.m_amp2_gplus_gminus, gguu.m_amp2_gplus_gplus, gguu.m_amp2, gguu.m_amp2_Feynman, gguu.m_amp_Num]
  amp2 := 2
  others := [("amp2_Feynman", 1), ("amp2_gplus_gplus", 3), ("amp2_gplus_gminus", 4)]

namespace guAu

/-- constructor (SM/guAu.cpp:32-54); parameters: 0 `echarge`, 1 `gscharge`, 2 `massu` -/
def ctor : List SInstr := [
  -- 32: e(echarge)
  .set .r 0 (.loc .r 0),
  -- 32: Qu(2.0/3.0)
  .set .r 1 (.div (.lit 2) (.lit 3)),
  -- 32: gs(gscharge)
  .set .r 2 (.loc .r 1),
  -- 32: mu(massu)
  .set .r 3 (.loc .r 2),
  -- 32: prop(massu,0)
  .prop 0 (.loc .r 2) (.lit 0),
  -- 35: sqrt2=std::sqrt(two)
  .set .r 4 (.sqrt (.lit 2)),
  -- 36: p1=particle(0)
  .part 0 (.lit 0),
  -- 37: p2=particle(mu)
  .part 1 (.mem .r 3),
  -- 38: p3=particle(0)
  .part 2 (.lit 0),
  -- 39: p4=particle(mu)
  .part 3 (.mem .r 3),
  -- 40: s34s=sproduct(SQUARE,&p3,&p4)
  .sprod 0 ⟨false, 2, true, [], 3, true⟩,
  -- 41: a34a=sproduct(ANGLE,&p3,&p4)
  .sprod 1 ⟨true, 2, true, [], 3, true⟩,
  -- 42: s12s=sproduct(SQUARE,&p1,&p2)
  .sprod 2 ⟨false, 0, true, [], 1, true⟩,
  -- 43: a12a=sproduct(ANGLE,&p1,&p2)
  .sprod 3 ⟨true, 0, true, [], 1, true⟩,
  -- 44: s13s=sproduct(SQUARE,&p1,&p3)
  .sprod 4 ⟨false, 0, true, [], 2, true⟩,
  -- 45: a13a=sproduct(ANGLE,&p1,&p3)
  .sprod 5 ⟨true, 0, true, [], 2, true⟩,
  -- 46: s24s=sproduct(SQUARE,&p2,&p4)
  .sprod 6 ⟨false, 1, true, [], 3, true⟩,
  -- 47: a24a=sproduct(ANGLE,&p2,&p4)
  .sprod 7 ⟨true, 1, true, [], 3, true⟩,
  -- 48: s23s=sproduct(SQUARE,&p2,&p3)
  .sprod 8 ⟨false, 1, true, [], 2, true⟩,
  -- 49: a23a=sproduct(ANGLE,&p2,&p3)
  .sprod 9 ⟨true, 1, true, [], 2, true⟩,
  -- 50: s14s=sproduct(SQUARE,&p1,&p4)
  .sprod 10 ⟨false, 0, true, [], 3, true⟩,
  -- 51: a14a=sproduct(ANGLE,&p1,&p4)
  .sprod 11 ⟨true, 0, true, [], 3, true⟩,
  -- 52: s143a=sproduct(SQUARE,&p1,&p4,&p3)
  .sprod 12 ⟨false, 0, true, [3], 2, true⟩,
  -- 53: s341a=sproduct(SQUARE,&p3,&p4,&p1)
  .sprod 13 ⟨false, 2, true, [3], 0, true⟩]

/-- `set_masses` (SM/guAu.cpp:55-60); parameters: 0 `massu` -/
def setMasses : List SInstr := [
  -- 56: mu=massu
  .set .r 3 (.loc .r 0),
  -- 57: p2.set_mass(mu)
  .setMass 1 (.mem .r 3),
  -- 58: p4.set_mass(mu)
  .setMass 3 (.mem .r 3),
  -- 59: prop.set_mass(mu)
  .propMass 0 (.mem .r 3)]

/-- `set_momenta` (SM/guAu.cpp:61-90); parameters: 0 `mom1`, 1 `mom2`, 2 `mom3`, 3 `mom4` -/
def setMomenta : List SInstr := [
  -- 63: p1.set_momentum(mom1)
  .setMom 0 0,
  -- 64: p2.set_momentum(mom2)
  .setMom 1 1,
  -- 65: p3.set_momentum(mom3)
  .setMom 2 2,
  -- 66: p4.set_momentum(mom4)
  .setMom 3 3,
  -- 67: s34s.update()
  .update 0,
  -- 68: a34a.update()
  .update 1,
  -- 69: s12s.update()
  .update 2,
  -- 70: a12a.update()
  .update 3,
  -- 71: s13s.update()
  .update 4,
  -- 72: a13a.update()
  .update 5,
  -- 73: s24s.update()
  .update 6,
  -- 74: a24a.update()
  .update 7,
  -- 75: s23s.update()
  .update 8,
  -- 76: a23a.update()
  .update 9,
  -- 77: s14s.update()
  .update 10,
  -- 78: a14a.update()
  .update 11,
  -- 79: s143a.update()
  .update 12,
  -- 80: s341a.update()
  .update 13,
  -- 87: pDenS=prop.denominator(propSP)
  .den .c 0 0 (.add 0 1),
  -- 88: pDenU=prop.denominator(propUP)
  .den .c 1 0 (.sub 0 3)]

/-- `cdouble amp(ds1,ds2,ds3,ds4)` (SM/guAu.cpp:97-123); variables: i 0 `ds1`, i 1 `ds2`, i 2 `ds3`, i 3 `ds4` -/
def m_amp : Method := ⟨4, 
  -- 98: if(ds1>0&&ds3>0)
  .seq (.ite (.and (.lt (.lit 0) (.var 0)) (.lt (.lit 0) (.var 2))) (
    -- 102: return +2.0*e*Qu*gs*mu*s13s.v()*s13s.v()*a24a.v(ds2,ds4)/pDenU/pDenS
    .ret .c (.div (.div (.mul (.mul (.smul (.mul (.mul (.mul (.mul (.lit 2) (.mem .r 0)) (.mem .r 1)) (.mem .r 2)) (.mem .r 3)) (.v 4 [])) (.v 4 [])) (.v 7 [.var 1, .var 3])) (.mem .c 1)) (.mem .c 0))) (
    -- 104: if(ds1<0&&ds3<0)
    .ite (.and (.lt (.var 0) (.lit 0)) (.lt (.var 2) (.lit 0))) (
      -- 108: return -2.0*e*Qu*gs*mu*a13a.v()*a13a.v()*s24s.v(ds2,ds4)/pDenU/pDenS
      .ret .c (.div (.div (.mul (.mul (.smul (.mul (.mul (.mul (.mul (.neg (.lit 2)) (.mem .r 0)) (.mem .r 1)) (.mem .r 2)) (.mem .r 3)) (.v 5 [])) (.v 5 [])) (.v 6 [.var 1, .var 3])) (.mem .c 1)) (.mem .c 0))) (
      -- 110: if(ds1>0&&ds3<0)
      .ite (.and (.lt (.lit 0) (.var 0)) (.lt (.var 2) (.lit 0))) (
        -- 114: return +2.0*e*Qu*gs*(s14s.v(ds4)*a23a.v(ds2)+s12s.v(ds2)*a34a.v(ds4))*s143a.v()/pDenU/pDenS
        .ret .c (.div (.div (.mul (.smul (.mul (.mul (.mul (.lit 2) (.mem .r 0)) (.mem .r 1)) (.mem .r 2)) (.add (.mul (.v 10 [.var 3]) (.v 9 [.var 1])) (.mul (.v 2 [.var 1]) (.v 1 [.var 3])))) (.v 12 [])) (.mem .c 1)) (.mem .c 0))) (
        -- 116: if(ds1<0&&ds3>0)
        .ite (.and (.lt (.var 0) (.lit 0)) (.lt (.lit 0) (.var 2))) (
          -- 120: return -2.0*e*Qu*gs*(a14a.v(ds4)*s23s.v(ds2)+a12a.v(ds2)*s34s.v(ds4))*s341a.v()/pDenU/pDenS
          .ret .c (.div (.div (.mul (.smul (.mul (.mul (.mul (.neg (.lit 2)) (.mem .r 0)) (.mem .r 1)) (.mem .r 2)) (.add (.mul (.v 11 [.var 3]) (.v 8 [.var 1])) (.mul (.v 3 [.var 1]) (.v 0 [.var 3])))) (.v 13 [])) (.mem .c 1)) (.mem .c 0))) (
          .skip))))) <|
  -- 122: return cdouble(0,0)
  .ret .c (.ofR (.lit 0))⟩

/-- `ldouble amp2()` (SM/guAu.cpp:127-142); variables: r 0 `amp2`, c 0 `M`, i 0 `j1`, i 1 `j2`, i 2 `j3`, i 3 `j4` -/
def m_amp2 : Method := ⟨0, 
  -- 128: ldouble amp2
  .seq (.set .r 0 (.lit 0)) <|
  -- 129: cdouble M
  .seq (.set .c 0 (.ofR (.lit 0))) <|
  -- 132: for(int j1=-2;j1<=2;j1+=4)
  .seq (.loop 0 (-2) true (.lit 2) 4 (
    -- 133: for(int j2=-1;j2<=1;j2+=2)
    .loop 1 (-1) true (.lit 1) 2 (
      -- 134: for(int j3=-2;j3<=2;j3+=4)
      .loop 2 (-2) true (.lit 2) 4 (
        -- 135: for(int j4=-1;j4<=1;j4+=2)
        .loop 3 (-1) true (.lit 1) 2 (
          -- 136: M=amp(j1,j2,j3,j4)
          .seq (.set .c 0 (.call 0 [.var 0, .var 1, .var 2, .var 3])) <|
          -- 137: amp2+=4.0*std::pow(std::abs(M),2)
          .set .r 0 (.add (.loc .r 0) (.mul (.lit 4) (.pow (.abs (.loc .c 0)) 2)))))))) <|
  -- 141: return amp2/96.0
  .ret .r (.div (.loc .r 0) (.lit 96))⟩

/-- `ldouble amp2_gplus()` (SM/guAu.cpp:145-159); variables: r 0 `amp2`, c 0 `M`, i 0 `j2`, i 1 `j3`, i 2 `j4` -/
def m_amp2_gplus : Method := ⟨0, 
  -- 146: ldouble amp2
  .seq (.set .r 0 (.lit 0)) <|
  -- 147: cdouble M
  .seq (.set .c 0 (.ofR (.lit 0))) <|
  -- 150: for(int j2=-1;j2<=1;j2+=2)
  .seq (.loop 0 (-1) true (.lit 1) 2 (
    -- 151: for(int j3=-2;j3<=2;j3+=4)
    .loop 1 (-2) true (.lit 2) 4 (
      -- 152: for(int j4=-1;j4<=1;j4+=2)
      .loop 2 (-1) true (.lit 1) 2 (
        -- 153: M=amp(2,j2,j3,j4)
        .seq (.set .c 0 (.call 0 [.lit 2, .var 0, .var 1, .var 2])) <|
        -- 154: amp2+=4.0*std::pow(std::abs(M),2)
        .set .r 0 (.add (.loc .r 0) (.mul (.lit 4) (.pow (.abs (.loc .c 0)) 2))))))) <|
  -- 158: return amp2/48.0
  .ret .r (.div (.loc .r 0) (.lit 48))⟩

/-- `ldouble amp2_gminus()` (SM/guAu.cpp:162-176); variables: r 0 `amp2`, c 0 `M`, i 0 `j2`, i 1 `j3`, i 2 `j4` -/
def m_amp2_gminus : Method := ⟨0, 
  -- 163: ldouble amp2
  .seq (.set .r 0 (.lit 0)) <|
  -- 164: cdouble M
  .seq (.set .c 0 (.ofR (.lit 0))) <|
  -- 167: for(int j2=-1;j2<=1;j2+=2)
  .seq (.loop 0 (-1) true (.lit 1) 2 (
    -- 168: for(int j3=-2;j3<=2;j3+=4)
    .loop 1 (-2) true (.lit 2) 4 (
      -- 169: for(int j4=-1;j4<=1;j4+=2)
      .loop 2 (-1) true (.lit 1) 2 (
        -- 170: M=amp(-2,j2,j3,j4)
        .seq (.set .c 0 (.call 0 [.lit (-2), .var 0, .var 1, .var 2])) <|
        -- 171: amp2+=4.0*std::pow(std::abs(M),2)
        .set .r 0 (.add (.loc .r 0) (.mul (.lit 4) (.pow (.abs (.loc .c 0)) 2))))))) <|
  -- 175: return amp2/48.0
  .ret .r (.div (.loc .r 0) (.lit 48))⟩

end guAu

/-- `class guAu` (SM/guAu.cpp, SM/include/guAu.h:25-32).  Members:
* ldouble: 0 `e`, 1 `Qu`, 2 `gs`, 3 `mu`, 4 `sqrt2`
* cdouble: 0 `pDenS`, 1 `pDenU`
* propagator: 0 `prop`
* sproduct: 0 `s34s`, 1 `a34a`, 2 `s12s`, 3 `a12a`, 4 `s13s`, 5 `a13a`, 6 `s24s`, 7 `a24a`, 8 `s23s`, 9 `a23a`, 10 `s14s`, 11 `a14a`, 12 `s143a`, 13 `s341a` -/
def guAu : Proc where
  name := "guAu"
  nPar := 3
  ctor := guAu.ctor
  setMasses := guAu.setMasses
  massPar := [2]
  setMomenta := guAu.setMomenta
  methods := [guAu.m_amp2_gminus, guAu.m_amp2_gplus, guAu.m_amp2, guAu.m_amp]
  amp2 := 1
  others := [("amp2_gplus", 2), ("amp2_gminus", 3)]

namespace guZu

/-- constructor (SM/guZu.cpp:32-65); parameters: 0 `echarge`, 1 `gscharge`, 2 `massu`, 3 `massW`, 4 `sinW` -/
def ctor : List SInstr := [
  -- 32: e(echarge)
  .set .r 0 (.loc .r 0),
  -- 32: Qu(2.0/3.0)
  .set .r 1 (.div (.lit 2) (.lit 3)),
  -- 32: gs(gscharge)
  .set .r 2 (.loc .r 1),
  -- 32: mu(massu)
  .set .r 3 (.loc .r 2),
  -- 32: MW(massW)
  .set .r 4 (.loc .r 3),
  -- 32: SW(sinW)
  .set .r 5 (.loc .r 4),
  -- 32: CW(std::sqrt(1.0-sinW*sinW))
  .set .r 6 (.sqrt (.sub (.lit 1) (.mul (.loc .r 4) (.loc .r 4)))),
  -- 32: MZ(massW/CW)
  .set .r 7 (.div (.loc .r 3) (.mem .r 6)),
  -- 32: prope(massu,0)
  .prop 0 (.loc .r 2) (.lit 0),
  -- 35: sqrt2=std::sqrt(two)
  .set .r 8 (.sqrt (.lit 2)),
  -- 36: MZ=MW/CW
  .set .r 7 (.div (.mem .r 4) (.mem .r 6)),
  -- 37: p1=particle(0)
  .part 0 (.lit 0),
  -- 38: p2=particle(mu)
  .part 1 (.mem .r 3),
  -- 39: p3=particle(MZ)
  .part 2 (.mem .r 7),
  -- 40: p4=particle(mu)
  .part 3 (.mem .r 3),
  -- 42: s12s=sproduct(SQUARE,&p1,&p2)
  .sprod 0 ⟨false, 0, true, [], 1, true⟩,
  -- 43: s13s=sproduct(SQUARE,&p1,&p3)
  .sprod 1 ⟨false, 0, true, [], 2, true⟩,
  -- 44: s14s=sproduct(SQUARE,&p1,&p4)
  .sprod 2 ⟨false, 0, true, [], 3, true⟩,
  -- 45: a23a=sproduct(ANGLE,&p2,&p3)
  .sprod 3 ⟨true, 1, true, [], 2, true⟩,
  -- 46: a34a=sproduct(ANGLE,&p3,&p4)
  .sprod 4 ⟨true, 2, true, [], 3, true⟩,
  -- 47: s123a=sproduct(SQUARE,&p1,&p2,&p3)
  .sprod 5 ⟨false, 0, true, [1], 2, true⟩,
  -- 48: s132a=sproduct(SQUARE,&p1,&p3,&p2)
  .sprod 6 ⟨false, 0, true, [2], 1, true⟩,
  -- 49: s134a=sproduct(SQUARE,&p1,&p3,&p4)
  .sprod 7 ⟨false, 0, true, [2], 3, true⟩,
  -- 50: s143a=sproduct(SQUARE,&p1,&p4,&p3)
  .sprod 8 ⟨false, 0, true, [3], 2, true⟩,
  -- 52: a12a=sproduct(ANGLE,&p1,&p2)
  .sprod 9 ⟨true, 0, true, [], 1, true⟩,
  -- 53: a13a=sproduct(ANGLE,&p1,&p3)
  .sprod 10 ⟨true, 0, true, [], 2, true⟩,
  -- 54: a14a=sproduct(ANGLE,&p1,&p4)
  .sprod 11 ⟨true, 0, true, [], 3, true⟩,
  -- 55: s23s=sproduct(SQUARE,&p2,&p3)
  .sprod 12 ⟨false, 1, true, [], 2, true⟩,
  -- 56: s34s=sproduct(SQUARE,&p3,&p4)
  .sprod 13 ⟨false, 2, true, [], 3, true⟩,
  -- 57: a123s=sproduct(ANGLE,&p1,&p2,&p3)
  .sprod 14 ⟨true, 0, true, [1], 2, true⟩,
  -- 58: a132s=sproduct(ANGLE,&p1,&p3,&p2)
  .sprod 15 ⟨true, 0, true, [2], 1, true⟩,
  -- 59: a134s=sproduct(ANGLE,&p1,&p3,&p4)
  .sprod 16 ⟨true, 0, true, [2], 3, true⟩,
  -- 60: a143s=sproduct(ANGLE,&p1,&p4,&p3)
  .sprod 17 ⟨true, 0, true, [3], 2, true⟩,
  -- 62: preTU=2.0*e*gs/(2.0*MW*SW)
  .set .r 9 (.div (.mul (.mul (.lit 2) (.mem .r 0)) (.mem .r 2)) (.mul (.mul (.lit 2) (.mem .r 4)) (.mem .r 5))),
  -- 63: gL=-2.0*Qu*SW*SW+1.0
  .set .r 11 (.add (.mul (.mul (.mul (.neg (.lit 2)) (.mem .r 1)) (.mem .r 5)) (.mem .r 5)) (.lit 1)),
  -- 64: gR=-2.0*Qu*SW*SW
  .set .r 12 (.mul (.mul (.mul (.neg (.lit 2)) (.mem .r 1)) (.mem .r 5)) (.mem .r 5))]

/-- `set_masses` (SM/guZu.cpp:66-77); parameters: 0 `massu`, 1 `massW` -/
def setMasses : List SInstr := [
  -- 67: mu=massu
  .set .r 3 (.loc .r 0),
  -- 68: MW=massW
  .set .r 4 (.loc .r 1),
  -- 69: MZ=MW/CW
  .set .r 7 (.div (.mem .r 4) (.mem .r 6)),
  -- 70: p1.set_mass(0)
  .setMass 0 (.lit 0),
  -- 71: p2.set_mass(mu)
  .setMass 1 (.mem .r 3),
  -- 72: p3.set_mass(MZ)
  .setMass 2 (.mem .r 7),
  -- 73: p4.set_mass(mu)
  .setMass 3 (.mem .r 3),
  -- 74: prope.set_mass(mu)
  .propMass 0 (.mem .r 3),
  -- 76: preTU=2.0*e*gs/(2.0*MW*SW)
  .set .r 9 (.div (.mul (.mul (.lit 2) (.mem .r 0)) (.mem .r 2)) (.mul (.mul (.lit 2) (.mem .r 4)) (.mem .r 5)))]

/-- `set_momenta` (SM/guZu.cpp:78-112); parameters: 0 `mom1`, 1 `mom2`, 2 `mom3`, 3 `mom4` -/
def setMomenta : List SInstr := [
  -- 80: p1.set_momentum(mom1)
  .setMom 0 0,
  -- 81: p2.set_momentum(mom2)
  .setMom 1 1,
  -- 82: p3.set_momentum(mom3)
  .setMom 2 2,
  -- 83: p4.set_momentum(mom4)
  .setMom 3 3,
  -- 85: s12s.update()
  .update 0,
  -- 86: s13s.update()
  .update 1,
  -- 87: s14s.update()
  .update 2,
  -- 88: a23a.update()
  .update 3,
  -- 89: a34a.update()
  .update 4,
  -- 90: s123a.update()
  .update 5,
  -- 91: s132a.update()
  .update 6,
  -- 92: s134a.update()
  .update 7,
  -- 93: s143a.update()
  .update 8,
  -- 95: a12a.update()
  .update 9,
  -- 96: a13a.update()
  .update 10,
  -- 97: a14a.update()
  .update 11,
  -- 98: s23s.update()
  .update 12,
  -- 99: s34s.update()
  .update 13,
  -- 100: a123s.update()
  .update 14,
  -- 101: a132s.update()
  .update 15,
  -- 102: a134s.update()
  .update 16,
  -- 103: a143s.update()
  .update 17,
  -- 110: pDenS=prope.denominator(propSP)
  .den .c 0 0 (.add 0 1),
  -- 111: pDenU=prope.denominator(propUP)
  .den .c 1 0 (.sub 0 3)]

/-- `cdouble amp(ds1,ds2,ds3,ds4)` (SM/guZu.cpp:117-176); variables: i 0 `ds1`, i 1 `ds2`, i 2 `ds3`, i 3 `ds4`, c 0 `amplitude`, i 4 `ds3a`, i 5 `ds3b`, i 6 `nCombs`, r 0 `normFactor`, i 7 `i` -/
def m_amp : Method := ⟨4, 
  -- 118: cdouble amplitude
  .seq (.set .c 0 (.ofR (.lit 0))) <|
  -- 123: int nCombs
  .seq (.seti 6 (.loops [2])) <|
  -- 124: ldouble normFactor
  .seq (.set .r 0 (.norm [2])) <|
  -- 125: for(int i=0;i<nCombs;i++)
  .seq (.loop 7 0 false (.var 6) 1 (
    -- 126: get_spinor_spins(ds3,ds3a,ds3b,i)
    .seq (.spins [(2, 4, 5)] (.var 7)) <|
    -- 128: if(ds1>0)
    .ite (.lt (.lit 0) (.var 0)) (
      -- 144: amplitude+=normFactor*preTU*(gL*a23a.v(ds2,ds3a)*(-MZ*s14s.v(ds4)*s123a.v(ds3b)-mu*s13s.v(ds3b)*s134a.v(ds4))+gR*a34a.v(ds3a,ds4)*(-mu*s13s.v(ds3b)*s132a.v(ds2)-MZ*s12s.v(ds2)*s143a.v(ds3b)))/pDenU/pDenS
      .set .c 0 (.add (.loc .c 0) (.div (.div (.smul (.mul (.loc .r 0) (.mem .r 9)) (.add (.mul (.smul (.mem .r 11) (.v 3 [.var 1, .var 4])) (.sub (.mul (.smul (.neg (.mem .r 7)) (.v 2 [.var 3])) (.v 5 [.var 5])) (.mul (.smul (.mem .r 3) (.v 1 [.var 5])) (.v 7 [.var 3])))) (.mul (.smul (.mem .r 12) (.v 4 [.var 4, .var 3])) (.sub (.mul (.smul (.neg (.mem .r 3)) (.v 1 [.var 5])) (.v 6 [.var 1])) (.mul (.smul (.mem .r 7) (.v 0 [.var 1])) (.v 8 [.var 5])))))) (.mem .c 1)) (.mem .c 0)))) (
      -- 151: if(ds1<0)
      .ite (.lt (.var 0) (.lit 0)) (
        -- 164: amplitude+=normFactor*preTU*(gR*s23s.v(ds2,ds3a)*(-MZ*a14a.v(ds4)*a123s.v(ds3b)-mu*a13a.v(ds3b)*a134s.v(ds4))+gL*s34s.v(ds3a,ds4)*(-mu*a13a.v(ds3b)*a132s.v(ds2)-MZ*a12a.v(ds2)*a143s.v(ds3b)))/pDenU/pDenS
        .set .c 0 (.add (.loc .c 0) (.div (.div (.smul (.mul (.loc .r 0) (.mem .r 9)) (.add (.mul (.smul (.mem .r 12) (.v 12 [.var 1, .var 4])) (.sub (.mul (.smul (.neg (.mem .r 7)) (.v 11 [.var 3])) (.v 14 [.var 5])) (.mul (.smul (.mem .r 3) (.v 10 [.var 5])) (.v 16 [.var 3])))) (.mul (.smul (.mem .r 11) (.v 13 [.var 4, .var 3])) (.sub (.mul (.smul (.neg (.mem .r 3)) (.v 10 [.var 5])) (.v 15 [.var 1])) (.mul (.smul (.mem .r 7) (.v 9 [.var 1])) (.v 17 [.var 5])))))) (.mem .c 1)) (.mem .c 0)))) (
        .skip)))) <|
  -- 175: return amplitude
  .ret .c (.loc .c 0)⟩

/-- `ldouble amp2()` (SM/guZu.cpp:179-194); variables: r 0 `amp2`, c 0 `M`, i 0 `j1`, i 1 `j2`, i 2 `j3`, i 3 `j4` -/
def m_amp2 : Method := ⟨0, 
  -- 180: ldouble amp2
  .seq (.set .r 0 (.lit 0)) <|
  -- 181: cdouble M
  .seq (.set .c 0 (.ofR (.lit 0))) <|
  -- 184: for(int j1=-2;j1<=2;j1+=4)
  .seq (.loop 0 (-2) true (.lit 2) 4 (
    -- 185: for(int j2=-1;j2<=1;j2+=2)
    .loop 1 (-1) true (.lit 1) 2 (
      -- 186: for(int j3=-2;j3<=2;j3+=2)
      .loop 2 (-2) true (.lit 2) 2 (
        -- 187: for(int j4=-1;j4<=1;j4+=2)
        .loop 3 (-1) true (.lit 1) 2 (
          -- 188: M=amp(j1,j2,j3,j4)
          .seq (.set .c 0 (.call 0 [.var 0, .var 1, .var 2, .var 3])) <|
          -- 189: amp2+=4.0*std::pow(std::abs(M),2)
          .set .r 0 (.add (.loc .r 0) (.mul (.lit 4) (.pow (.abs (.loc .c 0)) 2)))))))) <|
  -- 193: return amp2/96.0
  .ret .r (.div (.loc .r 0) (.lit 96))⟩

/-- `ldouble amp2_gplus()` (SM/guZu.cpp:196-210); variables: r 0 `amp2`, c 0 `M`, i 0 `j2`, i 1 `j3`, i 2 `j4` -/
def m_amp2_gplus : Method := ⟨0, 
  -- 197: ldouble amp2
  .seq (.set .r 0 (.lit 0)) <|
  -- 198: cdouble M
  .seq (.set .c 0 (.ofR (.lit 0))) <|
  -- 201: for(int j2=-1;j2<=1;j2+=2)
  .seq (.loop 0 (-1) true (.lit 1) 2 (
    -- 202: for(int j3=-2;j3<=2;j3+=2)
    .loop 1 (-2) true (.lit 2) 2 (
      -- 203: for(int j4=-1;j4<=1;j4+=2)
      .loop 2 (-1) true (.lit 1) 2 (
        -- 204: M=amp(2,j2,j3,j4)
        .seq (.set .c 0 (.call 0 [.lit 2, .var 0, .var 1, .var 2])) <|
        -- 205: amp2+=4.0*std::pow(std::abs(M),2)
        .set .r 0 (.add (.loc .r 0) (.mul (.lit 4) (.pow (.abs (.loc .c 0)) 2))))))) <|
  -- 209: return amp2/48.0
  .ret .r (.div (.loc .r 0) (.lit 48))⟩

/-- `ldouble amp2_gminus()` (SM/guZu.cpp:212-226); variables: r 0 `amp2`, c 0 `M`, i 0 `j2`, i 1 `j3`, i 2 `j4` -/
def m_amp2_gminus : Method := ⟨0, 
  -- 213: ldouble amp2
  .seq (.set .r 0 (.lit 0)) <|
  -- 214: cdouble M
  .seq (.set .c 0 (.ofR (.lit 0))) <|
  -- 217: for(int j2=-1;j2<=1;j2+=2)
  .seq (.loop 0 (-1) true (.lit 1) 2 (
    -- 218: for(int j3=-2;j3<=2;j3+=2)
    .loop 1 (-2) true (.lit 2) 2 (
      -- 219: for(int j4=-1;j4<=1;j4+=2)
      .loop 2 (-1) true (.lit 1) 2 (
        -- 220: M=amp(-2,j2,j3,j4)
        .seq (.set .c 0 (.call 0 [.lit (-2), .var 0, .var 1, .var 2])) <|
        -- 221: amp2+=4.0*std::pow(std::abs(M),2)
        .set .r 0 (.add (.loc .r 0) (.mul (.lit 4) (.pow (.abs (.loc .c 0)) 2))))))) <|
  -- 225: return amp2/48.0
  .ret .r (.div (.loc .r 0) (.lit 48))⟩

end guZu

/-- `class guZu` (SM/guZu.cpp, SM/include/guZu.h:25-35).  Members:
* ldouble: 0 `e`, 1 `Qu`, 2 `gs`, 3 `mu`, 4 `MW`, 5 `SW`, 6 `CW`, 7 `MZ`, 8 `sqrt2`, 9 `preTU`, 10 `preh`, 11 `gL`, 12 `gR`
* cdouble: 0 `pDenS`, 1 `pDenU`
* propagator: 0 `prope`
* sproduct: 0 `s12s`, 1 `s13s`, 2 `s14s`, 3 `a23a`, 4 `a34a`, 5 `s123a`, 6 `s132a`, 7 `s134a`, 8 `s143a`, 9 `a12a`, 10 `a13a`, 11 `a14a`, 12 `s23s`, 13 `s34s`, 14 `a123s`, 15 `a132s`, 16 `a134s`, 17 `a143s` -/
def guZu : Proc where
  name := "guZu"
  nPar := 5
  ctor := guZu.ctor
  setMasses := guZu.setMasses
  massPar := [2, 3]
  setMomenta := guZu.setMomenta
  methods := [guZu.m_amp2_gminus, guZu.m_amp2_gplus, guZu.m_amp2, guZu.m_amp]
  amp2 := 1
  others := [("amp2_gplus", 2), ("amp2_gminus", 3)]

namespace gugu

/-- constructor (SM/gugu.cpp:32-54); parameters: 0 `gcharge`, 1 `massu` -/
def ctor : List SInstr := [
  -- 32: gs(gcharge)
  .set .r 0 (.loc .r 0),
  -- 32: mu(massu)
  .set .r 1 (.loc .r 1),
  -- 32: propu(massu,0)
  .prop 0 (.loc .r 1) (.lit 0),
  -- 32: propg(0,0)
  .prop 1 (.lit 0) (.lit 0),
  -- 35: sqrt2=std::sqrt(two)
  .set .r 5 (.sqrt (.lit 2)),
  -- 36: p1=particle(0)
  .part 0 (.lit 0),
  -- 37: p2=particle(mu)
  .part 1 (.mem .r 1),
  -- 38: p3=particle(0)
  .part 2 (.lit 0),
  -- 39: p4=particle(mu)
  .part 3 (.mem .r 1),
  -- 40: s34s=sproduct(SQUARE,&p3,&p4)
  .sprod 0 ⟨false, 2, true, [], 3, true⟩,
  -- 41: a34a=sproduct(ANGLE,&p3,&p4)
  .sprod 1 ⟨true, 2, true, [], 3, true⟩,
  -- 42: s12s=sproduct(SQUARE,&p1,&p2)
  .sprod 2 ⟨false, 0, true, [], 1, true⟩,
  -- 43: a12a=sproduct(ANGLE,&p1,&p2)
  .sprod 3 ⟨true, 0, true, [], 1, true⟩,
  -- 44: s13s=sproduct(SQUARE,&p1,&p3)
  .sprod 4 ⟨false, 0, true, [], 2, true⟩,
  -- 45: a13a=sproduct(ANGLE,&p1,&p3)
  .sprod 5 ⟨true, 0, true, [], 2, true⟩,
  -- 46: s24s=sproduct(SQUARE,&p2,&p4)
  .sprod 6 ⟨false, 1, true, [], 3, true⟩,
  -- 47: a24a=sproduct(ANGLE,&p2,&p4)
  .sprod 7 ⟨true, 1, true, [], 3, true⟩,
  -- 48: s23s=sproduct(SQUARE,&p2,&p3)
  .sprod 8 ⟨false, 1, true, [], 2, true⟩,
  -- 49: a23a=sproduct(ANGLE,&p2,&p3)
  .sprod 9 ⟨true, 1, true, [], 2, true⟩,
  -- 50: s14s=sproduct(SQUARE,&p1,&p4)
  .sprod 10 ⟨false, 0, true, [], 3, true⟩,
  -- 51: a14a=sproduct(ANGLE,&p1,&p4)
  .sprod 11 ⟨true, 0, true, [], 3, true⟩,
  -- 52: s143a=sproduct(SQUARE,&p1,&p4,&p3)
  .sprod 12 ⟨false, 0, true, [3], 2, true⟩,
  -- 53: s341a=sproduct(SQUARE,&p3,&p4,&p1)
  .sprod 13 ⟨false, 2, true, [3], 0, true⟩]

/-- `set_masses` (SM/gugu.cpp:55-60); parameters: 0 `massu` -/
def setMasses : List SInstr := [
  -- 56: mu=massu
  .set .r 1 (.loc .r 0),
  -- 57: p2.set_mass(mu)
  .setMass 1 (.mem .r 1),
  -- 58: p4.set_mass(mu)
  .setMass 3 (.mem .r 1),
  -- 59: propu.set_mass(mu)
  .propMass 0 (.mem .r 1)]

/-- `set_momenta` (SM/gugu.cpp:61-92); parameters: 0 `mom1`, 1 `mom2`, 2 `mom3`, 3 `mom4` -/
def setMomenta : List SInstr := [
  -- 63: p1.set_momentum(mom1)
  .setMom 0 0,
  -- 64: p2.set_momentum(mom2)
  .setMom 1 1,
  -- 65: p3.set_momentum(mom3)
  .setMom 2 2,
  -- 66: p4.set_momentum(mom4)
  .setMom 3 3,
  -- 67: s34s.update()
  .update 0,
  -- 68: a34a.update()
  .update 1,
  -- 69: s12s.update()
  .update 2,
  -- 70: a12a.update()
  .update 3,
  -- 71: s13s.update()
  .update 4,
  -- 72: a13a.update()
  .update 5,
  -- 73: s24s.update()
  .update 6,
  -- 74: a24a.update()
  .update 7,
  -- 75: s23s.update()
  .update 8,
  -- 76: a23a.update()
  .update 9,
  -- 77: s14s.update()
  .update 10,
  -- 78: a14a.update()
  .update 11,
  -- 79: s143a.update()
  .update 12,
  -- 80: s341a.update()
  .update 13,
  -- 88: pDenT=std::real(propg.denominator(propTP))
  .den .r 3 1 (.sub 0 2),
  -- 89: pDenU=std::real(propu.denominator(propUP))
  .den .r 4 0 (.sub 0 3),
  -- 90: pDenS=std::real(propu.denominator(propSP))
  .den .r 2 0 (.add 0 1)]

/-- `cdouble amp_Num(ds1,ds2,ds3,ds4)` (SM/gugu.cpp:99-125); variables: i 0 `ds1`, i 1 `ds2`, i 2 `ds3`, i 3 `ds4` -/
def m_amp_Num : Method := ⟨4, 
  -- 100: if(ds1>0&&ds3>0)
  .seq (.ite (.and (.lt (.lit 0) (.var 0)) (.lt (.lit 0) (.var 2))) (
    -- 104: return +2.0*gs*gs*mu*s13s.v()*s13s.v()*a24a.v(ds2,ds4)
    .ret .c (.mul (.mul (.smul (.mul (.mul (.mul (.lit 2) (.mem .r 0)) (.mem .r 0)) (.mem .r 1)) (.v 4 [])) (.v 4 [])) (.v 7 [.var 1, .var 3]))) (
    -- 106: if(ds1<0&&ds3<0)
    .ite (.and (.lt (.var 0) (.lit 0)) (.lt (.var 2) (.lit 0))) (
      -- 110: return -2.0*gs*gs*mu*a13a.v()*a13a.v()*s24s.v(ds2,ds4)
      .ret .c (.mul (.mul (.smul (.mul (.mul (.mul (.neg (.lit 2)) (.mem .r 0)) (.mem .r 0)) (.mem .r 1)) (.v 5 [])) (.v 5 [])) (.v 6 [.var 1, .var 3]))) (
      -- 112: if(ds1>0&&ds3<0)
      .ite (.and (.lt (.lit 0) (.var 0)) (.lt (.var 2) (.lit 0))) (
        -- 116: return +2.0*gs*gs*(s14s.v(ds4)*a23a.v(ds2)+s12s.v(ds2)*a34a.v(ds4))*s143a.v()
        .ret .c (.mul (.smul (.mul (.mul (.lit 2) (.mem .r 0)) (.mem .r 0)) (.add (.mul (.v 10 [.var 3]) (.v 9 [.var 1])) (.mul (.v 2 [.var 1]) (.v 1 [.var 3])))) (.v 12 []))) (
        -- 118: if(ds1<0&&ds3>0)
        .ite (.and (.lt (.var 0) (.lit 0)) (.lt (.lit 0) (.var 2))) (
          -- 122: return -2.0*gs*gs*(a14a.v(ds4)*s23s.v(ds2)+a12a.v(ds2)*s34s.v(ds4))*s341a.v()
          .ret .c (.mul (.smul (.mul (.mul (.neg (.lit 2)) (.mem .r 0)) (.mem .r 0)) (.add (.mul (.v 11 [.var 3]) (.v 8 [.var 1])) (.mul (.v 3 [.var 1]) (.v 0 [.var 3])))) (.v 13 []))) (
          .skip))))) <|
  -- 124: return cdouble(0,0)
  .ret .c (.ofR (.lit 0))⟩

/-- `ldouble amp2()` (SM/gugu.cpp:129-144); variables: r 0 `amp2`, c 0 `M_Num`, i 0 `j1`, i 1 `j2`, i 2 `j3`, i 3 `j4` -/
def m_amp2 : Method := ⟨0, 
  -- 130: ldouble amp2
  .seq (.set .r 0 (.lit 0)) <|
  -- 131: cdouble M_Num
  .seq (.set .c 0 (.ofR (.lit 0))) <|
  -- 134: for(int j1=-2;j1<=2;j1+=4)
  .seq (.loop 0 (-2) true (.lit 2) 4 (
    -- 135: for(int j2=-1;j2<=1;j2+=2)
    .loop 1 (-1) true (.lit 1) 2 (
      -- 136: for(int j3=-2;j3<=2;j3+=4)
      .loop 2 (-2) true (.lit 2) 4 (
        -- 137: for(int j4=-1;j4<=1;j4+=2)
        .loop 3 (-1) true (.lit 1) 2 (
          -- 138: M_Num=amp_Num(j1,j2,j3,j4)
          .seq (.set .c 0 (.call 0 [.var 0, .var 1, .var 2, .var 3])) <|
          -- 139: amp2+=std::pow(std::abs(M_Num),2)*(6.0/std::pow(pDenT*pDenU,2)+6.0/std::pow(pDenT*pDenS,2)-2.0/3.0/std::pow(pDenU*pDenS,2))
          .set .r 0 (.add (.loc .r 0) (.mul (.pow (.abs (.loc .c 0)) 2) (.sub (.add (.div (.lit 6) (.pow (.mul (.mem .r 3) (.mem .r 4)) 2)) (.div (.lit 6) (.pow (.mul (.mem .r 3) (.mem .r 2)) 2))) (.div (.div (.lit 2) (.lit 3)) (.pow (.mul (.mem .r 4) (.mem .r 2)) 2)))))))))) <|
  -- 143: return amp2/96.0
  .ret .r (.div (.loc .r 0) (.lit 96))⟩

/-- `ldouble amp2_gplus()` (SM/gugu.cpp:147-161); variables: r 0 `amp2`, c 0 `M_Num`, i 0 `j2`, i 1 `j3`, i 2 `j4` -/
def m_amp2_gplus : Method := ⟨0, 
  -- 148: ldouble amp2
  .seq (.set .r 0 (.lit 0)) <|
  -- 149: cdouble M_Num
  .seq (.set .c 0 (.ofR (.lit 0))) <|
  -- 152: for(int j2=-1;j2<=1;j2+=2)
  .seq (.loop 0 (-1) true (.lit 1) 2 (
    -- 153: for(int j3=-2;j3<=2;j3+=4)
    .loop 1 (-2) true (.lit 2) 4 (
      -- 154: for(int j4=-1;j4<=1;j4+=2)
      .loop 2 (-1) true (.lit 1) 2 (
        -- 155: M_Num=amp_Num(2,j2,j3,j4)
        .seq (.set .c 0 (.call 0 [.lit 2, .var 0, .var 1, .var 2])) <|
        -- 156: amp2+=std::pow(std::abs(M_Num),2)*(6.0/std::pow(pDenT*pDenU,2)+6.0/std::pow(pDenT*pDenS,2)-2.0/3.0/std::pow(pDenU*pDenS,2))
        .set .r 0 (.add (.loc .r 0) (.mul (.pow (.abs (.loc .c 0)) 2) (.sub (.add (.div (.lit 6) (.pow (.mul (.mem .r 3) (.mem .r 4)) 2)) (.div (.lit 6) (.pow (.mul (.mem .r 3) (.mem .r 2)) 2))) (.div (.div (.lit 2) (.lit 3)) (.pow (.mul (.mem .r 4) (.mem .r 2)) 2))))))))) <|
  -- 160: return amp2/48.0
  .ret .r (.div (.loc .r 0) (.lit 48))⟩

/-- `ldouble amp2_gminus()` (SM/gugu.cpp:164-178); variables: r 0 `amp2`, c 0 `M_Num`, i 0 `j2`, i 1 `j3`, i 2 `j4` -/
def m_amp2_gminus : Method := ⟨0, 
  -- 165: ldouble amp2
  .seq (.set .r 0 (.lit 0)) <|
  -- 166: cdouble M_Num
  .seq (.set .c 0 (.ofR (.lit 0))) <|
  -- 169: for(int j2=-1;j2<=1;j2+=2)
  .seq (.loop 0 (-1) true (.lit 1) 2 (
    -- 170: for(int j3=-2;j3<=2;j3+=4)
    .loop 1 (-2) true (.lit 2) 4 (
      -- 171: for(int j4=-1;j4<=1;j4+=2)
      .loop 2 (-1) true (.lit 1) 2 (
        -- 172: M_Num=amp_Num(-2,j2,j3,j4)
        .seq (.set .c 0 (.call 0 [.lit (-2), .var 0, .var 1, .var 2])) <|
        -- 173: amp2+=std::pow(std::abs(M_Num),2)*(6.0/std::pow(pDenT*pDenU,2)+6.0/std::pow(pDenT*pDenS,2)-2.0/3.0/std::pow(pDenU*pDenS,2))
        .set .r 0 (.add (.loc .r 0) (.mul (.pow (.abs (.loc .c 0)) 2) (.sub (.add (.div (.lit 6) (.pow (.mul (.mem .r 3) (.mem .r 4)) 2)) (.div (.lit 6) (.pow (.mul (.mem .r 3) (.mem .r 2)) 2))) (.div (.div (.lit 2) (.lit 3)) (.pow (.mul (.mem .r 4) (.mem .r 2)) 2))))))))) <|
  -- 177: return amp2/48.0
  .ret .r (.div (.loc .r 0) (.lit 48))⟩

end gugu

/-- `class gugu` (SM/gugu.cpp, SM/include/gugu.h:25-32).  Members:
* ldouble: 0 `gs`, 1 `mu`, 2 `pDenS`, 3 `pDenT`, 4 `pDenU`, 5 `sqrt2`
* propagator: 0 `propu`, 1 `propg`
* sproduct: 0 `s34s`, 1 `a34a`, 2 `s12s`, 3 `a12a`, 4 `s13s`, 5 `a13a`, 6 `s24s`, 7 `a24a`, 8 `s23s`, 9 `a23a`, 10 `s14s`, 11 `a14a`, 12 `s143a`, 13 `s341a` -/
def gugu : Proc where
  name := "gugu"
  nPar := 2
  ctor := gugu.ctor
  setMasses := gugu.setMasses
  massPar := [1]
  setMomenta := gugu.setMomenta
  methods := [gugu.m_amp2_gminus, gugu.m_amp2_gplus, gugu.m_amp2, gugu.m_amp_Num]
  amp2 := 1
  others := [("amp2_gplus", 2), ("amp2_gminus", 3)]

namespace hWWh

/-- constructor (SM/hWWh.cpp:32-52); parameters: 0 `echarge`, 1 `massh`, 2 `widthh`, 3 `massW`, 4 `sinW`, 5 `widthW` -/
def ctor : List SInstr := [
  -- 32: e(echarge)
  .set .r 0 (.loc .r 0),
  -- 32: mh(massh)
  .set .r 1 (.loc .r 1),
  -- 32: wh(widthh)
  .set .r 2 (.loc .r 2),
  -- 32: MW(massW)
  .set .r 3 (.loc .r 3),
  -- 32: SW(sinW)
  .set .r 4 (.loc .r 4),
  -- 32: CW(std::sqrt(1.0-sinW*sinW))
  .set .r 5 (.sqrt (.sub (.lit 1) (.mul (.loc .r 4) (.loc .r 4)))),
  -- 32: WW(widthW)
  .set .r 6 (.loc .r 5),
  -- 35: sqrt2=std::sqrt(two)
  .set .r 7 (.sqrt (.lit 2)),
  -- 36: CW=std::sqrt(1.0-sinW*sinW)
  .set .r 5 (.sqrt (.sub (.lit 1) (.mul (.loc .r 4) (.loc .r 4)))),
  -- 37: propW=propagator(MW,WW)
  .prop 1 (.mem .r 3) (.mem .r 6),
  -- 38: proph=propagator(mh,wh)
  .prop 0 (.mem .r 1) (.mem .r 2),
  -- 39: p1=particle(mh)
  .part 0 (.mem .r 1),
  -- 40: p2=particle(MW)
  .part 1 (.mem .r 3),
  -- 41: p3=particle(MW)
  .part 2 (.mem .r 3),
  -- 42: p4=particle(mh)
  .part 3 (.mem .r 1),
  -- 44: s23s=sproduct(SQUARE,&p2,&p3)
  .sprod 0 ⟨false, 1, true, [], 2, true⟩,
  -- 45: a23a=sproduct(ANGLE,&p2,&p3)
  .sprod 1 ⟨true, 1, true, [], 2, true⟩,
  -- 47: s312a=sproduct(SQUARE,&p3,&p1,&p2)
  .sprod 2 ⟨false, 2, true, [0], 1, true⟩,
  -- 48: s213a=sproduct(SQUARE,&p2,&p1,&p3)
  .sprod 3 ⟨false, 1, true, [0], 2, true⟩,
  -- 50: pre=2.0*e*e/(4.0*MW*MW*SW*SW)
  .set .r 8 (.div (.mul (.mul (.lit 2) (.mem .r 0)) (.mem .r 0)) (.mul (.mul (.mul (.mul (.lit 4) (.mem .r 3)) (.mem .r 3)) (.mem .r 4)) (.mem .r 4))),
  -- 51: preS=3.0*pre*mh*mh
  .set .r 9 (.mul (.mul (.mul (.lit 3) (.mem .r 8)) (.mem .r 1)) (.mem .r 1))]

/-- `set_masses` (SM/hWWh.cpp:53-65); parameters: 0 `massh`, 1 `massW` -/
def setMasses : List SInstr := [
  -- 54: mh=massh
  .set .r 1 (.loc .r 0),
  -- 55: MW=massW
  .set .r 3 (.loc .r 1),
  -- 56: p1.set_mass(mh)
  .setMass 0 (.mem .r 1),
  -- 57: p2.set_mass(MW)
  .setMass 1 (.mem .r 3),
  -- 58: p3.set_mass(MW)
  .setMass 2 (.mem .r 3),
  -- 59: p4.set_mass(mh)
  .setMass 3 (.mem .r 1),
  -- 60: propW.set_mass(MW)
  .propMass 1 (.mem .r 3),
  -- 61: proph.set_mass(mh)
  .propMass 0 (.mem .r 1),
  -- 63: pre=2.0*e*e/(4.0*MW*MW*SW*SW)
  .set .r 8 (.div (.mul (.mul (.lit 2) (.mem .r 0)) (.mem .r 0)) (.mul (.mul (.mul (.mul (.lit 4) (.mem .r 3)) (.mem .r 3)) (.mem .r 4)) (.mem .r 4))),
  -- 64: preS=3.0*pre*mh*mh
  .set .r 9 (.mul (.mul (.mul (.lit 3) (.mem .r 8)) (.mem .r 1)) (.mem .r 1))]

/-- `set_momenta` (SM/hWWh.cpp:66-88); parameters: 0 `mom1`, 1 `mom2`, 2 `mom3`, 3 `mom4` -/
def setMomenta : List SInstr := [
  -- 68: p1.set_momentum(mom1)
  .setMom 0 0,
  -- 69: p2.set_momentum(mom2)
  .setMom 1 1,
  -- 70: p3.set_momentum(mom3)
  .setMom 2 2,
  -- 71: p4.set_momentum(mom4)
  .setMom 3 3,
  -- 73: s23s.update()
  .update 0,
  -- 74: a23a.update()
  .update 1,
  -- 76: s312a.update()
  .update 2,
  -- 77: s213a.update()
  .update 3,
  -- 85: pDenS=propW.denominator(propSP)
  .den .c 0 1 (.add 0 1),
  -- 86: pDenT=propW.denominator(propTP)
  .den .c 1 1 (.sub 0 2),
  -- 87: pDenU=proph.denominator(propUP)
  .den .c 2 0 (.sub 0 3)]

/-- `cdouble amp(ds2,ds3)` (SM/hWWh.cpp:93-151); variables: i 0 `ds2`, i 1 `ds3`, c 0 `amplitude`, i 2 `ds3a`, i 3 `ds3b`, i 4 `ds2a`, i 5 `ds2b`, i 6 `nCombs`, r 0 `normFactor`, i 7 `i` -/
def m_amp : Method := ⟨2, 
  -- 94: cdouble amplitude
  .seq (.set .c 0 (.ofR (.lit 0))) <|
  -- 99: int nCombs
  .seq (.seti 6 (.loops [1, 0])) <|
  -- 100: ldouble normFactor
  .seq (.set .r 0 (.norm [1, 0])) <|
  -- 102: for(int i=0;i<nCombs;i++)
  .seq (.loop 7 0 false (.var 6) 1 (
    -- 103: get_spinor_spins(ds3,ds3a,ds3b,ds2,ds2a,ds2b,i)
    .seq (.spins [(1, 2, 3), (0, 4, 5)] (.var 7)) <|
    -- 112: amplitude+=+normFactor*pre*s23s.v(ds2a,ds3a)*a23a.v(ds2b,ds3b)
    .seq (.set .c 0 (.add (.loc .c 0) (.mul (.smul (.mul (.loc .r 0) (.mem .r 8)) (.v 0 [.var 4, .var 2])) (.v 1 [.var 5, .var 3])))) <|
    -- 122: amplitude+=-normFactor*preS*s23s.v(ds2a,ds3a)*a23a.v(ds2b,ds3b)/pDenU
    .seq (.set .c 0 (.add (.loc .c 0) (.div (.mul (.smul (.mul (.neg (.loc .r 0)) (.mem .r 9)) (.v 0 [.var 4, .var 2])) (.v 1 [.var 5, .var 3])) (.mem .c 2)))) <|
    -- 131: amplitude+=-normFactor*pre*2.0*MW*MW*s23s.v(ds2a,ds3a)*a23a.v(ds2b,ds3b)/pDenT-normFactor*pre*MW*(s23s.v(ds2a,ds3a)*s312a.v(ds3b,ds2b)+a23a.v(ds2a,ds3a)*s213a.v(ds2b,ds3b))/pDenT-normFactor*pre*s312a.v(ds3a,ds2a)*s213a.v(ds2b,ds3b)/pDenT
    .seq (.set .c 0 (.add (.loc .c 0) (.sub (.sub (.div (.mul (.smul (.mul (.mul (.mul (.mul (.neg (.loc .r 0)) (.mem .r 8)) (.lit 2)) (.mem .r 3)) (.mem .r 3)) (.v 0 [.var 4, .var 2])) (.v 1 [.var 5, .var 3])) (.mem .c 1)) (.div (.smul (.mul (.mul (.loc .r 0) (.mem .r 8)) (.mem .r 3)) (.add (.mul (.v 0 [.var 4, .var 2]) (.v 2 [.var 3, .var 5])) (.mul (.v 1 [.var 4, .var 2]) (.v 3 [.var 5, .var 3])))) (.mem .c 1))) (.div (.mul (.smul (.mul (.loc .r 0) (.mem .r 8)) (.v 2 [.var 2, .var 4])) (.v 3 [.var 5, .var 3])) (.mem .c 1))))) <|
    -- 143: amplitude+=-normFactor*pre*2.0*MW*MW*s23s.v(ds2a,ds3a)*a23a.v(ds2b,ds3b)/pDenS-normFactor*pre*MW*(s23s.v(ds2a,ds3a)*s213a.v(ds2b,ds3b)+a23a.v(ds2a,ds3a)*s312a.v(ds3b,ds2b))/pDenS-normFactor*pre*s312a.v(ds3a,ds2a)*s213a.v(ds2b,ds3b)/pDenS
    .set .c 0 (.add (.loc .c 0) (.sub (.sub (.div (.mul (.smul (.mul (.mul (.mul (.mul (.neg (.loc .r 0)) (.mem .r 8)) (.lit 2)) (.mem .r 3)) (.mem .r 3)) (.v 0 [.var 4, .var 2])) (.v 1 [.var 5, .var 3])) (.mem .c 0)) (.div (.smul (.mul (.mul (.loc .r 0) (.mem .r 8)) (.mem .r 3)) (.add (.mul (.v 0 [.var 4, .var 2]) (.v 3 [.var 5, .var 3])) (.mul (.v 1 [.var 4, .var 2]) (.v 2 [.var 3, .var 5])))) (.mem .c 0))) (.div (.mul (.smul (.mul (.loc .r 0) (.mem .r 8)) (.v 2 [.var 2, .var 4])) (.v 3 [.var 5, .var 3])) (.mem .c 0)))))) <|
  -- 150: return amplitude
  .ret .c (.loc .c 0)⟩

/-- `ldouble amp2()` (SM/hWWh.cpp:154-166); variables: r 0 `amp2`, c 0 `M`, i 0 `j2`, i 1 `j3` -/
def m_amp2 : Method := ⟨0, 
  -- 155: ldouble amp2
  .seq (.set .r 0 (.lit 0)) <|
  -- 156: cdouble M
  .seq (.set .c 0 (.ofR (.lit 0))) <|
  -- 159: for(int j2=-2;j2<=2;j2+=2)
  .seq (.loop 0 (-2) true (.lit 2) 2 (
    -- 160: for(int j3=-2;j3<=2;j3+=2)
    .loop 1 (-2) true (.lit 2) 2 (
      -- 161: M=amp(j2,j3)
      .seq (.set .c 0 (.call 0 [.var 0, .var 1])) <|
      -- 162: amp2+=std::pow(std::abs(M),2)
      .set .r 0 (.add (.loc .r 0) (.pow (.abs (.loc .c 0)) 2))))) <|
  -- 165: return amp2/3.0
  .ret .r (.div (.loc .r 0) (.lit 3))⟩

end hWWh

/-- `class hWWh` (SM/hWWh.cpp, SM/include/hWWh.h:25-36).  Members:
* ldouble: 0 `e`, 1 `mh`, 2 `wh`, 3 `MW`, 4 `SW`, 5 `CW`, 6 `WW`, 7 `sqrt2`, 8 `pre`, 9 `preS`
* cdouble: 0 `pDenS`, 1 `pDenT`, 2 `pDenU`
* propagator: 0 `proph`, 1 `propW`
* sproduct: 0 `s23s`, 1 `a23a`, 2 `s312a`, 3 `s213a` -/
def hWWh : Proc where
  name := "hWWh"
  nPar := 6
  ctor := hWWh.ctor
  setMasses := hWWh.setMasses
  massPar := [1, 3]
  setMomenta := hWWh.setMomenta
  methods := [hWWh.m_amp2, hWWh.m_amp]
  amp2 := 1
  others := []

namespace hZZh

/-- constructor (SM/hZZh.cpp:32-53); parameters: 0 `echarge`, 1 `massh`, 2 `widthh`, 3 `massW`, 4 `sinW`, 5 `widthZ` -/
def ctor : List SInstr := [
  -- 32: e(echarge)
  .set .r 0 (.loc .r 0),
  -- 32: mh(massh)
  .set .r 1 (.loc .r 1),
  -- 32: wh(widthh)
  .set .r 2 (.loc .r 2),
  -- 32: MW(massW)
  .set .r 3 (.loc .r 3),
  -- 32: SW(sinW)
  .set .r 4 (.loc .r 4),
  -- 32: CW(std::sqrt(1.0-sinW*sinW))
  .set .r 5 (.sqrt (.sub (.lit 1) (.mul (.loc .r 4) (.loc .r 4)))),
  -- 32: MZ(massW/CW)
  .set .r 6 (.div (.loc .r 3) (.mem .r 5)),
  -- 32: WZ(widthZ)
  .set .r 7 (.loc .r 5),
  -- 35: sqrt2=std::sqrt(two)
  .set .r 8 (.sqrt (.lit 2)),
  -- 36: CW=std::sqrt(1.0-sinW*sinW)
  .set .r 5 (.sqrt (.sub (.lit 1) (.mul (.loc .r 4) (.loc .r 4)))),
  -- 37: MZ=MW/CW
  .set .r 6 (.div (.mem .r 3) (.mem .r 5)),
  -- 38: propZ=propagator(MZ,WZ)
  .prop 1 (.mem .r 6) (.mem .r 7),
  -- 39: proph=propagator(mh,wh)
  .prop 0 (.mem .r 1) (.mem .r 2),
  -- 40: p1=particle(mh)
  .part 0 (.mem .r 1),
  -- 41: p2=particle(MZ)
  .part 1 (.mem .r 6),
  -- 42: p3=particle(MZ)
  .part 2 (.mem .r 6),
  -- 43: p4=particle(mh)
  .part 3 (.mem .r 1),
  -- 45: s23s=sproduct(SQUARE,&p2,&p3)
  .sprod 0 ⟨false, 1, true, [], 2, true⟩,
  -- 46: a23a=sproduct(ANGLE,&p2,&p3)
  .sprod 1 ⟨true, 1, true, [], 2, true⟩,
  -- 48: s312a=sproduct(SQUARE,&p3,&p1,&p2)
  .sprod 2 ⟨false, 2, true, [0], 1, true⟩,
  -- 49: s213a=sproduct(SQUARE,&p2,&p1,&p3)
  .sprod 3 ⟨false, 1, true, [0], 2, true⟩,
  -- 51: pre=2.0*e*e/(4.0*MW*MW*SW*SW)
  .set .r 9 (.div (.mul (.mul (.lit 2) (.mem .r 0)) (.mem .r 0)) (.mul (.mul (.mul (.mul (.lit 4) (.mem .r 3)) (.mem .r 3)) (.mem .r 4)) (.mem .r 4))),
  -- 52: preS=3.0*pre*mh*mh
  .set .r 10 (.mul (.mul (.mul (.lit 3) (.mem .r 9)) (.mem .r 1)) (.mem .r 1))]

/-- `set_masses` (SM/hZZh.cpp:54-67); parameters: 0 `massh`, 1 `massW` -/
def setMasses : List SInstr := [
  -- 55: mh=massh
  .set .r 1 (.loc .r 0),
  -- 56: MW=massW
  .set .r 3 (.loc .r 1),
  -- 57: MZ=MW/CW
  .set .r 6 (.div (.mem .r 3) (.mem .r 5)),
  -- 58: p1.set_mass(mh)
  .setMass 0 (.mem .r 1),
  -- 59: p2.set_mass(MZ)
  .setMass 1 (.mem .r 6),
  -- 60: p3.set_mass(MZ)
  .setMass 2 (.mem .r 6),
  -- 61: p4.set_mass(mh)
  .setMass 3 (.mem .r 1),
  -- 62: propZ.set_mass(MZ)
  .propMass 1 (.mem .r 6),
  -- 63: proph.set_mass(mh)
  .propMass 0 (.mem .r 1),
  -- 65: pre=2.0*e*e/(4.0*MW*MW*SW*SW)
  .set .r 9 (.div (.mul (.mul (.lit 2) (.mem .r 0)) (.mem .r 0)) (.mul (.mul (.mul (.mul (.lit 4) (.mem .r 3)) (.mem .r 3)) (.mem .r 4)) (.mem .r 4))),
  -- 66: preS=3.0*pre*mh*mh
  .set .r 10 (.mul (.mul (.mul (.lit 3) (.mem .r 9)) (.mem .r 1)) (.mem .r 1))]

/-- `set_momenta` (SM/hZZh.cpp:68-90); parameters: 0 `mom1`, 1 `mom2`, 2 `mom3`, 3 `mom4` -/
def setMomenta : List SInstr := [
  -- 70: p1.set_momentum(mom1)
  .setMom 0 0,
  -- 71: p2.set_momentum(mom2)
  .setMom 1 1,
  -- 72: p3.set_momentum(mom3)
  .setMom 2 2,
  -- 73: p4.set_momentum(mom4)
  .setMom 3 3,
  -- 75: s23s.update()
  .update 0,
  -- 76: a23a.update()
  .update 1,
  -- 78: s312a.update()
  .update 2,
  -- 79: s213a.update()
  .update 3,
  -- 87: pDenS=propZ.denominator(propSP)
  .den .c 0 1 (.add 0 1),
  -- 88: pDenT=propZ.denominator(propTP)
  .den .c 1 1 (.sub 0 2),
  -- 89: pDenU=proph.denominator(propUP)
  .den .c 2 0 (.sub 0 3)]

/-- `cdouble amp(ds2,ds3)` (SM/hZZh.cpp:95-154); variables: i 0 `ds2`, i 1 `ds3`, c 0 `amplitude`, i 2 `ds3a`, i 3 `ds3b`, i 4 `ds2a`, i 5 `ds2b`, i 6 `nCombs`, r 0 `normFactor`, i 7 `i` -/
def m_amp : Method := ⟨2, 
  -- 96: cdouble amplitude
  .seq (.set .c 0 (.ofR (.lit 0))) <|
  -- 101: int nCombs
  .seq (.seti 6 (.loops [1, 0])) <|
  -- 102: ldouble normFactor
  .seq (.set .r 0 (.norm [1, 0])) <|
  -- 104: for(int i=0;i<nCombs;i++)
  .seq (.loop 7 0 false (.var 6) 1 (
    -- 105: get_spinor_spins(ds3,ds3a,ds3b,ds2,ds2a,ds2b,i)
    .seq (.spins [(1, 2, 3), (0, 4, 5)] (.var 7)) <|
    -- 113: amplitude+=+normFactor*pre*s23s.v(ds2a,ds3a)*a23a.v(ds2b,ds3b)
    .seq (.set .c 0 (.add (.loc .c 0) (.mul (.smul (.mul (.loc .r 0) (.mem .r 9)) (.v 0 [.var 4, .var 2])) (.v 1 [.var 5, .var 3])))) <|
    -- 123: amplitude+=-normFactor*preS*s23s.v(ds2a,ds3a)*a23a.v(ds2b,ds3b)/pDenU
    .seq (.set .c 0 (.add (.loc .c 0) (.div (.mul (.smul (.mul (.neg (.loc .r 0)) (.mem .r 10)) (.v 0 [.var 4, .var 2])) (.v 1 [.var 5, .var 3])) (.mem .c 2)))) <|
    -- 132: amplitude+=-normFactor*pre*2.0*MZ*MZ*s23s.v(ds2a,ds3a)*a23a.v(ds2b,ds3b)/pDenT-normFactor*pre*MZ*(s23s.v(ds2a,ds3a)*s312a.v(ds3b,ds2b)+a23a.v(ds2a,ds3a)*s213a.v(ds2b,ds3b))/pDenT-normFactor*pre*s312a.v(ds3a,ds2a)*s213a.v(ds2b,ds3b)/pDenT
    .seq (.set .c 0 (.add (.loc .c 0) (.sub (.sub (.div (.mul (.smul (.mul (.mul (.mul (.mul (.neg (.loc .r 0)) (.mem .r 9)) (.lit 2)) (.mem .r 6)) (.mem .r 6)) (.v 0 [.var 4, .var 2])) (.v 1 [.var 5, .var 3])) (.mem .c 1)) (.div (.smul (.mul (.mul (.loc .r 0) (.mem .r 9)) (.mem .r 6)) (.add (.mul (.v 0 [.var 4, .var 2]) (.v 2 [.var 3, .var 5])) (.mul (.v 1 [.var 4, .var 2]) (.v 3 [.var 5, .var 3])))) (.mem .c 1))) (.div (.mul (.smul (.mul (.loc .r 0) (.mem .r 9)) (.v 2 [.var 2, .var 4])) (.v 3 [.var 5, .var 3])) (.mem .c 1))))) <|
    -- 144: amplitude+=-normFactor*pre*2.0*MZ*MZ*s23s.v(ds2a,ds3a)*a23a.v(ds2b,ds3b)/pDenS-normFactor*pre*MZ*(s23s.v(ds2a,ds3a)*s213a.v(ds2b,ds3b)+a23a.v(ds2a,ds3a)*s312a.v(ds3b,ds2b))/pDenS-normFactor*pre*s312a.v(ds3a,ds2a)*s213a.v(ds2b,ds3b)/pDenS
    .set .c 0 (.add (.loc .c 0) (.sub (.sub (.div (.mul (.smul (.mul (.mul (.mul (.mul (.neg (.loc .r 0)) (.mem .r 9)) (.lit 2)) (.mem .r 6)) (.mem .r 6)) (.v 0 [.var 4, .var 2])) (.v 1 [.var 5, .var 3])) (.mem .c 0)) (.div (.smul (.mul (.mul (.loc .r 0) (.mem .r 9)) (.mem .r 6)) (.add (.mul (.v 0 [.var 4, .var 2]) (.v 3 [.var 5, .var 3])) (.mul (.v 1 [.var 4, .var 2]) (.v 2 [.var 3, .var 5])))) (.mem .c 0))) (.div (.mul (.smul (.mul (.loc .r 0) (.mem .r 9)) (.v 2 [.var 2, .var 4])) (.v 3 [.var 5, .var 3])) (.mem .c 0)))))) <|
  -- 153: return amplitude
  .ret .c (.loc .c 0)⟩

/-- `ldouble amp2()` (SM/hZZh.cpp:157-169); variables: r 0 `amp2`, c 0 `M`, i 0 `j2`, i 1 `j3` -/
def m_amp2 : Method := ⟨0, 
  -- 158: ldouble amp2
  .seq (.set .r 0 (.lit 0)) <|
  -- 159: cdouble M
  .seq (.set .c 0 (.ofR (.lit 0))) <|
  -- 162: for(int j2=-2;j2<=2;j2+=2)
  .seq (.loop 0 (-2) true (.lit 2) 2 (
    -- 163: for(int j3=-2;j3<=2;j3+=2)
    .loop 1 (-2) true (.lit 2) 2 (
      -- 164: M=amp(j2,j3)
      .seq (.set .c 0 (.call 0 [.var 0, .var 1])) <|
      -- 165: amp2+=std::pow(std::abs(M),2)
      .set .r 0 (.add (.loc .r 0) (.pow (.abs (.loc .c 0)) 2))))) <|
  -- 168: return amp2/3.0
  .ret .r (.div (.loc .r 0) (.lit 3))⟩

end hZZh

/-- `class hZZh` (SM/hZZh.cpp, SM/include/hZZh.h:25-36).  Members:
* ldouble: 0 `e`, 1 `mh`, 2 `wh`, 3 `MW`, 4 `SW`, 5 `CW`, 6 `MZ`, 7 `WZ`, 8 `sqrt2`, 9 `pre`, 10 `preS`
* cdouble: 0 `pDenS`, 1 `pDenT`, 2 `pDenU`
* propagator: 0 `proph`, 1 `propZ`
* sproduct: 0 `s23s`, 1 `a23a`, 2 `s312a`, 3 `s213a` -/
def hZZh : Proc where
  name := "hZZh"
  nPar := 6
  ctor := hZZh.ctor
  setMasses := hZZh.setMasses
  massPar := [1, 3]
  setMomenta := hZZh.setMomenta
  methods := [hZZh.m_amp2, hZZh.m_amp]
  amp2 := 1
  others := []

namespace hgdd

/-- constructor (SM/hgdd.cpp:32-53); parameters: 0 `echarge`, 1 `gscharge`, 2 `massd`, 3 `massh`, 4 `massW`, 5 `sinW` -/
def ctor : List SInstr := [
  -- 32: e(echarge)
  .set .r 0 (.loc .r 0),
  -- 32: gs(gscharge)
  .set .r 1 (.loc .r 1),
  -- 32: md(massd)
  .set .r 2 (.loc .r 2),
  -- 32: mh(massh)
  .set .r 3 (.loc .r 3),
  -- 32: MW(massW)
  .set .r 4 (.loc .r 4),
  -- 32: SW(sinW)
  .set .r 5 (.loc .r 5),
  -- 32: prop(massd,0)
  .prop 0 (.loc .r 2) (.lit 0),
  -- 35: sqrt2=std::sqrt(two)
  .set .r 7 (.sqrt (.lit 2)),
  -- 36: p1=particle(mh)
  .part 0 (.mem .r 3),
  -- 37: p2=particle(0)
  .part 1 (.lit 0),
  -- 38: p3=particle(md)
  .part 2 (.mem .r 2),
  -- 39: p4=particle(md)
  .part 3 (.mem .r 2),
  -- 40: s24s=sproduct(SQUARE,&p2,&p4)
  .sprod 0 ⟨false, 1, true, [], 3, true⟩,
  -- 41: a24a=sproduct(ANGLE,&p2,&p4)
  .sprod 1 ⟨true, 1, true, [], 3, true⟩,
  -- 42: s23s=sproduct(SQUARE,&p2,&p3)
  .sprod 2 ⟨false, 1, true, [], 2, true⟩,
  -- 43: a23a=sproduct(ANGLE,&p2,&p3)
  .sprod 3 ⟨true, 1, true, [], 2, true⟩,
  -- 44: s34s=sproduct(SQUARE,&p3,&p4)
  .sprod 4 ⟨false, 2, true, [], 3, true⟩,
  -- 45: a34a=sproduct(ANGLE,&p3,&p4)
  .sprod 5 ⟨true, 2, true, [], 3, true⟩,
  -- 46: s213a=sproduct(SQUARE,&p2,&p1,&p3)
  .sprod 6 ⟨false, 1, true, [0], 2, true⟩,
  -- 47: a213s=sproduct(ANGLE,&p2,&p1,&p3)
  .sprod 7 ⟨true, 1, true, [0], 2, true⟩,
  -- 48: s214a=sproduct(SQUARE,&p2,&p1,&p4)
  .sprod 8 ⟨false, 1, true, [0], 3, true⟩,
  -- 49: a214s=sproduct(ANGLE,&p2,&p1,&p4)
  .sprod 9 ⟨true, 1, true, [0], 3, true⟩,
  -- 50: s2312s=sproduct(SQUARE,&p2,&p3,&p1,&p2)
  .sprod 10 ⟨false, 1, true, [2, 0], 1, true⟩,
  -- 51: a2312a=sproduct(ANGLE,&p2,&p3,&p1,&p2)
  .sprod 11 ⟨true, 1, true, [2, 0], 1, true⟩,
  -- 52: pre=e*gs*md/(sqrt2*MW*SW)
  .set .r 6 (.div (.mul (.mul (.mem .r 0) (.mem .r 1)) (.mem .r 2)) (.mul (.mul (.mem .r 7) (.mem .r 4)) (.mem .r 5)))]

/-- `set_masses` (SM/hgdd.cpp:54-62); parameters: 0 `massd`, 1 `massh`, 2 `massW` -/
def setMasses : List SInstr := [
  -- 55: md=massd
  .set .r 2 (.loc .r 0),
  -- 56: mh=massh
  .set .r 3 (.loc .r 1),
  -- 57: p1.set_mass(mh)
  .setMass 0 (.mem .r 3),
  -- 58: p3.set_mass(md)
  .setMass 2 (.mem .r 2),
  -- 59: p4.set_mass(md)
  .setMass 3 (.mem .r 2),
  -- 60: prop.set_mass(md)
  .propMass 0 (.mem .r 2),
  -- 61: pre=e*gs*md/(sqrt2*MW*SW)
  .set .r 6 (.div (.mul (.mul (.mem .r 0) (.mem .r 1)) (.mem .r 2)) (.mul (.mul (.mem .r 7) (.mem .r 4)) (.mem .r 5)))]

/-- `set_momenta` (SM/hgdd.cpp:63-89); parameters: 0 `mom1`, 1 `mom2`, 2 `mom3`, 3 `mom4` -/
def setMomenta : List SInstr := [
  -- 65: p1.set_momentum(mom1)
  .setMom 0 0,
  -- 66: p2.set_momentum(mom2)
  .setMom 1 1,
  -- 67: p3.set_momentum(mom3)
  .setMom 2 2,
  -- 68: p4.set_momentum(mom4)
  .setMom 3 3,
  -- 69: s24s.update()
  .update 0,
  -- 70: a24a.update()
  .update 1,
  -- 71: s23s.update()
  .update 2,
  -- 72: a23a.update()
  .update 3,
  -- 73: s34s.update()
  .update 4,
  -- 74: a34a.update()
  .update 5,
  -- 75: s213a.update()
  .update 6,
  -- 76: a213s.update()
  .update 7,
  -- 77: s214a.update()
  .update 8,
  -- 78: a214s.update()
  .update 9,
  -- 79: s2312s.update()
  .update 10,
  -- 80: a2312a.update()
  .update 11,
  -- 87: pDenT=prop.denominator(propTP)
  .den .c 0 0 (.sub 0 2),
  -- 88: pDenU=prop.denominator(propUP)
  .den .c 1 0 (.sub 0 3)]

/-- `cdouble amp(ds2,ds3,ds4)` (SM/hgdd.cpp:94-115); variables: i 0 `ds2`, i 1 `ds3`, i 2 `ds4` -/
def m_amp : Method := ⟨3, 
  -- 96: if(ds2>0)
  .seq (.ite (.lt (.lit 0) (.var 0)) (
    -- 103: return -pre*(mh*mh*s24s.v(ds4)*s23s.v(ds3)+md*s24s.v(ds4)*s213a.v(ds3)+md*s23s.v(ds3)*s214a.v(ds4)+a34a.v(ds3,ds4)*s2312s.v())/pDenT/pDenU
    .ret .c (.div (.div (.smul (.neg (.mem .r 6)) (.add (.add (.add (.mul (.smul (.mul (.mem .r 3) (.mem .r 3)) (.v 0 [.var 2])) (.v 2 [.var 1])) (.mul (.smul (.mem .r 2) (.v 0 [.var 2])) (.v 6 [.var 1]))) (.mul (.smul (.mem .r 2) (.v 2 [.var 1])) (.v 8 [.var 2]))) (.mul (.v 5 [.var 1, .var 2]) (.v 10 [])))) (.mem .c 0)) (.mem .c 1))) (
    -- 105: if(ds2<0)
    .ite (.lt (.var 0) (.lit 0)) (
      -- 112: return -pre*(mh*mh*a24a.v(ds4)*a23a.v(ds3)+md*a24a.v(ds4)*a213s.v(ds3)+md*a23a.v(ds3)*a214s.v(ds4)+s34s.v(ds3,ds4)*a2312a.v())/pDenT/pDenU
      .ret .c (.div (.div (.smul (.neg (.mem .r 6)) (.add (.add (.add (.mul (.smul (.mul (.mem .r 3) (.mem .r 3)) (.v 1 [.var 2])) (.v 3 [.var 1])) (.mul (.smul (.mem .r 2) (.v 1 [.var 2])) (.v 7 [.var 1]))) (.mul (.smul (.mem .r 2) (.v 3 [.var 1])) (.v 9 [.var 2]))) (.mul (.v 4 [.var 1, .var 2]) (.v 11 [])))) (.mem .c 0)) (.mem .c 1))) (
      .skip))) <|
  -- 114: return cdouble(0,0)
  .ret .c (.ofR (.lit 0))⟩

/-- `ldouble amp2()` (SM/hgdd.cpp:118-132); variables: r 0 `amp2`, c 0 `M`, i 0 `j2`, i 1 `j3`, i 2 `j4` -/
def m_amp2 : Method := ⟨0, 
  -- 119: ldouble amp2
  .seq (.set .r 0 (.lit 0)) <|
  -- 120: cdouble M
  .seq (.set .c 0 (.ofR (.lit 0))) <|
  -- 123: for(int j2=-2;j2<=2;j2+=4)
  .seq (.loop 0 (-2) true (.lit 2) 4 (
    -- 124: for(int j3=-1;j3<=1;j3+=2)
    .loop 1 (-1) true (.lit 1) 2 (
      -- 125: for(int j4=-1;j4<=1;j4+=2)
      .loop 2 (-1) true (.lit 1) 2 (
        -- 126: M=amp(j2,j3,j4)
        .seq (.set .c 0 (.call 0 [.var 0, .var 1, .var 2])) <|
        -- 127: amp2+=4.0*std::pow(std::abs(M),2)
        .set .r 0 (.add (.loc .r 0) (.mul (.lit 4) (.pow (.abs (.loc .c 0)) 2))))))) <|
  -- 131: return amp2/16.0
  .ret .r (.div (.loc .r 0) (.lit 16))⟩

/-- `ldouble amp2_gplus()` (SM/hgdd.cpp:136-148); variables: r 0 `amp2`, c 0 `M`, i 0 `j3`, i 1 `j4` -/
def m_amp2_gplus : Method := ⟨0, 
  -- 137: ldouble amp2
  .seq (.set .r 0 (.lit 0)) <|
  -- 138: cdouble M
  .seq (.set .c 0 (.ofR (.lit 0))) <|
  -- 141: for(int j3=-1;j3<=1;j3+=2)
  .seq (.loop 0 (-1) true (.lit 1) 2 (
    -- 142: for(int j4=-1;j4<=1;j4+=2)
    .loop 1 (-1) true (.lit 1) 2 (
      -- 143: M=amp(2,j3,j4)
      .seq (.set .c 0 (.call 0 [.lit 2, .var 0, .var 1])) <|
      -- 144: amp2+=4.0*std::pow(std::abs(M),2)
      .set .r 0 (.add (.loc .r 0) (.mul (.lit 4) (.pow (.abs (.loc .c 0)) 2)))))) <|
  -- 147: return amp2/8.0
  .ret .r (.div (.loc .r 0) (.lit 8))⟩

end hgdd

/-- `class hgdd` (SM/hgdd.cpp, SM/include/hgdd.h:25-33).  Members:
* ldouble: 0 `e`, 1 `gs`, 2 `md`, 3 `mh`, 4 `MW`, 5 `SW`, 6 `pre`, 7 `sqrt2`
* cdouble: 0 `pDenT`, 1 `pDenU`
* propagator: 0 `prop`
* sproduct: 0 `s24s`, 1 `a24a`, 2 `s23s`, 3 `a23a`, 4 `s34s`, 5 `a34a`, 6 `s213a`, 7 `a213s`, 8 `s214a`, 9 `a214s`, 10 `s2312s`, 11 `a2312a` -/
def hgdd : Proc where
  name := "hgdd"
  nPar := 6
  ctor := hgdd.ctor
  setMasses := hgdd.setMasses
  massPar := [2, 3, 4]
  setMomenta := hgdd.setMomenta
  methods := [hgdd.m_amp2_gplus, hgdd.m_amp2, hgdd.m_amp]
  amp2 := 1
  others := [("amp2_gplus", 2)]

namespace hguu

/-- constructor (SM/hguu.cpp:32-53); parameters: 0 `echarge`, 1 `gscharge`, 2 `massu`, 3 `massh`, 4 `massW`, 5 `sinW` -/
def ctor : List SInstr := [
  -- 32: e(echarge)
  .set .r 0 (.loc .r 0),
  -- 32: gs(gscharge)
  .set .r 1 (.loc .r 1),
  -- 32: mu(massu)
  .set .r 2 (.loc .r 2),
  -- 32: mh(massh)
  .set .r 3 (.loc .r 3),
  -- 32: MW(massW)
  .set .r 4 (.loc .r 4),
  -- 32: SW(sinW)
  .set .r 5 (.loc .r 5),
  -- 32: prop(massu,0)
  .prop 0 (.loc .r 2) (.lit 0),
  -- 35: sqrt2=std::sqrt(two)
  .set .r 7 (.sqrt (.lit 2)),
  -- 36: p1=particle(mh)
  .part 0 (.mem .r 3),
  -- 37: p2=particle(0)
  .part 1 (.lit 0),
  -- 38: p3=particle(mu)
  .part 2 (.mem .r 2),
  -- 39: p4=particle(mu)
  .part 3 (.mem .r 2),
  -- 40: s24s=sproduct(SQUARE,&p2,&p4)
  .sprod 0 ⟨false, 1, true, [], 3, true⟩,
  -- 41: a24a=sproduct(ANGLE,&p2,&p4)
  .sprod 1 ⟨true, 1, true, [], 3, true⟩,
  -- 42: s23s=sproduct(SQUARE,&p2,&p3)
  .sprod 2 ⟨false, 1, true, [], 2, true⟩,
  -- 43: a23a=sproduct(ANGLE,&p2,&p3)
  .sprod 3 ⟨true, 1, true, [], 2, true⟩,
  -- 44: s34s=sproduct(SQUARE,&p3,&p4)
  .sprod 4 ⟨false, 2, true, [], 3, true⟩,
  -- 45: a34a=sproduct(ANGLE,&p3,&p4)
  .sprod 5 ⟨true, 2, true, [], 3, true⟩,
  -- 46: s213a=sproduct(SQUARE,&p2,&p1,&p3)
  .sprod 6 ⟨false, 1, true, [0], 2, true⟩,
  -- 47: a213s=sproduct(ANGLE,&p2,&p1,&p3)
  .sprod 7 ⟨true, 1, true, [0], 2, true⟩,
  -- 48: s214a=sproduct(SQUARE,&p2,&p1,&p4)
  .sprod 8 ⟨false, 1, true, [0], 3, true⟩,
  -- 49: a214s=sproduct(ANGLE,&p2,&p1,&p4)
  .sprod 9 ⟨true, 1, true, [0], 3, true⟩,
  -- 50: s2312s=sproduct(SQUARE,&p2,&p3,&p1,&p2)
  .sprod 10 ⟨false, 1, true, [2, 0], 1, true⟩,
  -- 51: a2312a=sproduct(ANGLE,&p2,&p3,&p1,&p2)
  .sprod 11 ⟨true, 1, true, [2, 0], 1, true⟩,
  -- 52: pre=e*gs*mu/(sqrt2*MW*SW)
  .set .r 6 (.div (.mul (.mul (.mem .r 0) (.mem .r 1)) (.mem .r 2)) (.mul (.mul (.mem .r 7) (.mem .r 4)) (.mem .r 5)))]

/-- `set_masses` (SM/hguu.cpp:54-62); parameters: 0 `massu`, 1 `massh`, 2 `massW` -/
def setMasses : List SInstr := [
  -- 55: mu=massu
  .set .r 2 (.loc .r 0),
  -- 56: mh=massh
  .set .r 3 (.loc .r 1),
  -- 57: p1.set_mass(mh)
  .setMass 0 (.mem .r 3),
  -- 58: p3.set_mass(mu)
  .setMass 2 (.mem .r 2),
  -- 59: p4.set_mass(mu)
  .setMass 3 (.mem .r 2),
  -- 60: prop.set_mass(mu)
  .propMass 0 (.mem .r 2),
  -- 61: pre=e*gs*mu/(sqrt2*MW*SW)
  .set .r 6 (.div (.mul (.mul (.mem .r 0) (.mem .r 1)) (.mem .r 2)) (.mul (.mul (.mem .r 7) (.mem .r 4)) (.mem .r 5)))]

/-- `set_momenta` (SM/hguu.cpp:63-89); parameters: 0 `mom1`, 1 `mom2`, 2 `mom3`, 3 `mom4` -/
def setMomenta : List SInstr := [
  -- 65: p1.set_momentum(mom1)
  .setMom 0 0,
  -- 66: p2.set_momentum(mom2)
  .setMom 1 1,
  -- 67: p3.set_momentum(mom3)
  .setMom 2 2,
  -- 68: p4.set_momentum(mom4)
  .setMom 3 3,
  -- 69: s24s.update()
  .update 0,
  -- 70: a24a.update()
  .update 1,
  -- 71: s23s.update()
  .update 2,
  -- 72: a23a.update()
  .update 3,
  -- 73: s34s.update()
  .update 4,
  -- 74: a34a.update()
  .update 5,
  -- 75: s213a.update()
  .update 6,
  -- 76: a213s.update()
  .update 7,
  -- 77: s214a.update()
  .update 8,
  -- 78: a214s.update()
  .update 9,
  -- 79: s2312s.update()
  .update 10,
  -- 80: a2312a.update()
  .update 11,
  -- 87: pDenT=prop.denominator(propTP)
  .den .c 0 0 (.sub 0 2),
  -- 88: pDenU=prop.denominator(propUP)
  .den .c 1 0 (.sub 0 3)]

/-- `cdouble amp(ds2,ds3,ds4)` (SM/hguu.cpp:94-107); variables: i 0 `ds2`, i 1 `ds3`, i 2 `ds4` -/
def m_amp : Method := ⟨3, 
  -- 98: if(ds2>0)
  .seq (.ite (.lt (.lit 0) (.var 0)) (
    -- 101: return pre*(mh*mh*s23s.v(ds3)*s24s.v(ds4)-s213a.v(ds3)*s214a.v(ds4)+two*a34a.v(ds3,ds4)*s2312s.v())/pDenT/pDenU
    .ret .c (.div (.div (.smul (.mem .r 6) (.add (.sub (.mul (.smul (.mul (.mem .r 3) (.mem .r 3)) (.v 2 [.var 1])) (.v 0 [.var 2])) (.mul (.v 6 [.var 1]) (.v 8 [.var 2]))) (.mul (.smul (.lit 2) (.v 5 [.var 1, .var 2])) (.v 10 [])))) (.mem .c 0)) (.mem .c 1))) (
    -- 103: if(ds2<0)
    .ite (.lt (.var 0) (.lit 0)) (
      -- 104: return pre*(mh*mh*a23a.v(ds3)*a24a.v(ds4)-a213s.v(ds3)*a214s.v(ds4)+two*s34s.v(ds3,ds4)*a2312a.v())/pDenT/pDenU
      .ret .c (.div (.div (.smul (.mem .r 6) (.add (.sub (.mul (.smul (.mul (.mem .r 3) (.mem .r 3)) (.v 3 [.var 1])) (.v 1 [.var 2])) (.mul (.v 7 [.var 1]) (.v 9 [.var 2]))) (.mul (.smul (.lit 2) (.v 4 [.var 1, .var 2])) (.v 11 [])))) (.mem .c 0)) (.mem .c 1))) (
      .skip))) <|
  -- 106: return cdouble(0,0)
  .ret .c (.ofR (.lit 0))⟩

/-- `ldouble amp2()` (SM/hguu.cpp:110-124); variables: r 0 `amp2`, c 0 `M`, i 0 `j2`, i 1 `j3`, i 2 `j4` -/
def m_amp2 : Method := ⟨0, 
  -- 111: ldouble amp2
  .seq (.set .r 0 (.lit 0)) <|
  -- 112: cdouble M
  .seq (.set .c 0 (.ofR (.lit 0))) <|
  -- 115: for(int j2=-2;j2<=2;j2+=4)
  .seq (.loop 0 (-2) true (.lit 2) 4 (
    -- 116: for(int j3=-1;j3<=1;j3+=2)
    .loop 1 (-1) true (.lit 1) 2 (
      -- 117: for(int j4=-1;j4<=1;j4+=2)
      .loop 2 (-1) true (.lit 1) 2 (
        -- 118: M=amp(j2,j3,j4)
        .seq (.set .c 0 (.call 0 [.var 0, .var 1, .var 2])) <|
        -- 119: amp2+=4.0*std::pow(std::abs(M),2)
        .set .r 0 (.add (.loc .r 0) (.mul (.lit 4) (.pow (.abs (.loc .c 0)) 2))))))) <|
  -- 123: return amp2/16.0
  .ret .r (.div (.loc .r 0) (.lit 16))⟩

/-- `ldouble amp2_gplus()` (SM/hguu.cpp:128-140); variables: r 0 `amp2`, c 0 `M`, i 0 `j3`, i 1 `j4` -/
def m_amp2_gplus : Method := ⟨0, 
  -- 129: ldouble amp2
  .seq (.set .r 0 (.lit 0)) <|
  -- 130: cdouble M
  .seq (.set .c 0 (.ofR (.lit 0))) <|
  -- 133: for(int j3=-1;j3<=1;j3+=2)
  .seq (.loop 0 (-1) true (.lit 1) 2 (
    -- 134: for(int j4=-1;j4<=1;j4+=2)
    .loop 1 (-1) true (.lit 1) 2 (
      -- 135: M=amp(2,j3,j4)
      .seq (.set .c 0 (.call 0 [.lit 2, .var 0, .var 1])) <|
      -- 136: amp2+=4.0*std::pow(std::abs(M),2)
      .set .r 0 (.add (.loc .r 0) (.mul (.lit 4) (.pow (.abs (.loc .c 0)) 2)))))) <|
  -- 139: return amp2/8.0
  .ret .r (.div (.loc .r 0) (.lit 8))⟩

end hguu

/-- `class hguu` (SM/hguu.cpp, SM/include/hguu.h:25-33).  Members:
* ldouble: 0 `e`, 1 `gs`, 2 `mu`, 3 `mh`, 4 `MW`, 5 `SW`, 6 `pre`, 7 `sqrt2`
* cdouble: 0 `pDenT`, 1 `pDenU`
* propagator: 0 `prop`
* sproduct: 0 `s24s`, 1 `a24a`, 2 `s23s`, 3 `a23a`, 4 `s34s`, 5 `a34a`, 6 `s213a`, 7 `a213s`, 8 `s214a`, 9 `a214s`, 10 `s2312s`, 11 `a2312a` -/
def hguu : Proc where
  name := "hguu"
  nPar := 6
  ctor := hguu.ctor
  setMasses := hguu.setMasses
  massPar := [2, 3, 4]
  setMomenta := hguu.setMomenta
  methods := [hguu.m_amp2_gplus, hguu.m_amp2, hguu.m_amp]
  amp2 := 1
  others := [("amp2_gplus", 2)]

namespace hhWW

/-- constructor (SM/hhWW.cpp:32-52); parameters: 0 `echarge`, 1 `massh`, 2 `widthh`, 3 `massW`, 4 `sinW`, 5 `widthW` -/
def ctor : List SInstr := [
  -- 32: e(echarge)
  .set .r 0 (.loc .r 0),
  -- 32: mh(massh)
  .set .r 1 (.loc .r 1),
  -- 32: wh(widthh)
  .set .r 2 (.loc .r 2),
  -- 32: MW(massW)
  .set .r 3 (.loc .r 3),
  -- 32: SW(sinW)
  .set .r 4 (.loc .r 4),
  -- 32: CW(std::sqrt(1.0-sinW*sinW))
  .set .r 5 (.sqrt (.sub (.lit 1) (.mul (.loc .r 4) (.loc .r 4)))),
  -- 32: WW(widthW)
  .set .r 6 (.loc .r 5),
  -- 35: sqrt2=std::sqrt(two)
  .set .r 7 (.sqrt (.lit 2)),
  -- 36: CW=std::sqrt(1.0-sinW*sinW)
  .set .r 5 (.sqrt (.sub (.lit 1) (.mul (.loc .r 4) (.loc .r 4)))),
  -- 37: propW=propagator(MW,WW)
  .prop 1 (.mem .r 3) (.mem .r 6),
  -- 38: proph=propagator(mh,wh)
  .prop 0 (.mem .r 1) (.mem .r 2),
  -- 39: p1=particle(mh)
  .part 0 (.mem .r 1),
  -- 40: p2=particle(mh)
  .part 1 (.mem .r 1),
  -- 41: p3=particle(MW)
  .part 2 (.mem .r 3),
  -- 42: p4=particle(MW)
  .part 3 (.mem .r 3),
  -- 44: s34s=sproduct(SQUARE,&p3,&p4)
  .sprod 0 ⟨false, 2, true, [], 3, true⟩,
  -- 45: a34a=sproduct(ANGLE,&p3,&p4)
  .sprod 1 ⟨true, 2, true, [], 3, true⟩,
  -- 47: s314a=sproduct(SQUARE,&p3,&p1,&p4)
  .sprod 2 ⟨false, 2, true, [0], 3, true⟩,
  -- 48: s413a=sproduct(SQUARE,&p4,&p1,&p3)
  .sprod 3 ⟨false, 3, true, [0], 2, true⟩,
  -- 50: pre=e*e/(2.0*MW*MW*SW*SW)
  .set .r 8 (.div (.mul (.mem .r 0) (.mem .r 0)) (.mul (.mul (.mul (.mul (.lit 2) (.mem .r 3)) (.mem .r 3)) (.mem .r 4)) (.mem .r 4))),
  -- 51: preS=3.0*pre*mh*mh
  .set .r 9 (.mul (.mul (.mul (.lit 3) (.mem .r 8)) (.mem .r 1)) (.mem .r 1))]

/-- `set_masses` (SM/hhWW.cpp:53-65); parameters: 0 `massh`, 1 `massW` -/
def setMasses : List SInstr := [
  -- 54: mh=massh
  .set .r 1 (.loc .r 0),
  -- 55: MW=massW
  .set .r 3 (.loc .r 1),
  -- 56: p1.set_mass(mh)
  .setMass 0 (.mem .r 1),
  -- 57: p2.set_mass(mh)
  .setMass 1 (.mem .r 1),
  -- 58: p3.set_mass(MW)
  .setMass 2 (.mem .r 3),
  -- 59: p4.set_mass(MW)
  .setMass 3 (.mem .r 3),
  -- 60: propW.set_mass(MW)
  .propMass 1 (.mem .r 3),
  -- 61: proph.set_mass(mh)
  .propMass 0 (.mem .r 1),
  -- 63: pre=e*e/(2.0*MW*MW*SW*SW)
  .set .r 8 (.div (.mul (.mem .r 0) (.mem .r 0)) (.mul (.mul (.mul (.mul (.lit 2) (.mem .r 3)) (.mem .r 3)) (.mem .r 4)) (.mem .r 4))),
  -- 64: preS=3.0*pre*mh*mh
  .set .r 9 (.mul (.mul (.mul (.lit 3) (.mem .r 8)) (.mem .r 1)) (.mem .r 1))]

/-- `set_momenta` (SM/hhWW.cpp:66-88); parameters: 0 `mom1`, 1 `mom2`, 2 `mom3`, 3 `mom4` -/
def setMomenta : List SInstr := [
  -- 68: p1.set_momentum(mom1)
  .setMom 0 0,
  -- 69: p2.set_momentum(mom2)
  .setMom 1 1,
  -- 70: p3.set_momentum(mom3)
  .setMom 2 2,
  -- 71: p4.set_momentum(mom4)
  .setMom 3 3,
  -- 73: s34s.update()
  .update 0,
  -- 74: a34a.update()
  .update 1,
  -- 76: s314a.update()
  .update 2,
  -- 77: s413a.update()
  .update 3,
  -- 85: pDenS=proph.denominator(propSP)
  .den .c 0 0 (.add 0 1),
  -- 86: pDenT=propW.denominator(propTP)
  .den .c 1 1 (.sub 0 2),
  -- 87: pDenU=propW.denominator(propUP)
  .den .c 2 1 (.sub 0 3)]

/-- `cdouble amp(ds3,ds4)` (SM/hhWW.cpp:93-140); variables: i 0 `ds3`, i 1 `ds4`, c 0 `amplitude`, i 2 `ds3a`, i 3 `ds3b`, i 4 `ds4a`, i 5 `ds4b`, i 6 `nCombs`, r 0 `normFactor`, i 7 `i` -/
def m_amp : Method := ⟨2, 
  -- 94: cdouble amplitude
  .seq (.set .c 0 (.ofR (.lit 0))) <|
  -- 99: int nCombs
  .seq (.seti 6 (.loops [0, 1])) <|
  -- 100: ldouble normFactor
  .seq (.set .r 0 (.norm [0, 1])) <|
  -- 102: for(int i=0;i<nCombs;i++)
  .seq (.loop 7 0 false (.var 6) 1 (
    -- 103: get_spinor_spins(ds3,ds3a,ds3b,ds4,ds4a,ds4b,i)
    .seq (.spins [(0, 2, 3), (1, 4, 5)] (.var 7)) <|
    -- 109: amplitude+=-normFactor*pre*s34s.v(ds3a,ds4a)*a34a.v(ds3b,ds4b)
    .seq (.set .c 0 (.add (.loc .c 0) (.mul (.smul (.mul (.neg (.loc .r 0)) (.mem .r 8)) (.v 0 [.var 2, .var 4])) (.v 1 [.var 3, .var 5])))) <|
    -- 117: amplitude+=normFactor*preS*s34s.v(ds3a,ds4a)*a34a.v(ds3b,ds4b)/pDenS
    .seq (.set .c 0 (.add (.loc .c 0) (.div (.mul (.smul (.mul (.loc .r 0) (.mem .r 9)) (.v 0 [.var 2, .var 4])) (.v 1 [.var 3, .var 5])) (.mem .c 0)))) <|
    -- 124: amplitude+=normFactor*pre*2.0*MW*MW*s34s.v(ds3a,ds4a)*a34a.v(ds3b,ds4b)/pDenT-normFactor*pre*MW*(s34s.v(ds3a,ds4a)*s314a.v(ds3b,ds4b)+a34a.v(ds3a,ds4a)*s413a.v(ds4b,ds3b))/pDenT+normFactor*pre*s314a.v(ds3a,ds4a)*s413a.v(ds4b,ds3b)/pDenT
    .seq (.set .c 0 (.add (.loc .c 0) (.add (.sub (.div (.mul (.smul (.mul (.mul (.mul (.mul (.loc .r 0) (.mem .r 8)) (.lit 2)) (.mem .r 3)) (.mem .r 3)) (.v 0 [.var 2, .var 4])) (.v 1 [.var 3, .var 5])) (.mem .c 1)) (.div (.smul (.mul (.mul (.loc .r 0) (.mem .r 8)) (.mem .r 3)) (.add (.mul (.v 0 [.var 2, .var 4]) (.v 2 [.var 3, .var 5])) (.mul (.v 1 [.var 2, .var 4]) (.v 3 [.var 5, .var 3])))) (.mem .c 1))) (.div (.mul (.smul (.mul (.loc .r 0) (.mem .r 8)) (.v 2 [.var 2, .var 4])) (.v 3 [.var 5, .var 3])) (.mem .c 1))))) <|
    -- 133: amplitude+=normFactor*pre*2.0*MW*MW*s34s.v(ds3a,ds4a)*a34a.v(ds3b,ds4b)/pDenU+normFactor*pre*MW*(s34s.v(ds3a,ds4a)*s413a.v(ds4b,ds3b)+a34a.v(ds3a,ds4a)*s314a.v(ds3b,ds4b))/pDenU+normFactor*pre*s314a.v(ds3a,ds4a)*s413a.v(ds4b,ds3b)/pDenU
    .set .c 0 (.add (.loc .c 0) (.add (.add (.div (.mul (.smul (.mul (.mul (.mul (.mul (.loc .r 0) (.mem .r 8)) (.lit 2)) (.mem .r 3)) (.mem .r 3)) (.v 0 [.var 2, .var 4])) (.v 1 [.var 3, .var 5])) (.mem .c 2)) (.div (.smul (.mul (.mul (.loc .r 0) (.mem .r 8)) (.mem .r 3)) (.add (.mul (.v 0 [.var 2, .var 4]) (.v 3 [.var 5, .var 3])) (.mul (.v 1 [.var 2, .var 4]) (.v 2 [.var 3, .var 5])))) (.mem .c 2))) (.div (.mul (.smul (.mul (.loc .r 0) (.mem .r 8)) (.v 2 [.var 2, .var 4])) (.v 3 [.var 5, .var 3])) (.mem .c 2)))))) <|
  -- 139: return amplitude
  .ret .c (.loc .c 0)⟩

/-- `ldouble amp2()` (SM/hhWW.cpp:143-154); variables: r 0 `amp2`, c 0 `M`, i 0 `j3`, i 1 `j4` -/
def m_amp2 : Method := ⟨0, 
  -- 144: ldouble amp2
  .seq (.set .r 0 (.lit 0)) <|
  -- 145: cdouble M
  .seq (.set .c 0 (.ofR (.lit 0))) <|
  -- 148: for(int j3=-2;j3<=2;j3+=2)
  .seq (.loop 0 (-2) true (.lit 2) 2 (
    -- 149: for(int j4=-2;j4<=2;j4+=2)
    .loop 1 (-2) true (.lit 2) 2 (
      -- 150: M=amp(j3,j4)
      .seq (.set .c 0 (.call 0 [.var 0, .var 1])) <|
      -- 151: amp2+=std::pow(std::abs(M),2)
      .set .r 0 (.add (.loc .r 0) (.pow (.abs (.loc .c 0)) 2))))) <|
  -- 153: return amp2
  .ret .r (.loc .r 0)⟩

end hhWW

/-- `class hhWW` (SM/hhWW.cpp, SM/include/hhWW.h:25-36).  Members:
* ldouble: 0 `e`, 1 `mh`, 2 `wh`, 3 `MW`, 4 `SW`, 5 `CW`, 6 `WW`, 7 `sqrt2`, 8 `pre`, 9 `preS`
* cdouble: 0 `pDenS`, 1 `pDenT`, 2 `pDenU`
* propagator: 0 `proph`, 1 `propW`
* sproduct: 0 `s34s`, 1 `a34a`, 2 `s314a`, 3 `s413a` -/
def hhWW : Proc where
  name := "hhWW"
  nPar := 6
  ctor := hhWW.ctor
  setMasses := hhWW.setMasses
  massPar := [1, 3]
  setMomenta := hhWW.setMomenta
  methods := [hhWW.m_amp2, hhWW.m_amp]
  amp2 := 1
  others := []

namespace hhZZ

/-- constructor (SM/hhZZ.cpp:32-53); parameters: 0 `echarge`, 1 `massh`, 2 `widthh`, 3 `massW`, 4 `sinW`, 5 `widthZ` -/
def ctor : List SInstr := [
  -- 32: e(echarge)
  .set .r 0 (.loc .r 0),
  -- 32: mh(massh)
  .set .r 1 (.loc .r 1),
  -- 32: wh(widthh)
  .set .r 2 (.loc .r 2),
  -- 32: MW(massW)
  .set .r 3 (.loc .r 3),
  -- 32: SW(sinW)
  .set .r 4 (.loc .r 4),
  -- 32: CW(std::sqrt(1.0-sinW*sinW))
  .set .r 5 (.sqrt (.sub (.lit 1) (.mul (.loc .r 4) (.loc .r 4)))),
  -- 32: MZ(massW/CW)
  .set .r 6 (.div (.loc .r 3) (.mem .r 5)),
  -- 32: WZ(widthZ)
  .set .r 7 (.loc .r 5),
  -- 35: sqrt2=std::sqrt(two)
  .set .r 8 (.sqrt (.lit 2)),
  -- 36: CW=std::sqrt(1.0-sinW*sinW)
  .set .r 5 (.sqrt (.sub (.lit 1) (.mul (.loc .r 4) (.loc .r 4)))),
  -- 37: MZ=MW/CW
  .set .r 6 (.div (.mem .r 3) (.mem .r 5)),
  -- 38: propZ=propagator(MZ,WZ)
  .prop 1 (.mem .r 6) (.mem .r 7),
  -- 39: proph=propagator(mh,wh)
  .prop 0 (.mem .r 1) (.mem .r 2),
  -- 40: p1=particle(mh)
  .part 0 (.mem .r 1),
  -- 41: p2=particle(mh)
  .part 1 (.mem .r 1),
  -- 42: p3=particle(MZ)
  .part 2 (.mem .r 6),
  -- 43: p4=particle(MZ)
  .part 3 (.mem .r 6),
  -- 45: s34s=sproduct(SQUARE,&p3,&p4)
  .sprod 0 ⟨false, 2, true, [], 3, true⟩,
  -- 46: a34a=sproduct(ANGLE,&p3,&p4)
  .sprod 1 ⟨true, 2, true, [], 3, true⟩,
  -- 48: s314a=sproduct(SQUARE,&p3,&p1,&p4)
  .sprod 2 ⟨false, 2, true, [0], 3, true⟩,
  -- 49: s413a=sproduct(SQUARE,&p4,&p1,&p3)
  .sprod 3 ⟨false, 3, true, [0], 2, true⟩,
  -- 51: pre=e*e/(2.0*MW*MW*SW*SW)
  .set .r 9 (.div (.mul (.mem .r 0) (.mem .r 0)) (.mul (.mul (.mul (.mul (.lit 2) (.mem .r 3)) (.mem .r 3)) (.mem .r 4)) (.mem .r 4))),
  -- 52: preS=3.0*pre*mh*mh
  .set .r 10 (.mul (.mul (.mul (.lit 3) (.mem .r 9)) (.mem .r 1)) (.mem .r 1))]

/-- `set_masses` (SM/hhZZ.cpp:54-67); parameters: 0 `massh`, 1 `massW` -/
def setMasses : List SInstr := [
  -- 55: mh=massh
  .set .r 1 (.loc .r 0),
  -- 56: MW=massW
  .set .r 3 (.loc .r 1),
  -- 57: MZ=MW/CW
  .set .r 6 (.div (.mem .r 3) (.mem .r 5)),
  -- 58: p1.set_mass(mh)
  .setMass 0 (.mem .r 1),
  -- 59: p2.set_mass(mh)
  .setMass 1 (.mem .r 1),
  -- 60: p3.set_mass(MZ)
  .setMass 2 (.mem .r 6),
  -- 61: p4.set_mass(MZ)
  .setMass 3 (.mem .r 6),
  -- 62: propZ.set_mass(MZ)
  .propMass 1 (.mem .r 6),
  -- 63: proph.set_mass(mh)
  .propMass 0 (.mem .r 1),
  -- 65: pre=e*e/(2.0*MW*MW*SW*SW)
  .set .r 9 (.div (.mul (.mem .r 0) (.mem .r 0)) (.mul (.mul (.mul (.mul (.lit 2) (.mem .r 3)) (.mem .r 3)) (.mem .r 4)) (.mem .r 4))),
  -- 66: preS=3.0*pre*mh*mh
  .set .r 10 (.mul (.mul (.mul (.lit 3) (.mem .r 9)) (.mem .r 1)) (.mem .r 1))]

/-- `set_momenta` (SM/hhZZ.cpp:68-90); parameters: 0 `mom1`, 1 `mom2`, 2 `mom3`, 3 `mom4` -/
def setMomenta : List SInstr := [
  -- 70: p1.set_momentum(mom1)
  .setMom 0 0,
  -- 71: p2.set_momentum(mom2)
  .setMom 1 1,
  -- 72: p3.set_momentum(mom3)
  .setMom 2 2,
  -- 73: p4.set_momentum(mom4)
  .setMom 3 3,
  -- 75: s34s.update()
  .update 0,
  -- 76: a34a.update()
  .update 1,
  -- 78: s314a.update()
  .update 2,
  -- 79: s413a.update()
  .update 3,
  -- 87: pDenS=proph.denominator(propSP)
  .den .c 0 0 (.add 0 1),
  -- 88: pDenT=propZ.denominator(propTP)
  .den .c 1 1 (.sub 0 2),
  -- 89: pDenU=propZ.denominator(propUP)
  .den .c 2 1 (.sub 0 3)]

/-- `cdouble amp(ds3,ds4)` (SM/hhZZ.cpp:95-143); variables: i 0 `ds3`, i 1 `ds4`, c 0 `amplitude`, i 2 `ds3a`, i 3 `ds3b`, i 4 `ds4a`, i 5 `ds4b`, i 6 `nCombs`, r 0 `normFactor`, i 7 `i` -/
def m_amp : Method := ⟨2, 
  -- 96: cdouble amplitude
  .seq (.set .c 0 (.ofR (.lit 0))) <|
  -- 101: int nCombs
  .seq (.seti 6 (.loops [0, 1])) <|
  -- 102: ldouble normFactor
  .seq (.set .r 0 (.norm [0, 1])) <|
  -- 104: for(int i=0;i<nCombs;i++)
  .seq (.loop 7 0 false (.var 6) 1 (
    -- 105: get_spinor_spins(ds3,ds3a,ds3b,ds4,ds4a,ds4b,i)
    .seq (.spins [(0, 2, 3), (1, 4, 5)] (.var 7)) <|
    -- 110: amplitude+=-normFactor*pre*s34s.v(ds3a,ds4a)*a34a.v(ds3b,ds4b)
    .seq (.set .c 0 (.add (.loc .c 0) (.mul (.smul (.mul (.neg (.loc .r 0)) (.mem .r 9)) (.v 0 [.var 2, .var 4])) (.v 1 [.var 3, .var 5])))) <|
    -- 118: amplitude+=normFactor*preS*s34s.v(ds3a,ds4a)*a34a.v(ds3b,ds4b)/pDenS
    .seq (.set .c 0 (.add (.loc .c 0) (.div (.mul (.smul (.mul (.loc .r 0) (.mem .r 10)) (.v 0 [.var 2, .var 4])) (.v 1 [.var 3, .var 5])) (.mem .c 0)))) <|
    -- 125: amplitude+=normFactor*pre*2.0*MZ*MZ*s34s.v(ds3a,ds4a)*a34a.v(ds3b,ds4b)/pDenT-normFactor*pre*MZ*(s34s.v(ds3a,ds4a)*s314a.v(ds3b,ds4b)+a34a.v(ds3a,ds4a)*s413a.v(ds4b,ds3b))/pDenT+normFactor*pre*s314a.v(ds3a,ds4a)*s413a.v(ds4b,ds3b)/pDenT
    .seq (.set .c 0 (.add (.loc .c 0) (.add (.sub (.div (.mul (.smul (.mul (.mul (.mul (.mul (.loc .r 0) (.mem .r 9)) (.lit 2)) (.mem .r 6)) (.mem .r 6)) (.v 0 [.var 2, .var 4])) (.v 1 [.var 3, .var 5])) (.mem .c 1)) (.div (.smul (.mul (.mul (.loc .r 0) (.mem .r 9)) (.mem .r 6)) (.add (.mul (.v 0 [.var 2, .var 4]) (.v 2 [.var 3, .var 5])) (.mul (.v 1 [.var 2, .var 4]) (.v 3 [.var 5, .var 3])))) (.mem .c 1))) (.div (.mul (.smul (.mul (.loc .r 0) (.mem .r 9)) (.v 2 [.var 2, .var 4])) (.v 3 [.var 5, .var 3])) (.mem .c 1))))) <|
    -- 134: amplitude+=normFactor*pre*2.0*MZ*MZ*s34s.v(ds3a,ds4a)*a34a.v(ds3b,ds4b)/pDenU+normFactor*pre*MZ*(s34s.v(ds3a,ds4a)*s413a.v(ds4b,ds3b)+a34a.v(ds3a,ds4a)*s314a.v(ds3b,ds4b))/pDenU+normFactor*pre*s314a.v(ds3a,ds4a)*s413a.v(ds4b,ds3b)/pDenU
    .set .c 0 (.add (.loc .c 0) (.add (.add (.div (.mul (.smul (.mul (.mul (.mul (.mul (.loc .r 0) (.mem .r 9)) (.lit 2)) (.mem .r 6)) (.mem .r 6)) (.v 0 [.var 2, .var 4])) (.v 1 [.var 3, .var 5])) (.mem .c 2)) (.div (.smul (.mul (.mul (.loc .r 0) (.mem .r 9)) (.mem .r 6)) (.add (.mul (.v 0 [.var 2, .var 4]) (.v 3 [.var 5, .var 3])) (.mul (.v 1 [.var 2, .var 4]) (.v 2 [.var 3, .var 5])))) (.mem .c 2))) (.div (.mul (.smul (.mul (.loc .r 0) (.mem .r 9)) (.v 2 [.var 2, .var 4])) (.v 3 [.var 5, .var 3])) (.mem .c 2)))))) <|
  -- 142: return amplitude
  .ret .c (.loc .c 0)⟩

/-- `ldouble amp2()` (SM/hhZZ.cpp:146-158); variables: r 0 `amp2`, c 0 `M`, i 0 `j3`, i 1 `j4` -/
def m_amp2 : Method := ⟨0, 
  -- 147: ldouble amp2
  .seq (.set .r 0 (.lit 0)) <|
  -- 148: cdouble M
  .seq (.set .c 0 (.ofR (.lit 0))) <|
  -- 151: for(int j3=-2;j3<=2;j3+=2)
  .seq (.loop 0 (-2) true (.lit 2) 2 (
    -- 152: for(int j4=-2;j4<=2;j4+=2)
    .loop 1 (-2) true (.lit 2) 2 (
      -- 153: M=amp(j3,j4)
      .seq (.set .c 0 (.call 0 [.var 0, .var 1])) <|
      -- 154: amp2+=std::pow(std::abs(M),2)
      .set .r 0 (.add (.loc .r 0) (.pow (.abs (.loc .c 0)) 2))))) <|
  -- 157: return amp2/2.0
  .ret .r (.div (.loc .r 0) (.lit 2))⟩

end hhZZ

/-- `class hhZZ` (SM/hhZZ.cpp, SM/include/hhZZ.h:25-36).  Members:
* ldouble: 0 `e`, 1 `mh`, 2 `wh`, 3 `MW`, 4 `SW`, 5 `CW`, 6 `MZ`, 7 `WZ`, 8 `sqrt2`, 9 `pre`, 10 `preS`
* cdouble: 0 `pDenS`, 1 `pDenT`, 2 `pDenU`
* propagator: 0 `proph`, 1 `propZ`
* sproduct: 0 `s34s`, 1 `a34a`, 2 `s314a`, 3 `s413a` -/
def hhZZ : Proc where
  name := "hhZZ"
  nPar := 6
  ctor := hhZZ.ctor
  setMasses := hhZZ.setMasses
  massPar := [1, 3]
  setMomenta := hhZZ.setMomenta
  methods := [hhZZ.m_amp2, hhZZ.m_amp]
  amp2 := 1
  others := []

namespace hhhh

/-- constructor (SM/hhhh.cpp:32-41); parameters: 0 `echarge`, 1 `massh`, 2 `widthh`, 3 `massW`, 4 `sinW` -/
def ctor : List SInstr := [
  -- 32: e(echarge)
  .set .r 0 (.loc .r 0),
  -- 32: mh(massh)
  .set .r 1 (.loc .r 1),
  -- 32: wh(widthh)
  .set .r 2 (.loc .r 2),
  -- 32: MW(massW)
  .set .r 3 (.loc .r 3),
  -- 32: SW(sinW)
  .set .r 4 (.loc .r 4),
  -- 32: p1(particle(mh))
  .part 0 (.mem .r 1),
  -- 32: p2(particle(mh))
  .part 1 (.mem .r 1),
  -- 32: p3(particle(mh))
  .part 2 (.mem .r 1),
  -- 32: p4(particle(mh))
  .part 3 (.mem .r 1),
  -- 32: proph(mh,wh)
  .prop 0 (.mem .r 1) (.mem .r 2),
  -- 39: preh=3*e*e*mh*mh/(4*MW*MW*SW*SW)
  .set .r 5 (.div (.mul (.mul (.mul (.mul (.lit 3) (.mem .r 0)) (.mem .r 0)) (.mem .r 1)) (.mem .r 1)) (.mul (.mul (.mul (.mul (.lit 4) (.mem .r 3)) (.mem .r 3)) (.mem .r 4)) (.mem .r 4))),
  -- 40: prehSTU=3*mh*mh*preh
  .set .r 6 (.mul (.mul (.mul (.lit 3) (.mem .r 1)) (.mem .r 1)) (.mem .r 5))]

/-- `set_masses` (SM/hhhh.cpp:42-53); parameters: 0 `massh`, 1 `massW` -/
def setMasses : List SInstr := [
  -- 44: mh=massh
  .set .r 1 (.loc .r 0),
  -- 45: proph.set_mass(mh)
  .propMass 0 (.mem .r 1),
  -- 46: MW=massW
  .set .r 3 (.loc .r 1),
  -- 47: p1.set_mass(mh)
  .setMass 0 (.mem .r 1),
  -- 48: p2.set_mass(mh)
  .setMass 1 (.mem .r 1),
  -- 49: p3.set_mass(mh)
  .setMass 2 (.mem .r 1),
  -- 50: p4.set_mass(mh)
  .setMass 3 (.mem .r 1),
  -- 51: preh=3*e*e*mh*mh/(4*MW*MW*SW*SW)
  .set .r 5 (.div (.mul (.mul (.mul (.mul (.lit 3) (.mem .r 0)) (.mem .r 0)) (.mem .r 1)) (.mem .r 1)) (.mul (.mul (.mul (.mul (.lit 4) (.mem .r 3)) (.mem .r 3)) (.mem .r 4)) (.mem .r 4))),
  -- 52: prehSTU=3*mh*mh*preh
  .set .r 6 (.mul (.mul (.mul (.lit 3) (.mem .r 1)) (.mem .r 1)) (.mem .r 5))]

/-- `set_momenta` (SM/hhhh.cpp:54-70); parameters: 0 `mom1`, 1 `mom2`, 2 `mom3`, 3 `mom4` -/
def setMomenta : List SInstr := [
  -- 56: p1.set_momentum(mom1)
  .setMom 0 0,
  -- 57: p2.set_momentum(mom2)
  .setMom 1 1,
  -- 58: p3.set_momentum(mom3)
  .setMom 2 2,
  -- 59: p4.set_momentum(mom4)
  .setMom 3 3,
  -- 67: pDenS=proph.denominator(propPS)
  .den .c 0 0 (.add 0 1),
  -- 68: pDenT=proph.denominator(propPT)
  .den .c 1 0 (.sub 0 2),
  -- 69: pDenU=proph.denominator(propPU)
  .den .c 2 0 (.sub 0 3)]

/-- `cdouble amp()` (SM/hhhh.cpp:75-82); variables: c 0 `amplitude` -/
def m_amp : Method := ⟨0, 
  -- 77: cdouble amplitude
  .seq (.set .c 0 (.ofR (.lit 0))) <|
  -- 79: amplitude+=prehSTU*(one/pDenS+one/pDenT+one/pDenU)+preh
  .seq (.set .c 0 (.add (.loc .c 0) (.add (.smul (.mem .r 6) (.add (.add (.div (.ofR (.lit 1)) (.mem .c 0)) (.div (.ofR (.lit 1)) (.mem .c 1))) (.div (.ofR (.lit 1)) (.mem .c 2)))) (.ofR (.mem .r 5))))) <|
  -- 81: return amplitude
  .ret .c (.loc .c 0)⟩

/-- `ldouble amp2()` (SM/hhhh.cpp:85-94); variables: r 0 `amp2`, c 0 `M` -/
def m_amp2 : Method := ⟨0, 
  -- 86: ldouble amp2
  .seq (.set .r 0 (.lit 0)) <|
  -- 87: cdouble M
  .seq (.set .c 0 (.ofR (.lit 0))) <|
  -- 89: M=amp()
  .seq (.set .c 0 (.call 0 [])) <|
  -- 90: amp2+=std::pow(std::abs(M),2)
  .seq (.set .r 0 (.add (.loc .r 0) (.pow (.abs (.loc .c 0)) 2))) <|
  -- 93: return amp2/2.0
  .ret .r (.div (.loc .r 0) (.lit 2))⟩

end hhhh

/-- `class hhhh` (SM/hhhh.cpp, SM/include/hhhh.h:25-31).  Members:
* ldouble: 0 `e`, 1 `mh`, 2 `wh`, 3 `MW`, 4 `SW`, 5 `preh`, 6 `prehSTU`
* cdouble: 0 `pDenS`, 1 `pDenT`, 2 `pDenU`
* propagator: 0 `proph` -/
def hhhh : Proc where
  name := "hhhh"
  nPar := 5
  ctor := hhhh.ctor
  setMasses := hhhh.setMasses
  massPar := [1, 3]
  setMomenta := hhhh.setMomenta
  methods := [hhhh.m_amp2, hhhh.m_amp]
  amp2 := 1
  others := []

namespace hnWe

/-- constructor (SM/hnWe.cpp:32-47); parameters: 0 `echarge`, 1 `masse`, 2 `massh`, 3 `massW`, 4 `widthW`, 5 `sinW` -/
def ctor : List SInstr := [
  -- 32: e(echarge)
  .set .r 0 (.loc .r 0),
  -- 32: me(masse)
  .set .r 1 (.loc .r 1),
  -- 32: mh(massh)
  .set .r 2 (.loc .r 2),
  -- 32: MW(massW)
  .set .r 3 (.loc .r 3),
  -- 32: WW(widthW)
  .set .r 4 (.loc .r 4),
  -- 32: SW(sinW)
  .set .r 5 (.loc .r 5),
  -- 32: prope(masse,0)
  .prop 0 (.loc .r 1) (.lit 0),
  -- 32: propW(massW,widthW)
  .prop 1 (.loc .r 3) (.loc .r 4),
  -- 34: p1=particle(mh)
  .part 0 (.mem .r 2),
  -- 35: p2=particle(0)
  .part 1 (.lit 0),
  -- 36: p3=particle(MW)
  .part 2 (.mem .r 3),
  -- 37: p4=particle(me)
  .part 3 (.mem .r 1),
  -- 39: a23a=sproduct(ANGLE,&p2,&p3)
  .sprod 0 ⟨true, 1, true, [], 2, true⟩,
  -- 40: s43s=sproduct(SQUARE,&p4,&p3)
  .sprod 1 ⟨false, 3, true, [], 2, true⟩,
  -- 41: a42a=sproduct(ANGLE,&p4,&p2)
  .sprod 2 ⟨true, 3, true, [], 1, true⟩,
  -- 42: s313a=sproduct(SQUARE,&p3,&p1,&p3)
  .sprod 3 ⟨false, 2, true, [0], 2, true⟩,
  -- 43: s314a=sproduct(SQUARE,&p3,&p1,&p4)
  .sprod 4 ⟨false, 2, true, [0], 3, true⟩,
  -- 45: preW=e*e/(2.0*MW*MW*SW*SW)
  .set .r 7 (.div (.mul (.mem .r 0) (.mem .r 0)) (.mul (.mul (.mul (.mul (.lit 2) (.mem .r 3)) (.mem .r 3)) (.mem .r 5)) (.mem .r 5))),
  -- 46: pree=me*preW
  .set .r 6 (.mul (.mem .r 1) (.mem .r 7))]

/-- `set_masses` (SM/hnWe.cpp:48-60); parameters: 0 `masse`, 1 `massh`, 2 `massW` -/
def setMasses : List SInstr := [
  -- 49: me=masse
  .set .r 1 (.loc .r 0),
  -- 50: mh=massh
  .set .r 2 (.loc .r 1),
  -- 51: MW=massW
  .set .r 3 (.loc .r 2),
  -- 52: p1.set_mass(mh)
  .setMass 0 (.mem .r 2),
  -- 53: p3.set_mass(MW)
  .setMass 2 (.mem .r 3),
  -- 54: p4.set_mass(me)
  .setMass 3 (.mem .r 1),
  -- 55: prope.set_mass(me)
  .propMass 0 (.mem .r 1),
  -- 56: propW.set_mass(MW)
  .propMass 1 (.mem .r 3),
  -- 58: preW=e*e/(2.0*MW*MW*SW*SW)
  .set .r 7 (.div (.mul (.mem .r 0) (.mem .r 0)) (.mul (.mul (.mul (.mul (.lit 2) (.mem .r 3)) (.mem .r 3)) (.mem .r 5)) (.mem .r 5))),
  -- 59: pree=me*preW
  .set .r 6 (.mul (.mem .r 1) (.mem .r 7))]

/-- `set_momenta` (SM/hnWe.cpp:61-82); parameters: 0 `mom1`, 1 `mom2`, 2 `mom3`, 3 `mom4` -/
def setMomenta : List SInstr := [
  -- 63: p1.set_momentum(mom1)
  .setMom 0 0,
  -- 64: p2.set_momentum(mom2)
  .setMom 1 1,
  -- 65: p3.set_momentum(mom3)
  .setMom 2 2,
  -- 66: p4.set_momentum(mom4)
  .setMom 3 3,
  -- 68: a23a.update()
  .update 0,
  -- 69: s43s.update()
  .update 1,
  -- 70: a42a.update()
  .update 2,
  -- 71: s313a.update()
  .update 3,
  -- 72: s314a.update()
  .update 4,
  -- 80: pDenWT=propW.denominator(propTP)
  .den .c 0 1 (.sub 0 2),
  -- 81: pDeneU=prope.denominator(propUP)
  .den .c 1 0 (.sub 0 3)]

/-- `cdouble amp(ds3,ds4)` (SM/hnWe.cpp:87-122); variables: i 0 `ds3`, i 1 `ds4`, c 0 `amplitude`, i 2 `ds3a`, i 3 `ds3b`, i 4 `nCombs`, r 0 `normFactor`, i 5 `i` -/
def m_amp : Method := ⟨2, 
  -- 88: cdouble amplitude
  .seq (.set .c 0 (.ofR (.lit 0))) <|
  -- 93: int nCombs
  .seq (.seti 4 (.loops [0])) <|
  -- 94: ldouble normFactor
  .seq (.set .r 0 (.norm [0])) <|
  -- 96: for(int i=0;i<nCombs;i++)
  .seq (.loop 5 0 false (.var 4) 1 (
    -- 97: get_spinor_spins(ds3,ds3a,ds3b,i)
    .seq (.spins [(0, 2, 3)] (.var 5)) <|
    -- 107: amplitude+=normFactor*preW*(two*MW*MW*a23a.v(ds3a)*s43s.v(ds4,ds3b)+me*a42a.v(ds4)*s313a.v(ds3a,ds3b))/pDenWT
    .seq (.set .c 0 (.add (.loc .c 0) (.div (.smul (.mul (.loc .r 0) (.mem .r 7)) (.add (.mul (.smul (.mul (.mul (.lit 2) (.mem .r 3)) (.mem .r 3)) (.v 0 [.var 2])) (.v 1 [.var 1, .var 3])) (.mul (.smul (.mem .r 1) (.v 2 [.var 1])) (.v 3 [.var 2, .var 3])))) (.mem .c 0)))) <|
    -- 117: amplitude+=normFactor*pree*a23a.v(ds3a)*(two*me*s43s.v(ds4,ds3b)-s314a.v(ds3b,ds4))/pDeneU
    .set .c 0 (.add (.loc .c 0) (.div (.mul (.smul (.mul (.loc .r 0) (.mem .r 6)) (.v 0 [.var 2])) (.sub (.smul (.mul (.lit 2) (.mem .r 1)) (.v 1 [.var 1, .var 3])) (.v 4 [.var 3, .var 1]))) (.mem .c 1))))) <|
  -- 121: return amplitude
  .ret .c (.loc .c 0)⟩

/-- `ldouble amp2()` (SM/hnWe.cpp:125-137); variables: r 0 `amp2`, c 0 `M`, i 0 `j3`, i 1 `j4` -/
def m_amp2 : Method := ⟨0, 
  -- 126: ldouble amp2
  .seq (.set .r 0 (.lit 0)) <|
  -- 127: cdouble M
  .seq (.set .c 0 (.ofR (.lit 0))) <|
  -- 130: for(int j3=-2;j3<=2;j3+=2)
  .seq (.loop 0 (-2) true (.lit 2) 2 (
    -- 131: for(int j4=-1;j4<=1;j4+=2)
    .loop 1 (-1) true (.lit 1) 2 (
      -- 132: M=amp(j3,j4)
      .seq (.set .c 0 (.call 0 [.var 0, .var 1])) <|
      -- 133: amp2+=std::pow(std::abs(M),2)
      .set .r 0 (.add (.loc .r 0) (.pow (.abs (.loc .c 0)) 2))))) <|
  -- 136: return amp2
  .ret .r (.loc .r 0)⟩

end hnWe

/-- `class hnWe` (SM/hnWe.cpp, SM/include/hnWe.h:25-32).  Members:
* ldouble: 0 `e`, 1 `me`, 2 `mh`, 3 `MW`, 4 `WW`, 5 `SW`, 6 `pree`, 7 `preW`
* cdouble: 0 `pDenWT`, 1 `pDeneU`
* propagator: 0 `prope`, 1 `propW`
* sproduct: 0 `a23a`, 1 `s43s`, 2 `a42a`, 3 `s313a`, 4 `s314a` -/
def hnWe : Proc where
  name := "hnWe"
  nPar := 6
  ctor := hnWe.ctor
  setMasses := hnWe.setMasses
  massPar := [1, 2, 3]
  setMomenta := hnWe.setMomenta
  methods := [hnWe.m_amp2, hnWe.m_amp]
  amp2 := 1
  others := []

end Spinas.SM.Cls
