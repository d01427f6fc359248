import Verif.SM.Lang

/-! Generated by tools/sm/user.py from user-dir/eemm.cpp. -/

namespace Spinas.SM.Cls

namespace userEemm

/-- constructor (user-dir/eemm.cpp:34-51); parameters: 0 `echarge`, 1 `masse`, 2 `massmu` -/
def ctor : List SInstr := [
  -- 35: e=echarge
  .set .r 0 (.loc .r 0),
  -- 36: me=masse
  .set .r 1 (.loc .r 1),
  -- 37: mm=massmu
  .set .r 2 (.loc .r 2),
  -- 38: prop=propagator(0,0)
  .prop 0 (.lit 0) (.lit 0),
  -- 39: p1=particle(me)
  .part 0 (.mem .r 1),
  -- 40: p2=particle(me)
  .part 1 (.mem .r 1),
  -- 41: p3=particle(mm)
  .part 2 (.mem .r 2),
  -- 42: p4=particle(mm)
  .part 3 (.mem .r 2),
  -- 43: a13a=sproduct(ANGLE,&p1,&p3)
  .sprod 0 ⟨true, 0, true, [], 2, true⟩,
  -- 44: s13s=sproduct(SQUARE,&p1,&p3)
  .sprod 1 ⟨false, 0, true, [], 2, true⟩,
  -- 45: a14a=sproduct(ANGLE,&p1,&p4)
  .sprod 2 ⟨true, 0, true, [], 3, true⟩,
  -- 46: s14s=sproduct(SQUARE,&p1,&p4)
  .sprod 3 ⟨false, 0, true, [], 3, true⟩,
  -- 47: a23a=sproduct(ANGLE,&p2,&p3)
  .sprod 4 ⟨true, 1, true, [], 2, true⟩,
  -- 48: s23s=sproduct(SQUARE,&p2,&p3)
  .sprod 5 ⟨false, 1, true, [], 2, true⟩,
  -- 49: a24a=sproduct(ANGLE,&p2,&p4)
  .sprod 6 ⟨true, 1, true, [], 3, true⟩,
  -- 50: s24s=sproduct(SQUARE,&p2,&p4)
  .sprod 7 ⟨false, 1, true, [], 3, true⟩]

/-- `set_masses` (user-dir/eemm.cpp:53-60); parameters: 0 `masse`, 1 `massmu` -/
def setMasses : List SInstr := [
  -- 54: me=masse
  .set .r 1 (.loc .r 0),
  -- 55: mm=massmu
  .set .r 2 (.loc .r 1),
  -- 56: p1.set_mass(me)
  .setMass 0 (.mem .r 1),
  -- 57: p2.set_mass(me)
  .setMass 1 (.mem .r 1),
  -- 58: p3.set_mass(mm)
  .setMass 2 (.mem .r 2),
  -- 59: p4.set_mass(mm)
  .setMass 3 (.mem .r 2)]

/-- `set_momenta` (user-dir/eemm.cpp:62-81); parameters: 0 `mom1`, 1 `mom2`, 2 `mom3`, 3 `mom4` -/
def setMomenta : List SInstr := [
  -- 64: p1.set_momentum(mom1)
  .setMom 0 0,
  -- 65: p2.set_momentum(mom2)
  .setMom 1 1,
  -- 66: p3.set_momentum(mom3)
  .setMom 2 2,
  -- 67: p4.set_momentum(mom4)
  .setMom 3 3,
  -- 68: a13a.update()
  .update 0,
  -- 69: s13s.update()
  .update 1,
  -- 70: a14a.update()
  .update 2,
  -- 71: s14s.update()
  .update 3,
  -- 72: a23a.update()
  .update 4,
  -- 73: s23s.update()
  .update 5,
  -- 74: a24a.update()
  .update 6,
  -- 75: s24s.update()
  .update 7,
  -- 80: pDenS=prop.denominator(propP)
  .den .c 0 0 (.add 0 1)]

/-- `cdouble amp(ds1,ds2,ds3,ds4)` (user-dir/eemm.cpp:86-91); variables: i 0 `ds1`, i 1 `ds2`, i 2 `ds3`, i 3 `ds4` -/
def m_amp : Method := ⟨4, 
  -- 90: return -two*e*e*(a13a.v(ds1,ds3)*s24s.v(ds2,ds4)+a14a.v(ds1,ds4)*s23s.v(ds2,ds3)+s13s.v(ds1,ds3)*a24a.v(ds2,ds4)+s14s.v(ds1,ds4)*a23a.v(ds2,ds3))/pDenS
  .ret .c (.div (.smul (.mul (.mul (.neg (.lit 2)) (.mem .r 0)) (.mem .r 0)) (.add (.add (.add (.mul (.v 0 [.var 0, .var 2]) (.v 7 [.var 1, .var 3])) (.mul (.v 2 [.var 0, .var 3]) (.v 5 [.var 1, .var 2]))) (.mul (.v 1 [.var 0, .var 2]) (.v 6 [.var 1, .var 3]))) (.mul (.v 3 [.var 0, .var 3]) (.v 4 [.var 1, .var 2])))) (.mem .c 0))⟩

/-- `ldouble amp2()` (user-dir/eemm.cpp:95-110); variables: r 0 `amp2`, c 0 `M`, i 0 `ds1`, i 1 `ds2`, i 2 `ds3`, i 3 `ds4` -/
def m_amp2 : Method := ⟨0, 
  -- 97: ldouble amp2
  .seq (.set .r 0 (.lit 0)) <|
  -- 98: cdouble M
  .seq (.set .c 0 (.ofR (.lit 0))) <|
  -- 101: for(int ds1=-1;ds1<=1;ds1+=2)
  .seq (.loop 0 (-1) true (.lit 1) 2 (
    -- 102: for(int ds2=-1;ds2<=1;ds2+=2)
    .loop 1 (-1) true (.lit 1) 2 (
      -- 103: for(int ds3=-1;ds3<=1;ds3+=2)
      .loop 2 (-1) true (.lit 1) 2 (
        -- 104: for(int ds4=-1;ds4<=1;ds4+=2)
        .loop 3 (-1) true (.lit 1) 2 (
          -- 105: M=amp(ds1,ds2,ds3,ds4)
          .seq (.set .c 0 (.call 0 [.var 0, .var 1, .var 2, .var 3])) <|
          -- 106: amp2+=std::pow(std::abs(M),2)
          .set .r 0 (.add (.loc .r 0) (.pow (.abs (.loc .c 0)) 2))))))) <|
  -- 109: return amp2/four
  .ret .r (.div (.loc .r 0) (.lit 4))⟩

end userEemm

/-- `class eemm` (user-dir/eemm.cpp, user-dir/include/eemm.h:23-29).  Members:
* ldouble: 0 `e`, 1 `me`, 2 `mm`
* cdouble: 0 `pDenS`
* propagator: 0 `prop`
* sproduct: 0 `a13a`, 1 `s13s`, 2 `a14a`, 3 `s14s`, 4 `a23a`, 5 `s23s`, 6 `a24a`, 7 `s24s` -/
def userEemm : Proc where
  name := "eemm"
  nPar := 3
  ctor := userEemm.ctor
  setMasses := userEemm.setMasses
  massPar := [1, 2]
  setMomenta := userEemm.setMomenta
  methods := [userEemm.m_amp2, userEemm.m_amp]
  amp2 := 1
  others := []

end Spinas.SM.Cls
