import Verif.SM.LightLine
import Verif.SM.FermionRows

/-! The classes for reactions with one fermion line and massless bosons, with the reactions they are for: names of the classes and of their parameters in SM/include/*.h, comments in SM/*.cpp. Generated by tools/bosons/lrows.py. -/

namespace Spinas.SM

namespace Rows
def uuAh : BRow := ⟨Cls.uuAh, ⟨![.fermion .u false, .fermion .u true, .boson .photon, .boson .higgs]⟩, [some .e, some (.mass .u), some .MH, some .MW, some .SW], []⟩
def ddAh : BRow := ⟨Cls.ddAh, ⟨![.fermion .d false, .fermion .d true, .boson .photon, .boson .higgs]⟩, [some .e, some (.mass .d), some .MH, some .MW, some .SW], []⟩
def uAuh : BRow := ⟨Cls.uAuh, ⟨![.fermion .u false, .boson .photon, .fermion .u false, .boson .higgs]⟩, [some .e, some (.mass .u), some .MH, some .MW, some .SW], []⟩
def dAdh : BRow := ⟨Cls.dAdh, ⟨![.fermion .d false, .boson .photon, .fermion .d false, .boson .higgs]⟩, [some .e, some (.mass .d), some .MH, some .MW, some .SW], []⟩
def AAuu : BRow := ⟨Cls.AAuu, ⟨![.boson .photon, .boson .photon, .fermion .u false, .fermion .u true]⟩, [some .e, some (.mass .u)], []⟩
def AAdd : BRow := ⟨Cls.AAdd, ⟨![.boson .photon, .boson .photon, .fermion .d false, .fermion .d true]⟩, [some .e, some (.mass .d)], []⟩
def AAee : BRow := ⟨Cls.AAee, ⟨![.boson .photon, .boson .photon, .fermion .e false, .fermion .e true]⟩, [some .e, some (.mass .e)], []⟩
def uAAu : BRow := ⟨Cls.uAAu, ⟨![.fermion .u false, .boson .photon, .boson .photon, .fermion .u false]⟩, [some .e, some (.mass .u)], []⟩
def dAAd : BRow := ⟨Cls.dAAd, ⟨![.fermion .d false, .boson .photon, .boson .photon, .fermion .d false]⟩, [some .e, some (.mass .d)], []⟩
def eAAe : BRow := ⟨Cls.eAAe, ⟨![.fermion .e false, .boson .photon, .boson .photon, .fermion .e false]⟩, [some .e, some (.mass .e)], []⟩
def uuAA : BRow := ⟨Cls.uuAA, ⟨![.fermion .u false, .fermion .u true, .boson .photon, .boson .photon]⟩, [some .e, some (.mass .u)], []⟩
def ddAA : BRow := ⟨Cls.ddAA, ⟨![.fermion .d false, .fermion .d true, .boson .photon, .boson .photon]⟩, [some .e, some (.mass .d)], []⟩
def eeAA : BRow := ⟨Cls.eeAA, ⟨![.fermion .e false, .fermion .e true, .boson .photon, .boson .photon]⟩, [some .e, some (.mass .e)], []⟩
def AZuu : BRow := ⟨Cls.AZuu, ⟨![.boson .photon, .boson .z, .fermion .u false, .fermion .u true]⟩, [some .e, some (.mass .u), some .MW, some .SW], []⟩
def AZdd : BRow := ⟨Cls.AZdd, ⟨![.boson .photon, .boson .z, .fermion .d false, .fermion .d true]⟩, [some .e, some (.mass .d), some .MW, some .SW], []⟩
def AZee : BRow := ⟨Cls.AZee, ⟨![.boson .photon, .boson .z, .fermion .e false, .fermion .e true]⟩, [some .e, some (.mass .e), some .MW, some .SW], []⟩
def AuZu : BRow := ⟨Cls.AuZu, ⟨![.boson .photon, .fermion .u false, .boson .z, .fermion .u false]⟩, [some .e, some (.mass .u), some .MW, some .SW], []⟩
def AdZd : BRow := ⟨Cls.AdZd, ⟨![.boson .photon, .fermion .d false, .boson .z, .fermion .d false]⟩, [some .e, some (.mass .d), some .MW, some .SW], []⟩
def AeZe : BRow := ⟨Cls.AeZe, ⟨![.boson .photon, .fermion .e false, .boson .z, .fermion .e false]⟩, [some .e, some (.mass .e), some .MW, some .SW], []⟩
def AnWe : BRow := ⟨Cls.AnWe, ⟨![.boson .photon, .fermion .ne false, .boson .wPlus, .fermion .e false]⟩, [some .e, some (.mass .e), some .MW, some .SW, some .WW], [.WW]⟩
def enAW : BRow := ⟨Cls.enAW, ⟨![.fermion .e true, .fermion .ne false, .boson .photon, .boson .wPlus]⟩, [some .e, some (.mass .e), some .MW, some .SW, some .WW], [.WW]⟩
def AWud : BRow := ⟨Cls.AWud, ⟨![.boson .photon, .boson .wPlus, .fermion .u false, .fermion .d true]⟩, [some .e, some (.mass .u), some (.mass .d), some .MW, some .SW, some .WW], [.WW]⟩
def udAW : BRow := ⟨Cls.udAW, ⟨![.fermion .u true, .fermion .d false, .boson .photon, .boson .wMinus]⟩, [some .e, some (.mass .u), some (.mass .d), some .MW, some .SW, some .WW], [.WW]⟩
def dgdh : BRow := ⟨Cls.dgdh, ⟨![.fermion .d false, .boson .gluon, .fermion .d false, .boson .higgs]⟩, [some .e, some .gs, some (.mass .d), some .MH, some .MW, some .SW], []⟩
def uguh : BRow := ⟨Cls.uguh, ⟨![.fermion .u false, .boson .gluon, .fermion .u false, .boson .higgs]⟩, [some .e, some .gs, some (.mass .u), some .MH, some .MW, some .SW], []⟩
def hgdd : BRow := ⟨Cls.hgdd, ⟨![.boson .higgs, .boson .gluon, .fermion .d false, .fermion .d true]⟩, [some .e, some .gs, some (.mass .d), some .MH, some .MW, some .SW], []⟩
def hguu : BRow := ⟨Cls.hguu, ⟨![.boson .higgs, .boson .gluon, .fermion .u false, .fermion .u true]⟩, [some .e, some .gs, some (.mass .u), some .MH, some .MW, some .SW], []⟩
def dAgd : BRow := ⟨Cls.dAgd, ⟨![.fermion .d false, .boson .photon, .boson .gluon, .fermion .d false]⟩, [some .e, some .gs, some (.mass .d)], []⟩
def guAu : BRow := ⟨Cls.guAu, ⟨![.boson .gluon, .fermion .u false, .boson .photon, .fermion .u false]⟩, [some .e, some .gs, some (.mass .u)], []⟩
def gAdd : BRow := ⟨Cls.gAdd, ⟨![.boson .gluon, .boson .photon, .fermion .d false, .fermion .d true]⟩, [some .e, some .gs, some (.mass .d)], []⟩
def gAuu : BRow := ⟨Cls.gAuu, ⟨![.boson .gluon, .boson .photon, .fermion .u false, .fermion .u true]⟩, [some .e, some .gs, some (.mass .u)], []⟩
def gZdd : BRow := ⟨Cls.gZdd, ⟨![.boson .gluon, .boson .z, .fermion .d false, .fermion .d true]⟩, [some .e, some .gs, some (.mass .d), some .MW, some .SW], []⟩
def gZuu : BRow := ⟨Cls.gZuu, ⟨![.boson .gluon, .boson .z, .fermion .u false, .fermion .u true]⟩, [some .e, some .gs, some (.mass .u), some .MW, some .SW], []⟩
def gdZd : BRow := ⟨Cls.gdZd, ⟨![.boson .gluon, .fermion .d false, .boson .z, .fermion .d false]⟩, [some .e, some .gs, some (.mass .d), some .MW, some .SW], []⟩
def guZu : BRow := ⟨Cls.guZu, ⟨![.boson .gluon, .fermion .u false, .boson .z, .fermion .u false]⟩, [some .e, some .gs, some (.mass .u), some .MW, some .SW], []⟩
def gWud : BRow := ⟨Cls.gWud, ⟨![.boson .gluon, .boson .wPlus, .fermion .u false, .fermion .d true]⟩, [some .e, some .gs, some (.mass .u), some (.mass .d), some .MW, some .SW], []⟩
def dWgu : BRow := ⟨Cls.dWgu, ⟨![.fermion .d false, .boson .wPlus, .boson .gluon, .fermion .u false]⟩, [some .e, some .gs, some (.mass .u), some (.mass .d), some .MW, some .SW], []⟩
end Rows

open Rows in
/-- classes with one fermion line and massless bosons -/
def withLight : List BRow := [uuAh, ddAh, uAuh, dAdh, AAuu, AAdd, AAee, uAAu, dAAd, eAAe, uuAA, ddAA, eeAA, AZuu, AZdd, AZee, AuZu, AdZd, AeZe, AnWe, enAW, AWud, udAW, dgdh, uguh, hgdd, hguu, dAgd, guAu, gAdd, gAuu, gZdd, gZuu, gdZd, guZu, gWud, dWgu]

end Spinas.SM
