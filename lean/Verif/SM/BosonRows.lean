import Verif.SM.FourBosons
import Verif.SM.FermionRows

/-! The classes for reactions with bosons, with the reactions they are for: names of the classes and of their parameters in SM/include/*.h, comments in SM/*.cpp. Generated by tools/bosons/rows.py. -/

namespace Spinas.SM

namespace Rows
def eehh : BRow := ⟨Cls.eehh, ⟨![.fermion .e false, .fermion .e true, .boson .higgs, .boson .higgs]⟩, [some .e, some (.mass .e), some .MH, some .WH, some .MW, some .SW], []⟩
def eheh : BRow := ⟨Cls.eheh, ⟨![.fermion .e false, .boson .higgs, .fermion .e false, .boson .higgs]⟩, [some .e, some (.mass .e), some .MH, some .WH, some .MW, some .SW], []⟩
def ddhh : BRow := ⟨Cls.ddhh, ⟨![.fermion .d false, .fermion .d true, .boson .higgs, .boson .higgs]⟩, [some .e, some (.mass .d), some .MH, some .WH, some .MW, some .SW], []⟩
def dhdh : BRow := ⟨Cls.dhdh, ⟨![.fermion .d false, .boson .higgs, .fermion .d false, .boson .higgs]⟩, [some .e, some (.mass .d), some .MH, some .WH, some .MW, some .SW], []⟩
def uuhh : BRow := ⟨Cls.uuhh, ⟨![.fermion .u false, .fermion .u true, .boson .higgs, .boson .higgs]⟩, [some .e, some (.mass .u), some .MH, some .WH, some .MW, some .SW], []⟩
def uhuh : BRow := ⟨Cls.uhuh, ⟨![.fermion .u false, .boson .higgs, .fermion .u false, .boson .higgs]⟩, [some .e, some (.mass .u), some .MH, some .WH, some .MW, some .SW], []⟩
def eeZh : BRow := ⟨Cls.eeZh, ⟨![.fermion .e false, .fermion .e true, .boson .z, .boson .higgs]⟩, [some .e, some (.mass .e), some .MH, some .WH, some .MW, some .SW, some .WZ], []⟩
def ddZh : BRow := ⟨Cls.ddZh, ⟨![.fermion .d false, .fermion .d true, .boson .z, .boson .higgs]⟩, [some .e, some (.mass .d), some .MH, some .WH, some .MW, some .SW, some .WZ], []⟩
def uuZh : BRow := ⟨Cls.uuZh, ⟨![.fermion .u false, .fermion .u true, .boson .z, .boson .higgs]⟩, [some .e, some (.mass .u), some .MH, some .WH, some .MW, some .SW, some .WZ], []⟩
def nnZh : BRow := ⟨Cls.nnZh, ⟨![.fermion .ne false, .fermion .ne true, .boson .z, .boson .higgs]⟩, [some .e, some .MH, some .MW, some .SW, some .WZ], []⟩
def eZeh : BRow := ⟨Cls.eZeh, ⟨![.fermion .e false, .boson .z, .fermion .e false, .boson .higgs]⟩, [some .e, some (.mass .e), some .MH, some .WH, some .MW, some .SW, some .WZ], []⟩
def dZdh : BRow := ⟨Cls.dZdh, ⟨![.fermion .d false, .boson .z, .fermion .d false, .boson .higgs]⟩, [some .e, some (.mass .d), some .MH, some .WH, some .MW, some .SW, some .WZ], []⟩
def uZuh : BRow := ⟨Cls.uZuh, ⟨![.fermion .u false, .boson .z, .fermion .u false, .boson .higgs]⟩, [some .e, some (.mass .u), some .MH, some .WH, some .MW, some .SW, some .WZ], []⟩
def nZnh : BRow := ⟨Cls.nZnh, ⟨![.fermion .ne false, .boson .z, .fermion .ne false, .boson .higgs]⟩, [some .e, some .MH, some .MW, some .SW, some .WZ], []⟩
def enWh : BRow := ⟨Cls.enWh, ⟨![.fermion .e true, .fermion .ne false, .boson .wPlus, .boson .higgs]⟩, [some .e, some (.mass .e), some .MH, some .MW, some .WW, some .SW], []⟩
def udWh : BRow := ⟨Cls.udWh, ⟨![.fermion .u false, .fermion .d true, .boson .wPlus, .boson .higgs]⟩, [some .e, some (.mass .u), some (.mass .d), some .MH, some .MW, some .WW, some .SW], []⟩
def hnWe : BRow := ⟨Cls.hnWe, ⟨![.boson .higgs, .fermion .ne false, .boson .wPlus, .fermion .e false]⟩, [some .e, some (.mass .e), some .MH, some .MW, some .WW, some .SW], []⟩
def uhWd : BRow := ⟨Cls.uhWd, ⟨![.fermion .u false, .boson .higgs, .boson .wPlus, .fermion .d false]⟩, [some .e, some (.mass .u), some (.mass .d), some .MH, some .MW, some .WW, some .SW], []⟩
def eeZZ : BRow := ⟨Cls.eeZZ, ⟨![.fermion .e false, .fermion .e true, .boson .z, .boson .z]⟩, [some .e, some (.mass .e), some .MH, some .WH, some .MW, some .SW, some .WZ], []⟩
def ddZZ : BRow := ⟨Cls.ddZZ, ⟨![.fermion .d false, .fermion .d true, .boson .z, .boson .z]⟩, [some .e, some (.mass .d), some .MH, some .WH, some .MW, some .SW, some .WZ], []⟩
def uuZZ : BRow := ⟨Cls.uuZZ, ⟨![.fermion .u false, .fermion .u true, .boson .z, .boson .z]⟩, [some .e, some (.mass .u), some .MH, some .WH, some .MW, some .SW, some .WZ], []⟩
def nnZZ : BRow := ⟨Cls.nnZZ, ⟨![.fermion .ne false, .fermion .ne true, .boson .z, .boson .z]⟩, [some .e, some .MW, some .SW, some .WZ], []⟩
def eZZe : BRow := ⟨Cls.eZZe, ⟨![.fermion .e false, .boson .z, .boson .z, .fermion .e false]⟩, [some .e, some (.mass .e), some .MH, some .WH, some .MW, some .SW, some .WZ], []⟩
def dZZd : BRow := ⟨Cls.dZZd, ⟨![.fermion .d false, .boson .z, .boson .z, .fermion .d false]⟩, [some .e, some (.mass .d), some .MH, some .WH, some .MW, some .SW, some .WZ], []⟩
def uZZu : BRow := ⟨Cls.uZZu, ⟨![.fermion .u false, .boson .z, .boson .z, .fermion .u false]⟩, [some .e, some (.mass .u), some .MH, some .WH, some .MW, some .SW, some .WZ], []⟩
def nZZn : BRow := ⟨Cls.nZZn, ⟨![.fermion .ne false, .boson .z, .boson .z, .fermion .ne false]⟩, [some .e, some .MW, some .SW, some .WZ], []⟩
def eeWW : BRow := ⟨Cls.eeWW, ⟨![.fermion .e false, .fermion .e true, .boson .wPlus, .boson .wMinus]⟩, [some .e, some (.mass .e), some .MH, some .WH, some .MW, some .SW, some .WZ], []⟩
def ddWW : BRow := ⟨Cls.ddWW, ⟨![.fermion .d true, .fermion .d false, .boson .wPlus, .boson .wMinus]⟩, [some .e, some (.mass .d), some (.mass .u), some .MH, some .WH, some .MW, some .SW, some .WZ], []⟩
def uuWW : BRow := ⟨Cls.uuWW, ⟨![.fermion .u false, .fermion .u true, .boson .wPlus, .boson .wMinus]⟩, [some .e, some (.mass .u), some (.mass .d), some .MH, some .WH, some .MW, some .SW, some .WZ], []⟩
def eWWe : BRow := ⟨Cls.eWWe, ⟨![.fermion .e false, .boson .wPlus, .boson .wPlus, .fermion .e false]⟩, [some .e, some (.mass .e), some .MH, some .WH, some .MW, some .SW, some .WZ], []⟩
def uWWu : BRow := ⟨Cls.uWWu, ⟨![.fermion .u false, .boson .wPlus, .boson .wPlus, .fermion .u false]⟩, [some .e, some (.mass .u), some (.mass .d), some .MH, some .WH, some .MW, some .SW, some .WZ], []⟩
def enZW : BRow := ⟨Cls.enZW, ⟨![.fermion .e true, .fermion .ne false, .boson .z, .boson .wPlus]⟩, [some .e, some (.mass .e), some .MW, some .SW, some .WW], []⟩
def udZW : BRow := ⟨Cls.udZW, ⟨![.fermion .u true, .fermion .d false, .boson .z, .boson .wMinus]⟩, [some .e, some (.mass .u), some (.mass .d), some .MW, some .SW, some .WW], []⟩
def ZnWe : BRow := ⟨Cls.ZnWe, ⟨![.boson .z, .fermion .ne false, .boson .wPlus, .fermion .e false]⟩, [some .e, some (.mass .e), some .MW, some .SW, some .WW], []⟩
def WdZu : BRow := ⟨Cls.WdZu, ⟨![.boson .wPlus, .fermion .d false, .boson .z, .fermion .u false]⟩, [some .e, some (.mass .u), some (.mass .d), some .MW, some .SW, some .WW], []⟩
def hhhh : BRow := ⟨Cls.hhhh, ⟨![.boson .higgs, .boson .higgs, .boson .higgs, .boson .higgs]⟩, [some .e, some .MH, some .WH, some .MW, some .SW], []⟩
def ZZZZ : BRow := ⟨Cls.ZZZZ, ⟨![.boson .z, .boson .z, .boson .z, .boson .z]⟩, [some .e, some .MH, some .WH, some .MW, some .SW], []⟩
def hhZZ : BRow := ⟨Cls.hhZZ, ⟨![.boson .higgs, .boson .higgs, .boson .z, .boson .z]⟩, [some .e, some .MH, some .WH, some .MW, some .SW, some .WZ], [.WZ]⟩
def hZZh : BRow := ⟨Cls.hZZh, ⟨![.boson .higgs, .boson .z, .boson .z, .boson .higgs]⟩, [some .e, some .MH, some .WH, some .MW, some .SW, some .WZ], [.WZ]⟩
def hhWW : BRow := ⟨Cls.hhWW, ⟨![.boson .higgs, .boson .higgs, .boson .wPlus, .boson .wMinus]⟩, [some .e, some .MH, some .WH, some .MW, some .SW, some .WW], [.WW]⟩
def hWWh : BRow := ⟨Cls.hWWh, ⟨![.boson .higgs, .boson .wPlus, .boson .wPlus, .boson .higgs]⟩, [some .e, some .MH, some .WH, some .MW, some .SW, some .WW], [.WW]⟩
def ZhWW : BRow := ⟨Cls.ZhWW, ⟨![.boson .z, .boson .higgs, .boson .wPlus, .boson .wMinus]⟩, [some .e, some .MH, some .MW, some .SW, some .WW, some .WZ], []⟩
def ZWWh : BRow := ⟨Cls.ZWWh, ⟨![.boson .z, .boson .wPlus, .boson .wPlus, .boson .higgs]⟩, [some .e, some .MH, some .MW, some .SW, some .WW, some .WZ], []⟩
def ZZWW : BRow := ⟨Cls.ZZWW, ⟨![.boson .z, .boson .z, .boson .wPlus, .boson .wMinus]⟩, [some .e, some .MH, some .WH, some .MW, some .WW, some .SW], [.WW]⟩
def ZWZW : BRow := ⟨Cls.ZWZW, ⟨![.boson .z, .boson .wPlus, .boson .z, .boson .wPlus]⟩, [some .e, some .MH, some .WH, some .MW, some .WW, some .SW], [.WW]⟩
def WWWW : BRow := ⟨Cls.WWWW, ⟨![.boson .wPlus, .boson .wPlus, .boson .wPlus, .boson .wPlus]⟩, [some .e, some .MH, some .WH, some .MW, some .WZ, some .SW], [.WZ]⟩
def WWWW2 : BRow := ⟨Cls.WWWW2, ⟨![.boson .wPlus, .boson .wMinus, .boson .wPlus, .boson .wMinus]⟩, [some .e, some .MH, some .WH, some .MW, some .WZ, some .SW], [.WZ]⟩
end Rows

open Rows in
/-- classes with bosons -/
def withBosons : List BRow := [eehh, eheh, ddhh, dhdh, uuhh, uhuh, eeZh, ddZh, uuZh, nnZh, eZeh, dZdh, uZuh, nZnh, enWh, udWh, hnWe, uhWd, eeZZ, ddZZ, uuZZ, nnZZ, eZZe, dZZd, uZZu, nZZn, eeWW, ddWW, uuWW, eWWe, uWWu, enZW, udZW, ZnWe, WdZu, hhhh, ZZZZ, hhZZ, hZZh, hhWW, hWWh, ZhWW, ZWWh, ZZWW, ZWZW, WWWW, WWWW2]

end Spinas.SM
