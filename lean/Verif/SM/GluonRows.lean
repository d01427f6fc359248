import Verif.SM.LightRows

/-! The classes for reactions of two quarks and two gluons, with the reactions they are for: names of the classes and of their parameters in SM/include/*.h, comments in SM/*.cpp. -/

namespace Spinas.SM

namespace Rows
def ggdd : BRow := ⟨Cls.ggdd, ⟨![.boson .gluon, .boson .gluon, .fermion .d false, .fermion .d true]⟩, [some .gs, some (.mass .d)], []⟩
def gguu : BRow := ⟨Cls.gguu, ⟨![.boson .gluon, .boson .gluon, .fermion .u false, .fermion .u true]⟩, [some .gs, some (.mass .u)], []⟩
def dggd : BRow := ⟨Cls.dggd, ⟨![.fermion .d false, .boson .gluon, .boson .gluon, .fermion .d false]⟩, [some .gs, some (.mass .d)], []⟩
def gugu : BRow := ⟨Cls.gugu, ⟨![.boson .gluon, .fermion .u false, .boson .gluon, .fermion .u false]⟩, [some .gs, some (.mass .u)], []⟩
end Rows

open Rows
/-- classes with two quarks and two gluons -/
def withGluons : List BRow := [ggdd, gguu, dggd, gugu]

end Spinas.SM
