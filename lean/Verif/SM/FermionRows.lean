import Verif.SM.FourFermion

/-! The classes for two fermions into two fermions, with the processes they are for: names of the classes and of their parameters in SM/include/*.h, comments in SM/*.cpp.
`none` marks a width of the Z that has no effect (the class calls `propZ.set_mass` only, the width stays 0). dddd alone passes it on. -/

namespace Spinas

namespace Spec.Flavour
def u : Flavour := ⟨.up, 0⟩
def c : Flavour := ⟨.up, 1⟩
def t : Flavour := ⟨.up, 2⟩
def d : Flavour := ⟨.down, 0⟩
def s : Flavour := ⟨.down, 1⟩
def b : Flavour := ⟨.down, 2⟩
def e : Flavour := ⟨.lepton, 0⟩
def mu : Flavour := ⟨.lepton, 1⟩
def tau : Flavour := ⟨.lepton, 2⟩
def ne : Flavour := ⟨.neutrino, 0⟩
def nmu : Flavour := ⟨.neutrino, 1⟩
def ntau : Flavour := ⟨.neutrino, 2⟩
theorem charge_u : Flavour.charge u = 2 / 3 := rfl
theorem isospin_u : Flavour.isospin u = 1 / 2 := rfl
theorem charge_c : Flavour.charge c = 2 / 3 := rfl
theorem isospin_c : Flavour.isospin c = 1 / 2 := rfl
theorem charge_t : Flavour.charge t = 2 / 3 := rfl
theorem isospin_t : Flavour.isospin t = 1 / 2 := rfl
theorem charge_d : Flavour.charge d = -1 / 3 := rfl
theorem isospin_d : Flavour.isospin d = -1 / 2 := rfl
theorem charge_s : Flavour.charge s = -1 / 3 := rfl
theorem isospin_s : Flavour.isospin s = -1 / 2 := rfl
theorem charge_b : Flavour.charge b = -1 / 3 := rfl
theorem isospin_b : Flavour.isospin b = -1 / 2 := rfl
theorem charge_e : Flavour.charge e = -1 := rfl
theorem isospin_e : Flavour.isospin e = -1 / 2 := rfl
theorem charge_mu : Flavour.charge mu = -1 := rfl
theorem isospin_mu : Flavour.isospin mu = -1 / 2 := rfl
theorem charge_tau : Flavour.charge tau = -1 := rfl
theorem isospin_tau : Flavour.isospin tau = -1 / 2 := rfl
theorem charge_ne : Flavour.charge ne = 0 := rfl
theorem isospin_ne : Flavour.isospin ne = 1 / 2 := rfl
theorem charge_nmu : Flavour.charge nmu = 0 := rfl
theorem isospin_nmu : Flavour.isospin nmu = 1 / 2 := rfl
theorem charge_ntau : Flavour.charge ntau = 0 := rfl
theorem isospin_ntau : Flavour.isospin ntau = 1 / 2 := rfl
end Spec.Flavour

namespace SM
namespace Rows
def eemm : Row := ⟨Cls.eemm, ⟨.standard, ![⟨.e, false⟩, ⟨.e, true⟩, ⟨.mu, false⟩, ⟨.mu, true⟩]⟩, [some .e, some (.mass .e), some (.mass .mu), some .MH, some .WH, some .MW, some .SW, none]⟩
def emem : Row := ⟨Cls.emem, ⟨.standard, ![⟨.e, false⟩, ⟨.mu, false⟩, ⟨.e, false⟩, ⟨.mu, false⟩]⟩, [some .e, some (.mass .e), some (.mass .mu), some .MH, some .WH, some .MW, some .SW, none]⟩
def ddee : Row := ⟨Cls.ddee, ⟨.standard, ![⟨.d, false⟩, ⟨.d, true⟩, ⟨.e, false⟩, ⟨.e, true⟩]⟩, [some .e, some (.mass .d), some (.mass .e), some .MH, some .WH, some .MW, some .SW, none]⟩
def uuee : Row := ⟨Cls.uuee, ⟨.standard, ![⟨.u, false⟩, ⟨.u, true⟩, ⟨.e, false⟩, ⟨.e, true⟩]⟩, [some .e, some (.mass .u), some (.mass .e), some .MH, some .WH, some .MW, some .SW, none]⟩
def deed : Row := ⟨Cls.deed, ⟨.standard, ![⟨.d, false⟩, ⟨.e, false⟩, ⟨.e, false⟩, ⟨.d, false⟩]⟩, [some .e, some (.mass .d), some (.mass .e), some .MH, some .WH, some .MW, some .SW, none]⟩
def ueeu : Row := ⟨Cls.ueeu, ⟨.standard, ![⟨.u, false⟩, ⟨.e, false⟩, ⟨.e, false⟩, ⟨.u, false⟩]⟩, [some .e, some (.mass .u), some (.mass .e), some .MH, some .WH, some .MW, some .SW, none]⟩
def eeee : Row := ⟨Cls.eeee, ⟨.standard, ![⟨.e, false⟩, ⟨.e, true⟩, ⟨.e, false⟩, ⟨.e, true⟩]⟩, [some .e, some (.mass .e), some .MH, some .WH, some .MW, some .SW, none]⟩
def eeee2 : Row := ⟨Cls.eeee2, ⟨.standard, ![⟨.e, false⟩, ⟨.e, false⟩, ⟨.e, false⟩, ⟨.e, false⟩]⟩, [some .e, some (.mass .e), some .MH, some .WH, some .MW, some .SW, none]⟩
def eemmQED : Row := ⟨Cls.eemmQED, ⟨.qed, ![⟨.e, false⟩, ⟨.e, true⟩, ⟨.mu, false⟩, ⟨.mu, true⟩]⟩, [some .e, some (.mass .e), some (.mass .mu)]⟩
def eeeeQED : Row := ⟨Cls.eeeeQED, ⟨.qed, ![⟨.e, false⟩, ⟨.e, true⟩, ⟨.e, false⟩, ⟨.e, true⟩]⟩, [some .e, some (.mass .e)]⟩
def eenmnm : Row := ⟨Cls.eenmnm, ⟨.standard, ![⟨.e, false⟩, ⟨.e, true⟩, ⟨.nmu, false⟩, ⟨.nmu, true⟩]⟩, [some .e, some (.mass .e), some .MW, some .SW, none]⟩
def enmenm : Row := ⟨Cls.enmenm, ⟨.standard, ![⟨.e, false⟩, ⟨.nmu, false⟩, ⟨.e, false⟩, ⟨.nmu, false⟩]⟩, [some .e, some (.mass .e), some .MW, some .SW, none]⟩
def eenene : Row := ⟨Cls.eenene, ⟨.standard, ![⟨.e, false⟩, ⟨.e, true⟩, ⟨.ne, false⟩, ⟨.ne, true⟩]⟩, [some .e, some (.mass .e), some .MW, some .WW, some .SW, none]⟩
def enenee : Row := ⟨Cls.enenee, ⟨.standard, ![⟨.e, false⟩, ⟨.ne, false⟩, ⟨.ne, false⟩, ⟨.e, false⟩]⟩, [some .e, some (.mass .e), some .MW, some .WW, some .SW, none]⟩
def ddnn : Row := ⟨Cls.ddnn, ⟨.standard, ![⟨.d, false⟩, ⟨.d, true⟩, ⟨.ne, false⟩, ⟨.ne, true⟩]⟩, [some .e, some (.mass .d), some .MW, some .SW, none]⟩
def uunn : Row := ⟨Cls.uunn, ⟨.standard, ![⟨.u, false⟩, ⟨.u, true⟩, ⟨.ne, false⟩, ⟨.ne, true⟩]⟩, [some .e, some (.mass .u), some .MW, some .SW, none]⟩
def dnnd : Row := ⟨Cls.dnnd, ⟨.standard, ![⟨.d, false⟩, ⟨.ne, false⟩, ⟨.ne, false⟩, ⟨.d, false⟩]⟩, [some .e, some (.mass .d), some .MW, some .SW, none]⟩
def unnu : Row := ⟨Cls.unnu, ⟨.standard, ![⟨.u, false⟩, ⟨.ne, false⟩, ⟨.ne, false⟩, ⟨.u, false⟩]⟩, [some .e, some (.mass .u), some .MW, some .SW, none]⟩
def nenenene : Row := ⟨Cls.nenenene, ⟨.standard, ![⟨.ne, false⟩, ⟨.ne, true⟩, ⟨.ne, false⟩, ⟨.ne, true⟩]⟩, [some .e, some .MW, some .SW, none]⟩
def nenenene2 : Row := ⟨Cls.nenenene2, ⟨.standard, ![⟨.ne, false⟩, ⟨.ne, false⟩, ⟨.ne, false⟩, ⟨.ne, false⟩]⟩, [some .e, some .MW, some .SW, none]⟩
def nenenmnm : Row := ⟨Cls.nenenmnm, ⟨.standard, ![⟨.ne, false⟩, ⟨.ne, true⟩, ⟨.nmu, false⟩, ⟨.nmu, true⟩]⟩, [some .e, some .MW, some .SW, none]⟩
def nenmnenm : Row := ⟨Cls.nenmnenm, ⟨.standard, ![⟨.ne, false⟩, ⟨.nmu, false⟩, ⟨.ne, false⟩, ⟨.nmu, false⟩]⟩, [some .e, some .MW, some .SW, none]⟩
def menn : Row := ⟨Cls.menn, ⟨.standard, ![⟨.mu, true⟩, ⟨.e, false⟩, ⟨.ne, false⟩, ⟨.nmu, true⟩]⟩, [some .e, some (.mass .e), some (.mass .mu), some .MW, some .WW, some .SW]⟩
def mnen : Row := ⟨Cls.mnen, ⟨.standard, ![⟨.mu, false⟩, ⟨.ne, false⟩, ⟨.e, false⟩, ⟨.nmu, false⟩]⟩, [some .e, some (.mass .e), some (.mass .mu), some .MW, some .WW, some .SW]⟩
def udnl : Row := ⟨Cls.udnl, ⟨.standard, ![⟨.u, false⟩, ⟨.d, true⟩, ⟨.ntau, false⟩, ⟨.tau, true⟩]⟩, [some .e, some (.mass .u), some (.mass .d), some (.mass .tau), some .MW, some .WW, some .SW]⟩
def ulnd : Row := ⟨Cls.ulnd, ⟨.standard, ![⟨.u, false⟩, ⟨.tau, false⟩, ⟨.ntau, false⟩, ⟨.d, false⟩]⟩, [some .e, some (.mass .u), some (.mass .d), some (.mass .tau), some .MW, some .WW, some .SW]⟩
def udtb : Row := ⟨Cls.udtb, ⟨.standard, ![⟨.u, false⟩, ⟨.d, true⟩, ⟨.t, false⟩, ⟨.b, true⟩]⟩, [some .e, some (.mass .u), some (.mass .d), some (.mass .t), some (.mass .b), some .MW, some .WW, some .SW]⟩
def ubdt : Row := ⟨Cls.ubdt, ⟨.standard, ![⟨.u, false⟩, ⟨.b, false⟩, ⟨.d, false⟩, ⟨.t, false⟩]⟩, [some .e, some (.mass .u), some (.mass .d), some (.mass .t), some (.mass .b), some .MW, some .WW, some .SW]⟩
def ddss : Row := ⟨Cls.ddss, ⟨.standard, ![⟨.d, false⟩, ⟨.d, true⟩, ⟨.s, false⟩, ⟨.s, true⟩]⟩, [some .e, some .gs, some (.mass .d), some (.mass .s), some .MH, some .WH, some .MW, some .SW, none]⟩
def uucc : Row := ⟨Cls.uucc, ⟨.standard, ![⟨.u, false⟩, ⟨.u, true⟩, ⟨.c, false⟩, ⟨.c, true⟩]⟩, [some .e, some .gs, some (.mass .u), some (.mass .c), some .MH, some .WH, some .MW, some .SW, none]⟩
def uuss : Row := ⟨Cls.uuss, ⟨.standard, ![⟨.u, false⟩, ⟨.u, true⟩, ⟨.s, false⟩, ⟨.s, true⟩]⟩, [some .e, some .gs, some (.mass .u), some (.mass .s), some .MH, some .WH, some .MW, some .SW, none]⟩
def dsds : Row := ⟨Cls.dsds, ⟨.standard, ![⟨.d, false⟩, ⟨.s, false⟩, ⟨.d, false⟩, ⟨.s, false⟩]⟩, [some .e, some .gs, some (.mass .d), some (.mass .s), some .MH, some .WH, some .MW, some .SW, none]⟩
def ucuc : Row := ⟨Cls.ucuc, ⟨.standard, ![⟨.u, false⟩, ⟨.c, false⟩, ⟨.u, false⟩, ⟨.c, false⟩]⟩, [some .e, some .gs, some (.mass .u), some (.mass .c), some .MH, some .WH, some .MW, some .SW, none]⟩
def usus : Row := ⟨Cls.usus, ⟨.standard, ![⟨.u, false⟩, ⟨.s, false⟩, ⟨.u, false⟩, ⟨.s, false⟩]⟩, [some .e, some .gs, some (.mass .u), some (.mass .s), some .MH, some .WH, some .MW, some .SW, none]⟩
def uudd : Row := ⟨Cls.uudd, ⟨.standard, ![⟨.u, false⟩, ⟨.u, true⟩, ⟨.d, false⟩, ⟨.d, true⟩]⟩, [some .e, some .gs, some (.mass .u), some (.mass .d), some .MH, some .WH, some .MW, some .WW, some .SW, none]⟩
def udud : Row := ⟨Cls.udud, ⟨.standard, ![⟨.u, false⟩, ⟨.d, false⟩, ⟨.u, false⟩, ⟨.d, false⟩]⟩, [some .e, some .gs, some (.mass .u), some (.mass .d), some .MH, some .WH, some .MW, some .WW, some .SW, none]⟩
def dddd : Row := ⟨Cls.dddd, ⟨.standard, ![⟨.d, false⟩, ⟨.d, true⟩, ⟨.d, false⟩, ⟨.d, true⟩]⟩, [some .e, some .gs, some (.mass .d), some .MH, some .WH, some .MW, some .SW, some .WZ]⟩
def uuuu : Row := ⟨Cls.uuuu, ⟨.standard, ![⟨.u, false⟩, ⟨.u, true⟩, ⟨.u, false⟩, ⟨.u, true⟩]⟩, [some .e, some .gs, some (.mass .u), some .MH, some .WH, some .MW, some .SW, none]⟩
def dddd2 : Row := ⟨Cls.dddd2, ⟨.standard, ![⟨.d, false⟩, ⟨.d, false⟩, ⟨.d, false⟩, ⟨.d, false⟩]⟩, [some .e, some .gs, some (.mass .d), some .MH, some .WH, some .MW, some .SW, none]⟩
def uuuu2 : Row := ⟨Cls.uuuu2, ⟨.standard, ![⟨.u, false⟩, ⟨.u, false⟩, ⟨.u, false⟩, ⟨.u, false⟩]⟩, [some .e, some .gs, some (.mass .u), some .MH, some .WH, some .MW, some .SW, none]⟩
end Rows

open Rows in
/-- classes for four fermions -/
def fourFermion : List Row := [eemm, emem, ddee, uuee, deed, ueeu, eeee, eeee2, eemmQED, eeeeQED, eenmnm, enmenm, eenene, enenee, ddnn, uunn, dnnd, unnu, nenenene, nenenene2, nenenmnm, nenmnenm, menn, mnen, udnl, ulnd, udtb, ubdt, ddss, uucc, uuss, dsds, ucuc, usus, uudd, udud, dddd, uuuu, dddd2, uuuu2]

end SM
end Spinas
