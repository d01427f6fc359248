import Verif.SM.Proc.G01
import Verif.SM.Proc.G02
import Verif.SM.Proc.G03
import Verif.SM.Proc.G04
import Verif.SM.Proc.G05
import Verif.SM.Proc.G06
import Verif.SM.Proc.G07
import Verif.SM.Proc.G08
import Verif.SM.Proc.G09
import Verif.SM.Proc.G10
import Verif.SM.Proc.G11
import Verif.SM.Proc.G12

/-! Generated by tools/sm/translate.py. -/

namespace Spinas.SM

/-- every class in SM/ -/
def all : List Proc := [Cls.AAWW, Cls.AAdd, Cls.AAee, Cls.AAuu, Cls.AWAW, Cls.AWWh, Cls.AWZW, Cls.AWud, Cls.AZWW, Cls.AZdd, Cls.AZee, Cls.AZuu, Cls.AdZd, Cls.AeZe, Cls.AhWW, Cls.AnWe, Cls.AuZu, Cls.WWWW, Cls.WWWW2, Cls.WdWd, Cls.WdZu, Cls.ZWWh, Cls.ZWZW, Cls.ZZWW, Cls.ZZZZ, Cls.ZhWW, Cls.ZnWe, Cls.dAAd, Cls.dAdh, Cls.dAgd, Cls.dWgu, Cls.dZZd, Cls.dZdh, Cls.ddAA, Cls.ddAh, Cls.ddWW, Cls.ddZZ, Cls.ddZh, Cls.dddd, Cls.dddd2, Cls.ddee, Cls.ddhh, Cls.ddnn, Cls.ddss, Cls.deed, Cls.dgdh, Cls.dggd, Cls.dhdh, Cls.dnnd, Cls.dsds, Cls.eAAe, Cls.eAeh, Cls.eWWe, Cls.eZZe, Cls.eZeh, Cls.eeAA, Cls.eeAZ, Cls.eeAh, Cls.eeWW, Cls.eeZZ, Cls.eeZh, Cls.eeee, Cls.eeee2, Cls.eeeeQED, Cls.eehh, Cls.eemm, Cls.eemmQED, Cls.eenene, Cls.eenmnm, Cls.eheh, Cls.emem, Cls.enAW, Cls.enWh, Cls.enZW, Cls.enenee, Cls.enmenm, Cls.gAdd, Cls.gAuu, Cls.gWud, Cls.gZdd, Cls.gZuu, Cls.gdZd, Cls.ggdd, Cls.gggg, Cls.gguu, Cls.guAu, Cls.guZu, Cls.gugu, Cls.hWWh, Cls.hZZh, Cls.hgdd, Cls.hguu, Cls.hhWW, Cls.hhZZ, Cls.hhhh, Cls.hnWe, Cls.menn, Cls.mnen, Cls.nWWn, Cls.nZZn, Cls.nZnh, Cls.nenenene, Cls.nenenene2, Cls.nenenmnm, Cls.nenmnenm, Cls.nnWW, Cls.nnZZ, Cls.nnZh, Cls.uAAu, Cls.uAuh, Cls.uWWu, Cls.uZZu, Cls.uZuh, Cls.ubdt, Cls.ucuc, Cls.udAW, Cls.udWh, Cls.udZW, Cls.udnl, Cls.udtb, Cls.udud, Cls.ueeu, Cls.uguh, Cls.uhWd, Cls.uhuh, Cls.ulnd, Cls.unnu, Cls.usus, Cls.uuAA, Cls.uuAh, Cls.uuWW, Cls.uuZZ, Cls.uuZh, Cls.uucc, Cls.uudd, Cls.uuee, Cls.uuhh, Cls.uunn, Cls.uuss, Cls.uuuu, Cls.uuuu2]

end Spinas.SM
