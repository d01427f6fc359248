/-! Generated by tools/sm/kinds.py: the kinds of the constructor parameters, by their names in SM/*.cpp. -/

namespace Spinas.SM

/-- what a parameter stands for -/
inductive Kind where
  /-- `echarge`, `gcharge`, `gscharge` -/
  | coupling
  /-- `mass...` -/
  | mass
  /-- `width...` -/
  | width
  /-- `sinW`, the sine of the weak mixing angle -/
  | sine
  /-- `vev`, the vacuum expectation value of the Higgs field -/
  | vev
  deriving DecidableEq, Repr

namespace Kind

/-- kinds of the constructor parameters, in order, and the classes with these -/
def table : List (List Kind × List String) := [
  -- echarge, massW, sinW, widthW: AAWW AWAW AWZW AZWW
  -- echarge, massW, sinW, widthZ: nZZn nenenene nenenene2 nenenmnm nenmnenm nnZZ
  ([.coupling, .mass, .sine, .width], ["AAWW", "AWAW", "AWZW", "AZWW", "nZZn", "nenenene", "nenenene2", "nenenmnm", "nenmnenm", "nnZZ"]),
  -- echarge, massd: AAdd dAAd ddAA
  -- echarge, masse: AAee eAAe eeAA eeeeQED
  -- echarge, massu: AAuu uAAu uuAA
  -- gcharge, massd: dggd ggdd
  -- gcharge, massu: gguu gugu
  ([.coupling, .mass], ["AAdd", "AAee", "AAuu", "dAAd", "ddAA", "dggd", "eAAe", "eeAA", "eeeeQED", "ggdd", "gguu", "gugu", "uAAu", "uuAA"]),
  -- echarge, massh, massW, sinW, widthW: AWWh AhWW
  -- echarge, masse, massW, sinW, widthW: AnWe ZnWe enAW enZW
  -- echarge, massd, massW, sinW, widthZ: ddnn dnnd
  -- echarge, masse, massW, sinW, widthZ: eenmnm enmenm nWWn nnWW
  -- echarge, massh, massW, sinW, widthZ: nZnh nnZh
  -- echarge, massu, massW, sinW, widthZ: unnu uunn
  ([.coupling, .mass, .mass, .sine, .width], ["AWWh", "AhWW", "AnWe", "ZnWe", "ddnn", "dnnd", "eenmnm", "enAW", "enZW", "enmenm", "nWWn", "nZnh", "nnWW", "nnZh", "unnu", "uunn"]),
  -- echarge, massu, massd, massW, sinW, widthW: AWud WdZu udAW udZW
  ([.coupling, .mass, .mass, .mass, .sine, .width], ["AWud", "WdZu", "udAW", "udZW"]),
  -- echarge, massd, massW, sinW: AZdd AdZd
  -- echarge, masse, massW, sinW: AZee AeZe eeAZ
  -- echarge, massu, massW, sinW: AZuu AuZu
  ([.coupling, .mass, .mass, .sine], ["AZdd", "AZee", "AZuu", "AdZd", "AeZe", "AuZu", "eeAZ"]),
  -- echarge, massh, widthh, massW, widthZ, sinW: WWWW WWWW2
  -- echarge, massh, widthh, massW, widthW, sinW: ZWZW ZZWW
  ([.coupling, .mass, .width, .mass, .width, .sine], ["WWWW", "WWWW2", "ZWZW", "ZZWW"]),
  -- echarge, massd, massu, massh, widthh, massW, sinW, widthZ: WdWd ddWW
  -- echarge, massd, masse, massh, widthh, massW, sinW, widthZ: ddee deed
  -- echarge, masse, massmu, massh, widthh, massW, sinW, widthZ: eemm emem
  -- echarge, massu, massd, massh, widthh, massW, sinW, widthZ: uWWu uuWW
  -- echarge, massu, masse, massh, widthh, massW, sinW, widthZ: ueeu uuee
  ([.coupling, .mass, .mass, .mass, .width, .mass, .sine, .width], ["WdWd", "ddWW", "ddee", "deed", "eemm", "emem", "uWWu", "ueeu", "uuWW", "uuee"]),
  -- echarge, massh, massW, sinW, widthW, widthZ: ZWWh ZhWW
  ([.coupling, .mass, .mass, .sine, .width, .width], ["ZWWh", "ZhWW"]),
  -- echarge, massh, widthh, massW, sinW: ZZZZ hhhh
  ([.coupling, .mass, .width, .mass, .sine], ["ZZZZ", "hhhh"]),
  -- echarge, massd, massh, massW, sinW: dAdh ddAh
  -- echarge, massu, massh, massW, sinW: uAuh uuAh
  ([.coupling, .mass, .mass, .mass, .sine], ["dAdh", "ddAh", "uAuh", "uuAh"]),
  -- echarge, gscharge, massd: dAgd gAdd
  -- echarge, gscharge, massu: gAuu guAu
  ([.coupling, .coupling, .mass], ["dAgd", "gAdd", "gAuu", "guAu"]),
  -- echarge, gscharge, massu, massd, massW, sinW: dWgu gWud
  -- echarge, gscharge, massd, massh, massW, sinW: dgdh hgdd
  -- echarge, gscharge, massu, massh, massW, sinW: hguu uguh
  ([.coupling, .coupling, .mass, .mass, .mass, .sine], ["dWgu", "dgdh", "gWud", "hgdd", "hguu", "uguh"]),
  -- echarge, massf, massh, widthh, massW, sinW, widthZ: dZZd ddZZ uZZu uuZZ
  -- echarge, massd, massh, widthh, massW, sinW, widthZ: dZdh ddZh
  -- echarge, masse, massh, widthh, massW, sinW, widthZ: eWWe eZZe eZeh eeWW eeZZ eeZh eeee eeee2
  -- echarge, massu, massh, widthh, massW, sinW, widthZ: uZuh uuZh
  ([.coupling, .mass, .mass, .width, .mass, .sine, .width], ["dZZd", "dZdh", "ddZZ", "ddZh", "eWWe", "eZZe", "eZeh", "eeWW", "eeZZ", "eeZh", "eeee", "eeee2", "uZZu", "uZuh", "uuZZ", "uuZh"]),
  -- echarge, gscharge, massd, massh, widthh, massW, sinW, widthZ: dddd dddd2
  -- echarge, gscharge, massu, massh, widthh, massW, sinW, widthZ: uuuu uuuu2
  ([.coupling, .coupling, .mass, .mass, .width, .mass, .sine, .width], ["dddd", "dddd2", "uuuu", "uuuu2"]),
  -- echarge, massd, massh, widthh, massW, sinW: ddhh dhdh
  -- echarge, masse, massh, widthh, massW, sinW: eehh eheh
  -- echarge, massu, massh, widthh, massW, sinW: uhuh uuhh
  ([.coupling, .mass, .mass, .width, .mass, .sine], ["ddhh", "dhdh", "eehh", "eheh", "uhuh", "uuhh"]),
  -- echarge, gscharge, massd, masss, massh, widthh, massW, sinW, widthZ: ddss dsds
  -- echarge, gscharge, massu, massc, massh, widthh, massW, sinW, widthZ: ucuc uucc
  -- echarge, gscharge, massu, masss, massh, widthh, massW, sinW, widthZ: usus uuss
  ([.coupling, .coupling, .mass, .mass, .mass, .width, .mass, .sine, .width], ["ddss", "dsds", "ucuc", "usus", "uucc", "uuss"]),
  -- echarge, masse, massh, vev: eAeh eeAh
  ([.coupling, .mass, .mass, .vev], ["eAeh", "eeAh"]),
  -- echarge, masse, massmu: eemmQED
  ([.coupling, .mass, .mass], ["eemmQED"]),
  -- echarge, masse, massW, widthW, sinW, widthZ: eenene enenee
  ([.coupling, .mass, .mass, .width, .sine, .width], ["eenene", "enenee"]),
  -- echarge, masse, massh, massW, widthW, sinW: enWh hnWe
  -- echarge, masse, massmu, massW, widthW, sinW: menn mnen
  ([.coupling, .mass, .mass, .mass, .width, .sine], ["enWh", "hnWe", "menn", "mnen"]),
  -- echarge, gscharge, massd, massW, sinW: gZdd gdZd
  -- echarge, gscharge, massu, massW, sinW: gZuu guZu
  ([.coupling, .coupling, .mass, .mass, .sine], ["gZdd", "gZuu", "gdZd", "guZu"]),
  -- gcharge: gggg
  ([.coupling], ["gggg"]),
  -- echarge, massh, widthh, massW, sinW, widthW: hWWh hhWW
  -- echarge, massh, widthh, massW, sinW, widthZ: hZZh hhZZ
  ([.coupling, .mass, .width, .mass, .sine, .width], ["hWWh", "hZZh", "hhWW", "hhZZ"]),
  -- echarge, massu, massd, masst, massb, massW, widthW, sinW: ubdt udtb
  ([.coupling, .mass, .mass, .mass, .mass, .mass, .width, .sine], ["ubdt", "udtb"]),
  -- echarge, massu, massd, massh, massW, widthW, sinW: udWh uhWd
  -- echarge, massu, massd, masstau, massW, widthW, sinW: udnl ulnd
  ([.coupling, .mass, .mass, .mass, .mass, .width, .sine], ["udWh", "udnl", "uhWd", "ulnd"]),
  -- echarge, gscharge, massu, massd, massh, widthh, massW, widthW, sinW, widthZ: udud uudd
  ([.coupling, .coupling, .mass, .mass, .mass, .width, .mass, .width, .sine, .width], ["udud", "uudd"])]

/-- the kinds of the constructor parameters of the class `name` -/
def ofClass (name : String) : List Kind := match table.find? fun x => x.2.contains name with
  | some x => x.1
  | none => []

end Kind
end Spinas.SM
