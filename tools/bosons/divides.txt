("AAWW", [("c", 0), ("c", 1)])
("AAdd", [("c", 0), ("c", 1)])
("AAee", [("c", 0), ("c", 1)])
("AAuu", [("c", 0), ("c", 1)])
("AWAW", [("c", 1), ("c", 0)])
("AWWh", [("c", 1), ("c", 0)])
("AWZW", [("c", 1), ("c", 0)])
("AWud", [])
("AZWW", [("c", 0), ("c", 1)])
("AZdd", [("c", 0), ("c", 1)])
("AZee", [("c", 0), ("c", 1)])
("AZuu", [("c", 0), ("c", 1)])
("AdZd", [("c", 1), ("c", 0)])
("AeZe", [("c", 1), ("c", 0)])
("AhWW", [("c", 1), ("c", 2)])
("AnWe", [("c", 0), ("c", 1)])
("AuZu", [("c", 1), ("c", 0)])
("WWWW", [("c", 0), ("c", 1), ("c", 4), ("c", 5), ("c", 2), ("c", 3)])
("WWWW2", [("c", 0), ("c", 1), ("c", 2), ("c", 3), ("c", 4), ("c", 5)])
("WdWd", [("c", 0), ("c", 1), ("r", 6), ("c", 4), ("c", 3)])
("WdZu", [("c", 1), ("c", 0), ("c", 2)])
("ZWWh", [("c", 2), ("c", 1), ("c", 0)])
("ZWZW", [("c", 1), ("c", 2), ("c", 0)])
("ZZWW", [("c", 0), ("c", 1), ("c", 2)])
("ZZZZ", [("c", 0), ("c", 1), ("c", 2)])
("ZhWW", [("c", 0), ("c", 1), ("c", 2)])
("ZnWe", [("c", 1), ("c", 2), ("c", 0)])
("dAAd", [("c", 1), ("c", 0)])
("dAdh", [("c", 0), ("c", 1)])
("dAgd", [("c", 1), ("c", 0)])
("dWgu", [("c", 0), ("c", 1)])
("dZZd", [("c", 2), ("c", 1), ("c", 0)])
("dZdh", [("c", 1), ("c", 0), ("c", 2)])
("ddAA", [("c", 0), ("c", 1)])
("ddAh", [("c", 0), ("c", 1)])
("ddWW", [("c", 0), ("c", 1), ("r", 6), ("c", 4), ("c", 3)])
("ddZZ", [("c", 0), ("c", 1), ("c", 2)])
("ddZh", [("c", 0), ("c", 1), ("c", 2)])
("dddd", [("c", 3), ("c", 4), ("c", 5), ("c", 0), ("c", 1), ("c", 2)])
("dddd2", [("c", 3), ("c", 4), ("c", 5), ("c", 0), ("c", 1), ("c", 2)])
("ddee", [("c", 0), ("c", 1), ("c", 2)])
("ddhh", [("c", 0), ("c", 1), ("c", 2)])
("ddnn", [("c", 0)])
("ddss", [("c", 0), ("c", 1), ("c", 2)])
("deed", [("c", 0), ("c", 1), ("c", 2)])
("dgdh", [("c", 0), ("c", 1)])
("dggd", [("r", 4), ("r", 3), ("r", 2)])
("dhdh", [("c", 0), ("c", 1), ("c", 2)])
("dnnd", [("c", 0)])
("dsds", [("c", 0), ("c", 1), ("c", 2)])
("eAAe", [("c", 0), ("c", 1)])
("eAeh", [("r", 3), ("c", 0), ("c", 1)])
("eWWe", [("c", 0), ("c", 1), ("c", 4), ("r", 4), ("c", 3)])
("eZZe", [("c", 2), ("c", 1), ("c", 0)])
("eZeh", [("c", 1), ("c", 0), ("c", 2)])
("eeAA", [("c", 0), ("c", 1)])
("eeAZ", [("r", 6)])
("eeAh", [("r", 3), ("c", 0), ("c", 1)])
("eeWW", [("c", 0), ("c", 2), ("r", 4), ("c", 4), ("c", 3)])
("eeZZ", [("c", 0), ("c", 1), ("c", 2)])
("eeZh", [("c", 0), ("c", 1), ("c", 2)])
("eeee", [("c", 0), ("c", 3), ("c", 1), ("c", 4), ("c", 2), ("c", 5)])
("eeee2", [("c", 0), ("c", 3), ("c", 1), ("c", 4), ("c", 2), ("c", 5)])
("eeeeQED", [("c", 0), ("c", 1)])
("eehh", [("c", 0), ("c", 1), ("c", 2)])
("eemm", [("c", 0), ("c", 1), ("c", 2)])
("eemmQED", [("c", 0)])
("eenene", [("c", 0), ("r", 6), ("r", 4), ("c", 1)])
("eenmnm", [("c", 0)])
("eheh", [("c", 0), ("c", 1), ("c", 2)])
("emem", [("c", 0), ("c", 1), ("c", 2)])
("enAW", [("c", 0), ("c", 1)])
("enWh", [("c", 0), ("c", 1)])
("enZW", [("c", 0), ("c", 1), ("c", 2)])
("enenee", [("c", 0), ("c", 1)])
("enmenm", [("c", 0)])
("gAdd", [("c", 0), ("c", 1)])
("gAuu", [("c", 0), ("c", 1)])
("gWud", [("c", 1), ("c", 2)])
("gZdd", [("c", 0), ("c", 1)])
("gZuu", [("c", 0), ("c", 1)])
("gdZd", [("c", 1), ("c", 0)])
("ggdd", [("r", 2), ("r", 3), ("r", 4)])
("gggg", [("r", 1), ("r", 2), ("r", 3)])
("gguu", [("r", 2), ("r", 3), ("r", 4)])
("guAu", [("c", 1), ("c", 0)])
("guZu", [("c", 1), ("c", 0)])
("gugu", [("r", 3), ("r", 4), ("r", 2)])
("hWWh", [("c", 2), ("c", 1), ("c", 0)])
("hZZh", [("c", 2), ("c", 1), ("c", 0)])
("hgdd", [("c", 0), ("c", 1)])
("hguu", [("c", 0), ("c", 1)])
("hhWW", [("c", 0), ("c", 1), ("c", 2)])
("hhZZ", [("c", 0), ("c", 1), ("c", 2)])
("hhhh", [("c", 0), ("c", 1), ("c", 2)])
("hnWe", [("c", 0), ("c", 1)])
("menn", [("r", 5), ("r", 3), ("c", 0)])
("mnen", [("c", 0)])
("nWWn", [("c", 0), ("c", 1)])
("nZZn", [("c", 0), ("c", 1)])
("nZnh", [("c", 0)])
("nenenene", [("c", 0), ("c", 1)])
("nenenene2", [("c", 0), ("c", 1)])
("nenenmnm", [("c", 0)])
("nenmnenm", [("c", 0)])
("nnWW", [("c", 0), ("c", 1)])
("nnZZ", [("c", 0), ("c", 1)])
("nnZh", [("c", 0)])
("uAAu", [("c", 0), ("c", 1)])
("uAuh", [("c", 0), ("c", 1)])
("uWWu", [("c", 0), ("c", 1), ("r", 6), ("c", 4), ("c", 3)])
("uZZu", [("c", 2), ("c", 1), ("c", 0)])
("uZuh", [("c", 1), ("c", 0), ("c", 2)])
("ubdt", [("c", 0)])
("ucuc", [("c", 0), ("c", 1), ("c", 2)])
("udAW", [])
("udWh", [("c", 0), ("c", 2), ("c", 1)])
("udZW", [("c", 0), ("c", 1), ("c", 2)])
("udnl", [("r", 6), ("r", 4), ("c", 0)])
("udtb", [("r", 7), ("r", 5), ("c", 0)])
("udud", [("c", 3), ("c", 0), ("c", 1), ("c", 2)])
("ueeu", [("c", 0), ("c", 1), ("c", 2)])
("uguh", [("c", 0), ("c", 1)])
("uhWd", [("c", 1), ("c", 2), ("c", 0)])
("uhuh", [("c", 0), ("c", 1), ("c", 2)])
("ulnd", [("c", 0)])
("unnu", [("c", 0)])
("usus", [("c", 0), ("c", 1), ("c", 2)])
("uuAA", [("c", 0), ("c", 1)])
("uuAh", [("c", 0), ("c", 1)])
("uuWW", [("c", 0), ("c", 1), ("r", 6), ("c", 4), ("c", 3)])
("uuZZ", [("c", 0), ("c", 1), ("c", 2)])
("uuZh", [("c", 0), ("c", 1), ("c", 2)])
("uucc", [("c", 0), ("c", 1), ("c", 2)])
("uudd", [("r", 10), ("r", 8), ("c", 3), ("c", 0), ("c", 1), ("c", 2)])
("uuee", [("c", 0), ("c", 1), ("c", 2)])
("uuhh", [("c", 0), ("c", 1), ("c", 2)])
("uunn", [("c", 0)])
("uuss", [("c", 0), ("c", 1), ("c", 2)])
("uuuu", [("c", 3), ("c", 4), ("c", 5), ("c", 0), ("c", 1), ("c", 2)])
("uuuu2", [("c", 3), ("c", 4), ("c", 5), ("c", 0), ("c", 1), ("c", 2)])
