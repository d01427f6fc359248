40
[("eemm", [("c", 0), ("c", 1), ("c", 2)],
    [("r", 0), ("c", 0), ("r", 10), ("c", 1), ("r", 14), ("c", 2), ("r", 13), ("r", 11), ("r", 12)]),
  ("emem", [("c", 0), ("c", 1), ("c", 2)],
    [("r", 0), ("c", 0), ("r", 10), ("c", 1), ("r", 14), ("c", 2), ("r", 13), ("r", 11), ("r", 12)]),
  ("ddee", [("c", 0), ("c", 1), ("c", 2)],
    [("r", 0), ("c", 0), ("r", 10), ("c", 1), ("r", 16), ("c", 2), ("r", 15), ("r", 11), ("r", 13), ("r", 12),
      ("r", 14)]),
  ("uuee", [("c", 0), ("c", 1), ("c", 2)],
    [("r", 0), ("c", 0), ("r", 10), ("c", 1), ("r", 16), ("c", 2), ("r", 15), ("r", 11), ("r", 13), ("r", 12),
      ("r", 14)]),
  ("deed", [("c", 0), ("c", 1), ("c", 2)],
    [("r", 0), ("c", 0), ("r", 10), ("c", 1), ("r", 16), ("c", 2), ("r", 15), ("r", 11), ("r", 13), ("r", 12),
      ("r", 14)]),
  ("ueeu", [("c", 0), ("c", 1), ("c", 2)],
    [("r", 0), ("c", 0), ("r", 10), ("c", 1), ("r", 16), ("c", 2), ("r", 15), ("r", 11), ("r", 13), ("r", 12),
      ("r", 14)]),
  ("eeee", [("c", 0), ("c", 3), ("c", 1), ("c", 4), ("c", 2), ("c", 5)],
    [("r", 0), ("c", 0), ("c", 3), ("r", 9), ("c", 1), ("c", 4), ("r", 13), ("c", 2), ("r", 12), ("r", 10), ("r", 11),
      ("c", 5)]),
  ("eeee2", [("c", 0), ("c", 3), ("c", 1), ("c", 4), ("c", 2), ("c", 5)],
    [("r", 0), ("c", 0), ("c", 3), ("r", 9), ("c", 1), ("c", 4), ("r", 13), ("c", 2), ("r", 12), ("r", 10), ("r", 11),
      ("c", 5)]),
  ("eemmQED", [("c", 0)], [("r", 0), ("c", 0)]), ("eeeeQED", [("c", 0), ("c", 1)], [("r", 0), ("c", 0), ("c", 1)]),
  ("eenmnm", [("c", 0)], [("r", 9), ("r", 7), ("r", 8), ("c", 0)]),
  ("enmenm", [("c", 0)], [("r", 9), ("r", 7), ("r", 8), ("c", 0)]),
  ("eenene", [("c", 0), ("r", 6), ("r", 4), ("c", 1)],
    [("r", 10), ("r", 8), ("r", 9), ("c", 0), ("r", 0), ("r", 6), ("r", 4), ("r", 1), ("c", 1)]),
  ("enenee", [("c", 0), ("c", 1)], [("r", 10), ("r", 8), ("r", 9), ("c", 0), ("r", 11), ("r", 4), ("r", 1), ("c", 1)]),
  ("ddnn", [("c", 0)], [("r", 12), ("r", 8), ("r", 10), ("r", 9), ("c", 0)]),
  ("uunn", [("c", 0)], [("r", 12), ("r", 8), ("r", 10), ("r", 9), ("c", 0)]),
  ("dnnd", [("c", 0)], [("r", 12), ("r", 10), ("r", 8), ("r", 9), ("c", 0)]),
  ("unnu", [("c", 0)], [("r", 12), ("r", 8), ("r", 10), ("r", 9), ("c", 0)]),
  ("nenenene", [("c", 0), ("c", 1)], [("r", 6), ("c", 0), ("c", 1)]),
  ("nenenene2", [("c", 0), ("c", 1)], [("r", 6), ("c", 0), ("c", 1)]), ("nenenmnm", [("c", 0)], [("r", 6), ("c", 0)]),
  ("nenmnenm", [("c", 0)], [("r", 6), ("c", 0)]),
  ("menn", [("r", 5), ("r", 3), ("c", 0)], [("r", 0), ("r", 5), ("r", 3), ("r", 2), ("r", 1), ("c", 0)]),
  ("mnen", [("c", 0)], [("r", 6), ("r", 3), ("r", 2), ("r", 1), ("c", 0)]),
  ("udnl", [("r", 6), ("r", 4), ("c", 0)], [("r", 0), ("r", 6), ("r", 4), ("r", 3), ("r", 2), ("r", 1), ("c", 0)]),
  ("ulnd", [("c", 0)], [("r", 7), ("r", 4), ("r", 1), ("r", 3), ("r", 2), ("c", 0)]),
  ("udtb", [("r", 7), ("r", 5), ("c", 0)],
    [("r", 0), ("r", 7), ("r", 5), ("r", 2), ("r", 3), ("r", 1), ("r", 4), ("c", 0)]),
  ("ubdt", [("c", 0)], [("r", 8), ("r", 5), ("r", 2), ("r", 3), ("r", 1), ("r", 4), ("c", 0)]),
  ("ddss", [("c", 0), ("c", 1), ("c", 2)],
    [("r", 0), ("c", 0), ("r", 11), ("c", 1), ("r", 15), ("c", 2), ("r", 14), ("r", 12), ("r", 13), ("r", 1)]),
  ("uucc", [("c", 0), ("c", 1), ("c", 2)],
    [("r", 0), ("c", 0), ("r", 11), ("c", 1), ("r", 15), ("c", 2), ("r", 14), ("r", 12), ("r", 13), ("r", 1)]),
  ("uuss", [("c", 0), ("c", 1), ("c", 2)],
    [("r", 0), ("c", 0), ("r", 11), ("c", 1), ("r", 17), ("c", 2), ("r", 16), ("r", 12), ("r", 14), ("r", 13),
      ("r", 15), ("r", 1)]),
  ("dsds", [("c", 0), ("c", 1), ("c", 2)],
    [("r", 0), ("c", 0), ("r", 11), ("c", 1), ("r", 15), ("c", 2), ("r", 14), ("r", 12), ("r", 13), ("r", 1)]),
  ("ucuc", [("c", 0), ("c", 1), ("c", 2)],
    [("r", 0), ("c", 0), ("r", 11), ("c", 1), ("r", 15), ("c", 2), ("r", 14), ("r", 12), ("r", 13), ("r", 1)]),
  ("usus", [("c", 0), ("c", 1), ("c", 2)],
    [("r", 0), ("c", 0), ("r", 11), ("c", 1), ("r", 17), ("c", 2), ("r", 16), ("r", 12), ("r", 14), ("r", 13),
      ("r", 15), ("r", 1)]),
  ("uudd", [("r", 10), ("r", 8), ("c", 3), ("c", 0), ("c", 1), ("c", 2)],
    [("r", 0), ("r", 10), ("r", 8), ("r", 2), ("r", 3), ("c", 3), ("c", 0), ("r", 12), ("c", 1), ("r", 18), ("c", 2),
      ("r", 17), ("r", 13), ("r", 15), ("r", 14), ("r", 16), ("r", 1)]),
  ("udud", [("c", 3), ("c", 0), ("c", 1), ("c", 2)],
    [("r", 19), ("r", 8), ("r", 2), ("r", 3), ("c", 3), ("r", 0), ("c", 0), ("r", 12), ("c", 1), ("r", 18), ("c", 2),
      ("r", 17), ("r", 13), ("r", 15), ("r", 14), ("r", 16), ("r", 1)]),
  ("dddd", [("c", 3), ("c", 4), ("c", 5), ("c", 0), ("c", 1), ("c", 2)],
    [("r", 0), ("c", 3), ("r", 10), ("c", 4), ("r", 14), ("c", 5), ("r", 13), ("r", 11), ("r", 12), ("c", 0), ("c", 1),
      ("c", 2), ("r", 1)]),
  ("uuuu", [("c", 3), ("c", 4), ("c", 5), ("c", 0), ("c", 1), ("c", 2)],
    [("r", 0), ("c", 3), ("r", 10), ("c", 4), ("r", 14), ("c", 5), ("r", 13), ("r", 11), ("r", 12), ("c", 0), ("c", 1),
      ("c", 2), ("r", 1)]),
  ("dddd2", [("c", 3), ("c", 4), ("c", 5), ("c", 0), ("c", 1), ("c", 2)],
    [("r", 0), ("c", 3), ("r", 10), ("c", 4), ("r", 14), ("c", 5), ("r", 13), ("r", 11), ("r", 12), ("c", 0), ("c", 1),
      ("c", 2), ("r", 1)]),
  ("uuuu2", [("c", 3), ("c", 4), ("c", 5), ("c", 0), ("c", 1), ("c", 2)],
    [("r", 0), ("c", 3), ("r", 10), ("c", 4), ("r", 14), ("c", 5), ("r", 13), ("r", 11), ("r", 12), ("c", 0), ("c", 1),
      ("c", 2), ("r", 1)])]
[("eemm", [1, 2], [0, 3]), ("emem", [2, 3], [0, 1]), ("ddee", [1, 2], [0, 3]), ("uuee", [1, 2], [0, 3]),
  ("deed", [2, 3], [0, 1]), ("ueeu", [2, 3], [0, 1]), ("eeee", [1, 2], [0, 3]), ("eeee2", [2, 3], [0, 1]),
  ("eemmQED", [1, 2], [0, 3]), ("eeeeQED", [1, 2], [0, 3]), ("eenmnm", [1, 2], [0, 3]), ("enmenm", [2, 3], [0, 1]),
  ("eenene", [1, 2], [0, 3]), ("enenee", [2, 3], [0, 1]), ("ddnn", [1, 2], [0, 3]), ("uunn", [1, 2], [0, 3]),
  ("dnnd", [2, 3], [0, 1]), ("unnu", [2, 3], [0, 1]), ("nenenene", [1, 2], [0, 3]), ("nenenene2", [2, 3], [0, 1]),
  ("nenenmnm", [1, 2], [0, 3]), ("nenmnenm", [2, 3], [0, 1]), ("menn", [0, 2], [1, 3]), ("mnen", [2, 3], [0, 1]),
  ("udnl", [1, 2], [0, 3]), ("ulnd", [2, 3], [0, 1]), ("udtb", [1, 2], [0, 3]), ("ubdt", [2, 3], [0, 1]),
  ("ddss", [1, 2], [0, 3]), ("uucc", [1, 2], [0, 3]), ("uuss", [1, 2], [0, 3]), ("dsds", [2, 3], [0, 1]),
  ("ucuc", [2, 3], [0, 1]), ("usus", [2, 3], [0, 1]), ("uudd", [1, 2], [0, 3]), ("udud", [2, 3], [0, 1]),
  ("dddd", [1, 2], [0, 3]), ("uuuu", [1, 2], [0, 3]), ("dddd2", [2, 3], [0, 1]), ("uuuu2", [2, 3], [0, 1])]
