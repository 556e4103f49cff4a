import Verif.Model.AssetJson

/-!
# `/repo/examples/assets/PolyStarTest.json`

Generated by `tools/assets.py`.  The fraction `n / 10 ^ d` is `x r n d`, where `r` says which number the parser
reads for it; objects have their entries in the order of the keys.  Large values are definitions of their own.
-/

namespace Velato.Assets

section
variable {F : Type} (r : Int → Nat → F)

/-- A value in `examples/assets/PolyStarTest.json`. -/
def polyStar1 : Json F :=
  .obj [("d", n 1), ("ir", .obj [("a", n 1), ("ix", n 6), ("k", .arr [.obj [("i", .obj [("x", .arr [x r 5 1]),
  ("y", .arr [n 1])]), ("o", .obj [("x", .arr [x r 5 1]), ("y", .arr [n 0])]), ("s", .arr [n 15]), ("t", n
  0)], .obj [("i", .obj [("x", .arr [x r 5 1]), ("y", .arr [n 1])]), ("o", .obj [("x", .arr [x r 5 1]), ("y",
  .arr [n 0])]), ("s", .arr [n 40]), ("t", n 60)], .obj [("s", .arr [n 15]), ("t", n 120)]])]), ("is", .obj
  [("a", n 1), ("ix", n 8), ("k", .arr [.obj [("i", .obj [("x", .arr [x r 5 1]), ("y", .arr [n 1])]), ("o",
  .obj [("x", .arr [x r 5 1]), ("y", .arr [n 0])]), ("s", .arr [n 0]), ("t", n 0)], .obj [("i", .obj [("x",
  .arr [x r 5 1]), ("y", .arr [n 1])]), ("o", .obj [("x", .arr [x r 5 1]), ("y", .arr [n 0])]), ("s", .arr [n
  80]), ("t", n 60)], .obj [("s", .arr [n 0]), ("t", n 120)]])]), ("nm", .str "PolyStar"), ("or", .obj [("a",
  n 1), ("ix", n 7), ("k", .arr [.obj [("i", .obj [("x", .arr [x r 5 1]), ("y", .arr [n 1])]), ("o", .obj
  [("x", .arr [x r 5 1]), ("y", .arr [n 0])]), ("s", .arr [n 30]), ("t", n 0)], .obj [("i", .obj [("x", .arr
  [x r 5 1]), ("y", .arr [n 1])]), ("o", .obj [("x", .arr [x r 5 1]), ("y", .arr [n 0])]), ("s", .arr [n 80]),
  ("t", n 60)], .obj [("s", .arr [n 30]), ("t", n 120)]])]), ("os", .obj [("a", n 1), ("ix", n 9), ("k", .arr
  [.obj [("i", .obj [("x", .arr [x r 5 1]), ("y", .arr [n 1])]), ("o", .obj [("x", .arr [x r 5 1]), ("y", .arr
  [n 0])]), ("s", .arr [n 0]), ("t", n 0)], .obj [("i", .obj [("x", .arr [x r 5 1]), ("y", .arr [n 1])]),
  ("o", .obj [("x", .arr [x r 5 1]), ("y", .arr [n 0])]), ("s", .arr [n 60]), ("t", n 60)], .obj [("s", .arr
  [n 0]), ("t", n 120)]])]), ("p", .obj [("a", n 0), ("ix", n 3), ("k", .arr [n 0, n 0])]), ("pt", .obj [("a",
  n 0), ("ix", n 5), ("k", n 5)]), ("r", .obj [("a", n 1), ("ix", n 4), ("k", .arr [.obj [("i", .obj [("x",
  .arr [x r 5 1]), ("y", .arr [n 1])]), ("o", .obj [("x", .arr [x r 5 1]), ("y", .arr [n 0])]), ("s", .arr [n
  0]), ("t", n 0)], .obj [("s", .arr [n 360]), ("t", n 120)]])]), ("sy", n 1), ("ty", .str "sr")]

/-- A value in `examples/assets/PolyStarTest.json`. -/
def polyStar2 : Json F :=
  .arr [.obj [("d", n 1), ("nm", .str "PolyStar"), ("or", .obj [("a", n 0), ("ix", n 7), ("k", n 70)]), ("os",
  .obj [("a", n 1), ("ix", n 9), ("k", .arr [.obj [("i", .obj [("x", .arr [x r 5 1]), ("y", .arr [n 1])]),
  ("o", .obj [("x", .arr [x r 5 1]), ("y", .arr [n 0])]), ("s", .arr [n 0]), ("t", n 0)], .obj [("i", .obj
  [("x", .arr [x r 5 1]), ("y", .arr [n 1])]), ("o", .obj [("x", .arr [x r 5 1]), ("y", .arr [n 0])]), ("s",
  .arr [n 100]), ("t", n 60)], .obj [("s", .arr [n 0]), ("t", n 120)]])]), ("p", .obj [("a", n 0), ("ix", n
  3), ("k", .arr [n 0, n 0])]), ("pt", .obj [("a", n 0), ("ix", n 5), ("k", n 6)]), ("r", .obj [("a", n 1),
  ("ix", n 4), ("k", .arr [.obj [("i", .obj [("x", .arr [x r 5 1]), ("y", .arr [n 1])]), ("o", .obj [("x",
  .arr [x r 5 1]), ("y", .arr [n 0])]), ("s", .arr [n 0]), ("t", n 0)], .obj [("s", .arr [m (-360)]), ("t", n
  120)]])]), ("sy", n 2), ("ty", .str "sr")], .obj [("c", .obj [("a", n 0), ("ix", n 4), ("k", .arr [x r 33 2,
  x r 6 1, x r 93 2, n 1])]), ("nm", .str "PolyFill"), ("o", .obj [("a", n 0), ("ix", n 5), ("k", n 100)]),
  ("r", n 1), ("ty", .str "fl")], .obj [("a", .obj [("a", n 0), ("ix", n 1), ("k", .arr [n 0, n 0])]), ("nm",
  .str "PolyGroupTransform"), ("o", .obj [("a", n 0), ("ix", n 7), ("k", n 100)]), ("p", .obj [("a", n 0),
  ("ix", n 2), ("k", .arr [n 0, n 0])]), ("r", .obj [("a", n 0), ("ix", n 6), ("k", n 0)]), ("s", .obj [("a",
  n 0), ("ix", n 3), ("k", .arr [n 100, n 100])]), ("sa", .obj [("a", n 0), ("ix", n 5), ("k", n 0)]), ("sk",
  .obj [("a", n 0), ("ix", n 4), ("k", n 0)]), ("ty", .str "tr")]]

/-- A value in `examples/assets/PolyStarTest.json`. -/
def polyStar3 : Json F :=
  .arr [.obj [("ao", n 0), ("bm", n 0), ("ddd", n 0), ("ind", n 1), ("ip", n 0), ("ks", .obj [("a", .obj
  [("a", n 0), ("ix", n 1), ("k", .arr [n 0, n 0, n 0])]), ("o", .obj [("a", n 0), ("ix", n 11), ("k", n
  100)]), ("p", .obj [("a", n 0), ("ix", n 2), ("k", .arr [n 128, n 128, n 0])]), ("r", .obj [("a", n 0),
  ("ix", n 10), ("k", n 0)]), ("s", .obj [("a", n 0), ("ix", n 6), ("k", .arr [n 100, n 100, n 100])])]),
  ("nm", .str "Star"), ("op", n 120), ("shapes", .arr [.obj [("it", .arr [polyStar1 r, .obj [("c", .obj [("a",
  n 0), ("ix", n 4), ("k", .arr [x r 95 2, x r 76 2, x r 2 1, n 1])]), ("nm", .str "StarFill"), ("o", .obj
  [("a", n 0), ("ix", n 5), ("k", n 100)]), ("r", n 1), ("ty", .str "fl")], .obj [("a", .obj [("a", n 0),
  ("ix", n 1), ("k", .arr [n 0, n 0])]), ("nm", .str "StarGroupTransform"), ("o", .obj [("a", n 0), ("ix", n
  7), ("k", n 100)]), ("p", .obj [("a", n 0), ("ix", n 2), ("k", .arr [n 0, n 0])]), ("r", .obj [("a", n 0),
  ("ix", n 6), ("k", n 0)]), ("s", .obj [("a", n 0), ("ix", n 3), ("k", .arr [n 100, n 100])]), ("sa", .obj
  [("a", n 0), ("ix", n 5), ("k", n 0)]), ("sk", .obj [("a", n 0), ("ix", n 4), ("k", n 0)]), ("ty", .str
  "tr")]]), ("nm", .str "StarGroup"), ("ty", .str "gr")]]), ("sr", n 1), ("st", n 0), ("ty", n 4)], .obj
  [("ao", n 0), ("bm", n 0), ("ddd", n 0), ("ind", n 2), ("ip", n 0), ("ks", .obj [("a", .obj [("a", n 0),
  ("ix", n 1), ("k", .arr [n 0, n 0, n 0])]), ("o", .obj [("a", n 0), ("ix", n 11), ("k", n 100)]), ("p", .obj
  [("a", n 0), ("ix", n 2), ("k", .arr [n 384, n 128, n 0])]), ("r", .obj [("a", n 0), ("ix", n 10), ("k", n
  0)]), ("s", .obj [("a", n 0), ("ix", n 6), ("k", .arr [n 100, n 100, n 100])])]), ("nm", .str "Polygon"),
  ("op", n 120), ("shapes", .arr [.obj [("it", polyStar2 r), ("nm", .str "PolyGroup"), ("ty", .str "gr")]]),
  ("sr", n 1), ("st", n 0), ("ty", n 4)]]

/-- `examples/assets/PolyStarTest.json`. -/
def polyStar : Json F :=
  .obj [("assets", .arr []), ("ddd", n 0), ("fr", n 60), ("h", n 256), ("ip", n 0), ("layers", polyStar3 r),
  ("markers", .arr []), ("nm", .str "PolyStarTest"), ("op", n 120), ("v", .str "5.7.0"), ("w", n 512)]

end
end Velato.Assets
