import Verif.Model.AssetJson

/-!
# `/repo/examples/assets/google_fonts/Tiger.json`

Generated by `tools/assets.py`.  The fraction `n / 10 ^ d` is `x r n d`, where `r` says which number the parser
reads for it; objects have their entries in the order of the keys.  Large values are definitions of their own.
-/

namespace Velato.Assets

section
variable {F : Type} (r : Int → Nat → F)

/-- A value in `examples/assets/google_fonts/Tiger.json`. -/
def tiger1 : Json F :=
  .arr [.obj [("i", .obj [("x", x r 833 3), ("y", x r 833 3)]), ("o", .obj [("x", x r 167 3), ("y", x r 167
  3)]), ("s", .arr [.obj [("c", .bool false), ("i", .arr [.arr [n 0, n 0], .arr [x r 22729 3, x r (-3398) 3],
  .arr [x r 11543 3, x r (-189) 3], .arr [x r 24229 3, x r (-2332) 3], .arr [x r 7956 3, x r (-333) 2], .arr
  [x r (-31643) 3, x r 7496 3], .arr [x r (-25592) 3, x r 1551 3], .arr [x r (-2092) 2, x r 471 2], .arr [x r
  (-32179) 3, x r 31989 3]]), ("o", .arr [.arr [x r (-16122) 3, x r 1602 2], .arr [x r (-17929) 3, x r 4479
  3], .arr [x r (-19022) 3, x r 311 3], .arr [x r (-20501) 3, x r 2089 3], .arr [x r (-5973) 3, x r 25 1],
  .arr [x r 31644 3, x r (-7496) 3], .arr [x r 25672 3, x r (-1556) 3], .arr [x r 20919 3, x r (-471) 2], .arr
  [n 0, n 0]]), ("v", .arr [.arr [x r 159409 3, x r (-7894) 2], .arr [x r 69103 3, x r 8922 3], .arr [x r
  (-25288) 3, x r 21552 3], .arr [x r (-106408) 3, x r 29268 3], .arr [x r (-152897) 3, x r 22061 3], .arr [x
  r (-99007) 3, x r 49248 3], .arr [x r 5925 3, x r 3407 2], .arr [x r 7757 2, x r 23395 3], .arr [x r 173463
  3, x r (-64658) 3]])]]), ("t", n 68)], .obj [("i", .obj [("x", n 0), ("y", n 1)]), ("o", .obj [("x", x r 167
  3), ("y", x r 167 3)]), ("s", .arr [.obj [("c", .bool false), ("i", .arr [.arr [n 0, n 0], .arr [x r 2211 2,
  x r (-6268) 3], .arr [x r 11424 3, x r (-1659) 3], .arr [x r 24229 3, x r (-2332) 3], .arr [x r 7956 3, x r
  (-333) 2], .arr [x r (-31643) 3, x r 7496 3], .arr [x r (-25186) 3, x r 4802 3], .arr [x r (-20148) 3, x r
  7339 3], .arr [x r (-32179) 3, x r 31989 3]]), ("o", .arr [.arr [x r (-16122) 3, x r 1602 2], .arr [x r
  (-17211) 3, x r 6729 3], .arr [x r (-18827) 3, x r 2734 3], .arr [x r (-20501) 3, x r 2089 3], .arr [x r
  (-5973) 3, x r 25 1], .arr [x r 31644 3, x r (-7496) 3], .arr [x r 25264 3, x r (-4817) 3], .arr [x r 20148
  3, x r (-7339) 3], .arr [n 0, n 0]]), ("v", .arr [.arr [x r 159409 3, x r (-7894) 2], .arr [x r 75275 3, x r
  (-1434) 2], .arr [x r (-29736) 3, x r 15222 3], .arr [x r (-105908) 3, x r 35268 3], .arr [x r (-152897) 3,
  x r 22061 3], .arr [x r (-99007) 3, x r 49248 3], .arr [x r 2819 3, x r 23658 3], .arr [x r 85518 3, x r
  (-1064) 3], .arr [x r 173463 3, x r (-64658) 3]])]]), ("t", n 77)], .obj [("i", .obj [("x", x r 667 3),
  ("y", n 1)]), ("o", .obj [("x", x r 333 3), ("y", n 0)]), ("s", .arr [.obj [("c", .bool false), ("i", .arr
  [.arr [n 0, n 0], .arr [x r 22948 3, x r (-1235) 3], .arr [x r 1151 2, x r 887 3], .arr [x r 24341 3, x r
  (-32) 3], .arr [x r 8228 3, x r (-2587) 3], .arr [x r (-32209) 3, x r 4474 3], .arr [x r (-25624) 3, x r
  (-884) 3], .arr [x r (-21271) 3, x r 2713 3], .arr [x r (-32179) 3, x r 31989 3]]), ("o", .arr [.arr [x r
  (-16122) 3, x r 1602 2], .arr [x r (-18272) 3, x r 2765 3], .arr [x r (-18966) 3, x r (-1488) 3], .arr [x r
  (-20607) 3, x r 142 3], .arr [x r (-6182) 3, x r 1924 3], .arr [x r 32211 3, x r (-4472) 3], .arr [x r 25704
  3, x r 877 3], .arr [x r 21271 3, x r (-2712) 3], .arr [n 0, n 0]]), ("v", .arr [.arr [x r 159409 3, x r
  (-5594) 2], .arr [x r 54967 3, x r 33181 3], .arr [x r (-40194) 3, x r 36834 3], .arr [x r (-12168) 2, x r
  36849 3], .arr [x r (-16728) 2, x r 25281 3], .arr [x r (-115634) 3, x r 51466 3], .arr [x r (-10304) 3, x r
  52246 3], .arr [x r 62029 3, x r 4839 2], .arr [x r 173463 3, x r (-41658) 3]])]]), ("t", n 84)], .obj
  [("i", .obj [("x", x r 833 3), ("y", x r 833 3)]), ("o", .obj [("x", x r 333 3), ("y", n 0)]), ("s", .arr
  [.obj [("c", .bool false), ("i", .arr [.arr [n 0, n 0], .arr [x r 22948 3, x r (-1235) 3], .arr [x r 1151 2,
  x r 887 3], .arr [x r 24341 3, x r (-32) 3], .arr [x r 8228 3, x r (-2587) 3], .arr [x r (-32209) 3, x r
  4474 3], .arr [x r (-25624) 3, x r (-884) 3], .arr [x r (-21271) 3, x r 2713 3], .arr [x r (-32179) 3, x r
  31989 3]]), ("o", .arr [.arr [x r (-16122) 3, x r 1602 2], .arr [x r (-18272) 3, x r 2765 3], .arr [x r
  (-18966) 3, x r (-1488) 3], .arr [x r (-20607) 3, x r 142 3], .arr [x r (-6182) 3, x r 1924 3], .arr [x r
  32211 3, x r (-4472) 3], .arr [x r 25704 3, x r 877 3], .arr [x r 21271 3, x r (-2712) 3], .arr [n 0, n
  0]]), ("v", .arr [.arr [x r 159409 3, x r (-5594) 2], .arr [x r 54967 3, x r 33181 3], .arr [x r (-40194) 3,
  x r 36834 3], .arr [x r (-12168) 2, x r 36849 3], .arr [x r (-16728) 2, x r 25281 3], .arr [x r (-115634) 3,
  x r 51466 3], .arr [x r (-10304) 3, x r 52246 3], .arr [x r 62029 3, x r 4839 2], .arr [x r 173463 3, x r
  (-41658) 3]])]]), ("t", n 246)], .obj [("s", .arr [.obj [("c", .bool false), ("i", .arr [.arr [n 0, n 0],
  .arr [x r 18835 3, x r (-13167) 3], .arr [x r 1025 2, x r (-5311) 3], .arr [x r 20653 3, x r (-12881) 3],
  .arr [x r 564 2, x r (-6526) 3], .arr [x r (-24991) 3, x r 20806 3], .arr [x r (-22222) 3, x r 12789 3],
  .arr [x r (-16631) 3, x r 13536 3], .arr [x r (-32179) 3, x r 31989 3]]), ("o", .arr [.arr [x r (-16122) 3,
  x r 1602 2], .arr [x r (-14056) 3, x r 11997 3], .arr [x r (-16892) 3, x r 8752 3], .arr [x r (-17424) 3, x
  r 11003 3], .arr [x r (-4234) 3, x r 4898 3], .arr [x r 24992 3, x r (-20807) 3], .arr [x r 22291 3, x r
  (-12829) 3], .arr [x r 16631 3, x r (-13536) 3], .arr [n 0, n 0]]), ("v", .arr [.arr [x r 159409 3, x r
  (-15594) 2], .arr [x r 113382 3, x r (-65934) 3], .arr [x r 345 1, x r (-12579) 3], .arr [x r (-3469) 2, x r
  30465 3], .arr [x r (-79522) 3, x r 44722 3], .arr [x r (-21837) 3, x r 39685 3], .arr [x r 68021 3, x r
  (-15275) 3], .arr [x r 12741 2, x r (-56747) 3], .arr [x r 173463 3, x r (-111658) 3]])]]), ("t", n 254)]]

/-- A value in `examples/assets/google_fonts/Tiger.json`. -/
def tiger2 : Json F :=
  .arr [.obj [("i", .obj [("x", x r 833 3), ("y", x r 833 3)]), ("o", .obj [("x", x r 167 3), ("y", x r 167
  3)]), ("s", .arr [.obj [("c", .bool false), ("i", .arr [.arr [n 0, n 0], .arr [x r 93522 3, x r (-28597) 3],
  .arr [n 0, n 0], .arr [x r 19337 3, x r 273 3], .arr [x r (-12623) 3, x r (-28668) 3], .arr [x r (-12023) 3,
  x r (-6982) 3], .arr [x r (-38375) 3, x r 8532 3], .arr [x r (-6854) 3, x r (-2744) 3], .arr [n 0, n 0]]),
  ("o", .arr [.arr [x r (-3166) 3, x r 2793 3], .arr [x r (-37669) 3, x r 13744 3], .arr [n 0, n 0], .arr [x r
  (-30141) 3, x r (-524) 3], .arr [x r 13821 3, x r 31389 3], .arr [x r 12087 3, x r 7019 3], .arr [x r 38296
  3, x r (-8514) 3], .arr [x r 6854 3, x r 2744 3], .arr [n 0, n 0]]), ("v", .arr [.arr [x r 111124 3, x r
  (-123678) 3], .arr [x r (-229) 2, x r (-38714) 3], .arr [x r (-97256) 3, x r (-16568) 3], .arr [x r
  (-127819) 3, x r (-22691) 3], .arr [x r (-16543) 2, x r 27677 3], .arr [x r (-117591) 3, x r 80476 3], .arr
  [x r (-41639) 3, x r 84149 3], .arr [x r 90076 3, x r 65366 3], .arr [x r 185724 3, x r (-24669) 3]])]]),
  ("t", n 68)], .obj [("i", .obj [("x", n 0), ("y", n 1)]), ("o", .obj [("x", x r 167 3), ("y", x r 167 3)]),
  ("s", .arr [.obj [("c", .bool false), ("i", .arr [.arr [n 0, n 0], .arr [x r 93522 3, x r (-28597) 3], .arr
  [n 0, n 0], .arr [x r 19337 3, x r 273 3], .arr [x r (-12623) 3, x r (-28668) 3], .arr [x r (-12023) 3, x r
  (-6982) 3], .arr [x r (-38375) 3, x r 8532 3], .arr [x r (-7148) 3, x r (-1847) 3], .arr [n 0, n 0]]), ("o",
  .arr [.arr [x r (-3166) 3, x r 2793 3], .arr [x r (-37669) 3, x r 13744 3], .arr [n 0, n 0], .arr [x r
  (-30141) 3, x r (-524) 3], .arr [x r 13821 3, x r 31389 3], .arr [x r 12087 3, x r 7019 3], .arr [x r 38296
  3, x r (-8514) 3], .arr [x r 7148 3, x r 1847 3], .arr [n 0, n 0]]), ("v", .arr [.arr [x r 111124 3, x r
  (-123678) 3], .arr [x r (-229) 2, x r (-38714) 3], .arr [x r (-97256) 3, x r (-16568) 3], .arr [x r
  (-127819) 3, x r (-22691) 3], .arr [x r (-16543) 2, x r 27677 3], .arr [x r (-117591) 3, x r 80476 3], .arr
  [x r (-41639) 3, x r 84149 3], .arr [x r 97615 3, x r 42052 3], .arr [x r 185724 3, x r (-24669) 3]])]]),
  ("t", n 77)], .obj [("i", .obj [("x", x r 833 3), ("y", x r 833 3)]), ("o", .obj [("x", x r 333 3), ("y", n
  0)]), ("s", .arr [.obj [("c", .bool false), ("i", .arr [.arr [n 0, n 0], .arr [x r 95806 3, x r (-19631) 3],
  .arr [n 0, n 0], .arr [x r 19225 3, x r 2099 3], .arr [x r (-9853) 3, x r (-29734) 3], .arr [x r (-11328) 3,
  x r (-8061) 3], .arr [x r (-39008) 3, x r 4876 3], .arr [x r (-6565) 3, x r (-3377) 3], .arr [n 0, n 0]]),
  ("o", .arr [.arr [x r (-3166) 3, x r 2793 3], .arr [x r (-38799) 3, x r 10123 3], .arr [n 0, n 0], .arr [x r
  (-29957) 3, x r (-337) 2], .arr [x r 10793 3, x r 32555 3], .arr [x r 1137 2, x r 813 2], .arr [x r 38929 3,
  x r (-4857) 3], .arr [x r 6564 3, x r 3379 3], .arr [n 0, n 0]]), ("v", .arr [.arr [x r 111124 3, x r
  (-100678) 3], .arr [x r (-7186) 3, x r (-22792) 3], .arr [x r (-10382) 2, x r (-972) 2], .arr [x r (-133668)
  3, x r (-18704) 3], .arr [x r (-17587) 2, x r 27884 3], .arr [x r (-133235) 3, x r 84968 3], .arr [x r
  (-5797) 2, x r 95802 3], .arr [x r 7493 2, x r 89551 3], .arr [x r 185723 3, x r (-1669) 3]])]]), ("t", n
  84)], .obj [("i", .obj [("x", x r 667 3), ("y", n 1)]), ("o", .obj [("x", x r 167 3), ("y", x r 167 3)]),
  ("s", .arr [.obj [("c", .bool false), ("i", .arr [.arr [n 0, n 0], .arr [x r 95806 3, x r (-19631) 3], .arr
  [n 0, n 0], .arr [x r 19225 3, x r 2099 3], .arr [x r (-9853) 3, x r (-29734) 3], .arr [x r (-11328) 3, x r
  (-8061) 3], .arr [x r (-39008) 3, x r 4876 3], .arr [x r (-6565) 3, x r (-3377) 3], .arr [n 0, n 0]]), ("o",
  .arr [.arr [x r (-3166) 3, x r 2793 3], .arr [x r (-38799) 3, x r 10123 3], .arr [n 0, n 0], .arr [x r
  (-29957) 3, x r (-337) 2], .arr [x r 10793 3, x r 32555 3], .arr [x r 1137 2, x r 813 2], .arr [x r 38929 3,
  x r (-4857) 3], .arr [x r 6564 3, x r 3379 3], .arr [n 0, n 0]]), ("v", .arr [.arr [x r 111124 3, x r
  (-110678) 3], .arr [x r (-7186) 3, x r (-22792) 3], .arr [x r (-10382) 2, x r (-972) 2], .arr [x r (-133668)
  3, x r (-18704) 3], .arr [x r (-17587) 2, x r 27884 3], .arr [x r (-133235) 3, x r 84968 3], .arr [x r
  (-5797) 2, x r 95802 3], .arr [x r 7493 2, x r 89551 3], .arr [x r 185723 3, x r (-1669) 3]])]]), ("t", n
  102)], .obj [("i", .obj [("x", x r 833 3), ("y", x r 833 3)]), ("o", .obj [("x", x r 333 3), ("y", n 0)]),
  ("s", .arr [.obj [("c", .bool false), ("i", .arr [.arr [n 0, n 0], .arr [x r 95806 3, x r (-19631) 3], .arr
  [n 0, n 0], .arr [x r 19225 3, x r 2099 3], .arr [x r (-9853) 3, x r (-29734) 3], .arr [x r (-11328) 3, x r
  (-8061) 3], .arr [x r (-39008) 3, x r 4876 3], .arr [x r (-6565) 3, x r (-3377) 3], .arr [n 0, n 0]]), ("o",
  .arr [.arr [x r (-3166) 3, x r 2793 3], .arr [x r (-38799) 3, x r 10123 3], .arr [n 0, n 0], .arr [x r
  (-29957) 3, x r (-337) 2], .arr [x r 10793 3, x r 32555 3], .arr [x r 1137 2, x r 813 2], .arr [x r 38929 3,
  x r (-4857) 3], .arr [x r 6564 3, x r 3379 3], .arr [n 0, n 0]]), ("v", .arr [.arr [x r 111124 3, x r
  (-110678) 3], .arr [x r (-7186) 3, x r (-22792) 3], .arr [x r (-10382) 2, x r (-972) 2], .arr [x r (-133668)
  3, x r (-18704) 3], .arr [x r (-17587) 2, x r 27884 3], .arr [x r (-133235) 3, x r 84968 3], .arr [x r
  (-5797) 2, x r 95802 3], .arr [x r 7493 2, x r 89551 3], .arr [x r 185723 3, x r (-1669) 3]])]]), ("t", n
  246)], .obj [("s", .arr [.obj [("c", .bool false), ("i", .arr [.arr [n 0, n 0], .arr [x r 70991 3, x r
  (-67264) 3], .arr [n 0, n 0], .arr [x r 17434 3, x r (-837) 2], .arr [x r (-24072) 3, x r (-20043) 3], .arr
  [x r (-13875) 3, x r (-895) 3], .arr [x r (-30556) 3, x r 24733 3], .arr [x r (-7359) 3, x r 597 3], .arr [n
  0, n 0]]), ("o", .arr [.arr [x r (-3166) 3, x r 2793 3], .arr [x r (-27602) 3, x r 29085 3], .arr [n 0, n
  0], .arr [x r (-27219) 3, x r 12958 3], .arr [x r 26357 3, x r 21946 3], .arr [x r 13949 3, x r 9 1], .arr
  [x r 30493 3, x r (-24682) 3], .arr [x r 7358 3, x r (-597) 3], .arr [n 0, n 0]]), ("v", .arr [.arr [x r
  131124 3, x r (-240678) 3], .arr [x r 10096 3, x r (-62525) 3], .arr [x r (-65062) 3, x r (-394) 3], .arr [x
  r (-95153) 3, x r 7739 3], .arr [x r (-106389) 3, x r 69587 3], .arr [x r (-40039) 3, x r 95548 3], .arr [x
  r 29597 3, x r 65002 3], .arr [x r 139154 3, x r (-10488) 3], .arr [x r 185723 3, x r (-71669) 3]])]]),
  ("t", n 254)]]

/-- A value in `examples/assets/google_fonts/Tiger.json`. -/
def tiger3 : Json F :=
  .arr [.obj [("i", .obj [("x", x r 833 3), ("y", x r 833 3)]), ("o", .obj [("x", x r 167 3), ("y", x r 167
  3)]), ("s", .arr [.obj [("c", .bool false), ("i", .arr [.arr [n 0, n 0], .arr [x r (-7562) 3, x r (-16267)
  3], .arr [x r (-4482) 3, x r (-6075) 3], .arr [x r (-19998) 3, x r (-12373) 3], .arr [x r (-967) 3, x r
  (-30805) 3], .arr [x r (-13951) 3, x r (-1613) 3], .arr [x r 8791 3, x r 5242 3], .arr [x r (-322) 3, x r
  28952 3], .arr [x r 5248 3, x r 5043 3], .arr [x r 121 2, x r 2822 3], .arr [x r 11879 3, x r 18305 3], .arr
  [x r 3629 3, x r 3227 3]]), ("o", .arr [.arr [n 0, n 0], .arr [x r 6951 3, x r 14953 3], .arr [x r 4482 3, x
  r 6075 3], .arr [x r (-564) 3, x r 1612 3], .arr [x r 807 3, x r 27097 3], .arr [x r 13952 3, x r 1612 3],
  .arr [x r (-879) 2, x r (-5162) 3], .arr [x r 404 3, x r (-37983) 3], .arr [x r (-28153) 3, x r (-27053) 3],
  .arr [x r (-1209) 3, x r (-2822) 3], .arr [x r (-11879) 3, x r (-18305) 3], .arr [n 0, n 0]]), ("v", .arr
  [.arr [x r (-44919) 3, x r (-1057) 1], .arr [x r (-37483) 3, x r (-60829) 3], .arr [x r (-19514) 3, x r
  (-41201) 3], .arr [x r 3829 3, x r 8986 3], .arr [x r (-13226) 3, x r 56491 3], .arr [x r 2508 2, x r 97056
  3], .arr [x r 36128 3, x r 92943 3], .arr [x r 4435 3, x r 55281 3], .arr [x r 22496 3, x r 9874 3], .arr [x
  r 16839 3, x r (-21913) 3], .arr [x r (-10403) 3, x r (-44071) 3], .arr [x r (-23871) 3, x r (-121668)
  3]])]]), ("t", n 68)], .obj [("i", .obj [("x", n 0), ("y", n 1)]), ("o", .obj [("x", x r 167 3), ("y", x r
  167 3)]), ("s", .arr [.obj [("c", .bool false), ("i", .arr [.arr [n 0, n 0], .arr [x r (-7562) 3, x r
  (-16267) 3], .arr [x r (-4482) 3, x r (-6075) 3], .arr [x r (-19998) 3, x r (-12373) 3], .arr [x r (-967) 3,
  x r (-30805) 3], .arr [x r (-13951) 3, x r (-1613) 3], .arr [x r 8791 3, x r 5242 3], .arr [x r (-322) 3, x
  r 28952 3], .arr [x r 5248 3, x r 5043 3], .arr [x r 121 2, x r 2822 3], .arr [x r 11879 3, x r 18305 3],
  .arr [x r 3629 3, x r 3227 3]]), ("o", .arr [.arr [n 0, n 0], .arr [x r 6951 3, x r 14953 3], .arr [x r 4482
  3, x r 6075 3], .arr [x r (-564) 3, x r 1612 3], .arr [x r 807 3, x r 27097 3], .arr [x r 13952 3, x r 1612
  3], .arr [x r (-879) 2, x r (-5162) 3], .arr [x r 404 3, x r (-37983) 3], .arr [x r (-28153) 3, x r (-27053)
  3], .arr [x r (-1209) 3, x r (-2822) 3], .arr [x r (-11879) 3, x r (-18305) 3], .arr [n 0, n 0]]), ("v",
  .arr [.arr [x r (-44919) 3, x r (-1057) 1], .arr [x r (-37483) 3, x r (-60829) 3], .arr [x r (-19514) 3, x r
  (-41201) 3], .arr [x r 3829 3, x r 8986 3], .arr [x r (-13226) 3, x r 56491 3], .arr [x r 2508 2, x r 97056
  3], .arr [x r 36128 3, x r 92943 3], .arr [x r 4435 3, x r 55281 3], .arr [x r 22496 3, x r 9874 3], .arr [x
  r 16839 3, x r (-21913) 3], .arr [x r (-10403) 3, x r (-44071) 3], .arr [x r (-23871) 3, x r (-121668)
  3]])]]), ("t", n 77)], .obj [("i", .obj [("x", x r 833 3), ("y", x r 833 3)]), ("o", .obj [("x", x r 333 3),
  ("y", n 0)]), ("s", .arr [.obj [("c", .bool false), ("i", .arr [.arr [n 0, n 0], .arr [x r (-7562) 3, x r
  (-16267) 3], .arr [x r (-4482) 3, x r (-6075) 3], .arr [x r (-19998) 3, x r (-12373) 3], .arr [x r (-967) 3,
  x r (-30805) 3], .arr [x r (-13951) 3, x r (-1613) 3], .arr [x r 8791 3, x r 5242 3], .arr [x r (-322) 3, x
  r 28952 3], .arr [x r 5248 3, x r 5043 3], .arr [x r 121 2, x r 2822 3], .arr [x r 11879 3, x r 18305 3],
  .arr [x r 3629 3, x r 3227 3]]), ("o", .arr [.arr [n 0, n 0], .arr [x r 6951 3, x r 14953 3], .arr [x r 4482
  3, x r 6075 3], .arr [x r (-564) 3, x r 1612 3], .arr [x r 807 3, x r 27097 3], .arr [x r 13952 3, x r 1612
  3], .arr [x r (-879) 2, x r (-5162) 3], .arr [x r 404 3, x r (-37983) 3], .arr [x r (-28153) 3, x r (-27053)
  3], .arr [x r (-1209) 3, x r (-2822) 3], .arr [x r (-11879) 3, x r (-18305) 3], .arr [n 0, n 0]]), ("v",
  .arr [.arr [x r (-44919) 3, x r (-827) 1], .arr [x r (-37483) 3, x r (-37829) 3], .arr [x r (-19514) 3, x r
  (-18201) 3], .arr [x r 3829 3, x r 8986 3], .arr [x r (-13226) 3, x r 56491 3], .arr [x r 2508 2, x r 97056
  3], .arr [x r 36128 3, x r 92943 3], .arr [x r 4435 3, x r 55281 3], .arr [x r 22496 3, x r 9874 3], .arr [x
  r 16839 3, x r (-21913) 3], .arr [x r (-10403) 3, x r (-44071) 3], .arr [x r (-23871) 3, x r (-98668)
  3]])]]), ("t", n 84)], .obj [("i", .obj [("x", x r 667 3), ("y", n 1)]), ("o", .obj [("x", x r 167 3), ("y",
  x r 167 3)]), ("s", .arr [.obj [("c", .bool false), ("i", .arr [.arr [n 0, n 0], .arr [x r (-3777) 3, x r
  (-28206) 3], .arr [x r (-6133) 3, x r (-8151) 3], .arr [x r (-2111) 3, x r (-8362) 3], .arr [x r (-967) 3, x
  r (-30805) 3], .arr [x r (-13951) 3, x r (-1613) 3], .arr [x r 8791 3, x r 5242 3], .arr [x r (-322) 3, x r
  28952 3], .arr [x r 4439 3, x r 5768 3], .arr [x r 5121 3, x r 10213 3], .arr [x r 2371 3, x r 15445 3],
  .arr [x r 3629 3, x r 3227 3]]), ("o", .arr [.arr [n 0, n 0], .arr [x r 1701 3, x r 12703 3], .arr [x r
  15482 3, x r 20575 3], .arr [x r (-564) 3, x r 1612 3], .arr [x r 807 3, x r 27097 3], .arr [x r 13952 3, x
  r 1612 3], .arr [x r (-879) 2, x r (-5162) 3], .arr [x r 404 3, x r (-37983) 3], .arr [x r (-15778) 3, x r
  (-205) 1], .arr [x r (-5121) 3, x r (-10213) 3], .arr [x r (-1832) 3, x r (-11931) 3], .arr [n 0, n 0]]),
  ("v", .arr [.arr [x r (-44919) 3, x r (-1027) 1], .arr [x r (-48733) 3, x r (-56329) 3], .arr [x r (-32764)
  3, x r (-25701) 3], .arr [x r 3829 3, x r 8986 3], .arr [x r (-13226) 3, x r 56491 3], .arr [x r 2508 2, x r
  97056 3], .arr [x r 36128 3, x r 92943 3], .arr [x r 4435 3, x r 55281 3], .arr [x r 22496 3, x r 9874 3],
  .arr [x r (-9411) 3, x r (-38663) 3], .arr [x r (-19403) 3, x r (-73321) 3], .arr [x r (-23871) 3, x r
  (-118668) 3]])]]), ("t", n 102)], .obj [("i", .obj [("x", x r 833 3), ("y", x r 833 3)]), ("o", .obj [("x",
  x r 333 3), ("y", n 0)]), ("s", .arr [.obj [("c", .bool false), ("i", .arr [.arr [n 0, n 0], .arr [x r
  (-3777) 3, x r (-28206) 3], .arr [x r (-6133) 3, x r (-8151) 3], .arr [x r (-2111) 3, x r (-8362) 3], .arr
  [x r (-967) 3, x r (-30805) 3], .arr [x r (-13951) 3, x r (-1613) 3], .arr [x r 8791 3, x r 5242 3], .arr [x
  r (-322) 3, x r 28952 3], .arr [x r 4439 3, x r 5768 3], .arr [x r 5121 3, x r 10213 3], .arr [x r 2371 3, x
  r 15445 3], .arr [x r 3629 3, x r 3227 3]]), ("o", .arr [.arr [n 0, n 0], .arr [x r 1701 3, x r 12703 3],
  .arr [x r 15482 3, x r 20575 3], .arr [x r (-564) 3, x r 1612 3], .arr [x r 807 3, x r 27097 3], .arr [x r
  13952 3, x r 1612 3], .arr [x r (-879) 2, x r (-5162) 3], .arr [x r 404 3, x r (-37983) 3], .arr [x r
  (-15778) 3, x r (-205) 1], .arr [x r (-5121) 3, x r (-10213) 3], .arr [x r (-1832) 3, x r (-11931) 3], .arr
  [n 0, n 0]]), ("v", .arr [.arr [x r (-44919) 3, x r (-1027) 1], .arr [x r (-48733) 3, x r (-56329) 3], .arr
  [x r (-32764) 3, x r (-25701) 3], .arr [x r 3829 3, x r 8986 3], .arr [x r (-13226) 3, x r 56491 3], .arr [x
  r 2508 2, x r 97056 3], .arr [x r 36128 3, x r 92943 3], .arr [x r 4435 3, x r 55281 3], .arr [x r 22496 3,
  x r 9874 3], .arr [x r (-9411) 3, x r (-38663) 3], .arr [x r (-19403) 3, x r (-73321) 3], .arr [x r (-23871)
  3, x r (-118668) 3]])]]), ("t", n 246)], .obj [("s", .arr [.obj [("c", .bool false), ("i", .arr [.arr [n 0,
  n 0], .arr [x r 616 3, x r (-26235) 3], .arr [x r (-6133) 3, x r (-8151) 3], .arr [x r (-2111) 3, x r
  (-8362) 3], .arr [x r (-967) 3, x r (-30805) 3], .arr [x r (-13951) 3, x r (-1613) 3], .arr [x r 8791 3, x r
  5242 3], .arr [x r (-322) 3, x r 28952 3], .arr [x r 4439 3, x r 5768 3], .arr [x r 5121 3, x r 10213 3],
  .arr [x r 2371 3, x r 15445 3], .arr [x r 6089 3, x r 28042 3]]), ("o", .arr [.arr [n 0, n 0], .arr [x r
  (-278) 3, x r 11816 3], .arr [x r 15482 3, x r 20575 3], .arr [x r (-564) 3, x r 1612 3], .arr [x r 807 3, x
  r 27097 3], .arr [x r 13952 3, x r 1612 3], .arr [x r (-879) 2, x r (-5162) 3], .arr [x r 404 3, x r
  (-37983) 3], .arr [x r (-15778) 3, x r (-205) 1], .arr [x r (-5121) 3, x r (-10213) 3], .arr [x r (-1832) 3,
  x r (-11931) 3], .arr [n 0, n 0]]), ("v", .arr [.arr [x r (-27905) 3, x r (-165666) 3], .arr [x r (-38801)
  3, x r (-124211) 3], .arr [x r (-32764) 3, x r (-35701) 3], .arr [x r 3829 3, x r 8986 3], .arr [x r
  (-13226) 3, x r 56491 3], .arr [x r 2508 2, x r 97056 3], .arr [x r 36128 3, x r 92943 3], .arr [x r 4435 3,
  x r 55281 3], .arr [x r 22496 3, x r 9874 3], .arr [x r (-10411) 3, x r (-39163) 3], .arr [x r (-26403) 3, x
  r (-78821) 3], .arr [x r (-37371) 3, x r (-141668) 3]])]]), ("t", n 254)]]

/-- A value in `examples/assets/google_fonts/Tiger.json`. -/
def tiger4 : Json F :=
  .arr [.obj [("i", .obj [("x", x r 833 3), ("y", x r 833 3)]), ("o", .obj [("x", x r 167 3), ("y", x r 167
  3)]), ("s", .arr [.obj [("c", .bool false), ("i", .arr [.arr [n 0, n 0], .arr [x r (-33548) 3, x r (-47903)
  3], .arr [x r 9516 3, x r (-55806) 3], .arr [x r 6302 3, x r (-6889) 3], .arr [x r (-29665) 3, x r (-28551)
  3], .arr [x r 52096 3, x r (-888) 3], .arr [x r 12016 3, x r 24758 3], .arr [n 0, n 0], .arr [n 0, n 0],
  .arr [n 0, n 0], .arr [n 0, n 0], .arr [n 0, n 0]]), ("o", .arr [.arr [x r 60111 3, x r (-129889) 3], .arr
  [x r 33467 3, x r 47822 3], .arr [x r (-9516) 3, x r 55807 3], .arr [x r (-6375) 3, x r 6857 3], .arr [x r
  11504 3, x r 11072 3], .arr [x r (-29677) 3, x r 483 3], .arr [x r (-11935) 3, x r (-24758) 3], .arr [n 0, n
  0], .arr [n 0, n 0], .arr [n 0, n 0], .arr [n 0, n 0], .arr [n 0, n 0]]), ("v", .arr [.arr [x r (-160567) 3,
  x r (-139722) 3], .arr [x r 126697 3, x r (-168851) 3], .arr [x r 151051 3, x r (-10805) 3], .arr [x r 95247
  3, x r 101464 3], .arr [x r 96881 3, x r 157501 3], .arr [x r 58472 3, x r 241289 3], .arr [x r (-1185) 2, x
  r 221852 3], .arr [x r (-13947) 3, x r 167419 3], .arr [x r (-12216) 3, x r 140685 3], .arr [x r (-27419) 3,
  x r 131872 3], .arr [x r (-41285) 3, x r 66758 3], .arr [x r (-50075) 3, x r 31677 3]])]]), ("t", n 68)],
  .obj [("i", .obj [("x", n 0), ("y", n 1)]), ("o", .obj [("x", x r 167 3), ("y", x r 167 3)]), ("s", .arr
  [.obj [("c", .bool false), ("i", .arr [.arr [n 0, n 0], .arr [x r (-33548) 3, x r (-47903) 3], .arr [x r
  9516 3, x r (-55806) 3], .arr [x r 11186 3, x r (-18519) 3], .arr [x r (-14448) 3, x r (-29556) 3], .arr [x
  r 52096 3, x r (-888) 3], .arr [x r 12016 3, x r 24758 3], .arr [n 0, n 0], .arr [n 0, n 0], .arr [n 0, n
  0], .arr [n 0, n 0], .arr [n 0, n 0]]), ("o", .arr [.arr [n 144, x r (-137333) 3], .arr [x r 33467 3, x r
  47822 3], .arr [x r (-9516) 3, x r 55807 3], .arr [x r (-7814) 3, x r 14481 3], .arr [x r 7012 3, x r 14344
  3], .arr [x r (-29677) 3, x r 483 3], .arr [x r (-11935) 3, x r (-24758) 3], .arr [n 0, n 0], .arr [n 0, n
  0], .arr [n 0, n 0], .arr [n 0, n 0], .arr [n 0, n 0]]), ("v", .arr [.arr [x r (-180567) 3, x r (-180722)
  3], .arr [x r 128697 3, x r (-197851) 3], .arr [x r 150051 3, x r (-23805) 3], .arr [x r 111247 3, x r 73464
  3], .arr [x r 104881 3, x r 158501 3], .arr [x r 58472 3, x r 241289 3], .arr [x r (-1185) 2, x r 221852 3],
  .arr [x r (-13947) 3, x r 167419 3], .arr [x r (-12216) 3, x r 140685 3], .arr [x r (-27419) 3, x r 131872
  3], .arr [x r (-41285) 3, x r 66757 3], .arr [x r (-50075) 3, x r 31677 3]])]]), ("t", n 77)], .obj [("i",
  .obj [("x", x r 833 3), ("y", x r 833 3)]), ("o", .obj [("x", x r 333 3), ("y", n 0)]), ("s", .arr [.obj
  [("c", .bool false), ("i", .arr [.arr [n 0, n 0], .arr [x r (-33548) 3, x r (-47903) 3], .arr [x r 9516 3, x
  r (-55806) 3], .arr [x r 6302 3, x r (-6889) 3], .arr [x r (-29665) 3, x r (-28551) 3], .arr [x r 52096 3, x
  r (-888) 3], .arr [x r 12016 3, x r 24758 3], .arr [n 0, n 0], .arr [n 0, n 0], .arr [n 0, n 0], .arr [n 0,
  n 0], .arr [n 0, n 0]]), ("o", .arr [.arr [x r 60111 3, x r (-129889) 3], .arr [x r 33467 3, x r 47822 3],
  .arr [x r (-9516) 3, x r 55807 3], .arr [x r (-6375) 3, x r 6857 3], .arr [x r 11504 3, x r 11072 3], .arr
  [x r (-29677) 3, x r 483 3], .arr [x r (-11935) 3, x r (-24758) 3], .arr [n 0, n 0], .arr [n 0, n 0], .arr
  [n 0, n 0], .arr [n 0, n 0], .arr [n 0, n 0]]), ("v", .arr [.arr [x r (-160567) 3, x r (-116722) 3], .arr [x
  r 126697 3, x r (-166851) 3], .arr [x r 151051 3, x r (-10805) 3], .arr [x r 95247 3, x r 101464 3], .arr [x
  r 96881 3, x r 157501 3], .arr [x r 58472 3, x r 241288 3], .arr [x r (-1185) 2, x r 221852 3], .arr [x r
  (-13947) 3, x r 167419 3], .arr [x r (-12216) 3, x r 140684 3], .arr [x r (-27419) 3, x r 131872 3], .arr [x
  r (-41285) 3, x r 89757 3], .arr [x r (-50075) 3, x r 54677 3]])]]), ("t", n 84)], .obj [("i", .obj [("x", x
  r 667 3), ("y", n 1)]), ("o", .obj [("x", x r 167 3), ("y", x r 167 3)]), ("s", .arr [.obj [("c", .bool
  false), ("i", .arr [.arr [n 0, n 0], .arr [x r (-33548) 3, x r (-47903) 3], .arr [x r 9516 3, x r (-55806)
  3], .arr [x r 9314 3, x r (-19481) 3], .arr [x r (-7052) 3, x r (-13444) 3], .arr [x r 52096 3, x r (-888)
  3], .arr [x r 12016 3, x r 24758 3], .arr [n 0, n 0], .arr [n 0, n 0], .arr [n 0, n 0], .arr [n 0, n 0],
  .arr [n 0, n 0]]), ("o", .arr [.arr [x r 60111 3, x r (-129889) 3], .arr [x r 33467 3, x r 47822 3], .arr [x
  r (-9516) 3, x r 55807 3], .arr [x r (-9314) 3, x r 19481 3], .arr [x r 7052 3, x r 13444 3], .arr [x r
  (-29677) 3, x r 483 3], .arr [x r (-11935) 3, x r (-24758) 3], .arr [n 0, n 0], .arr [n 0, n 0], .arr [n 0,
  n 0], .arr [n 0, n 0], .arr [n 0, n 0]]), ("v", .arr [.arr [x r (-160567) 3, x r (-136722) 3], .arr [x r
  126697 3, x r (-186851) 3], .arr [x r 151051 3, x r (-30805) 3], .arr [x r 106247 3, x r 93464 3], .arr [x r
  96881 3, x r 157501 3], .arr [x r 58472 3, x r 241289 3], .arr [x r (-1185) 2, x r 221852 3], .arr [x r
  (-13947) 3, x r 167419 3], .arr [x r (-4716) 3, x r 152685 3], .arr [x r (-31669) 3, x r 123622 3], .arr [x
  r (-52035) 3, x r 80508 3], .arr [x r (-52825) 3, x r 66427 3]])]]), ("t", n 102)], .obj [("i", .obj [("x",
  x r 667 3), ("y", n 1)]), ("o", .obj [("x", x r 333 3), ("y", n 0)]), ("s", .arr [.obj [("c", .bool false),
  ("i", .arr [.arr [n 0, n 0], .arr [x r (-33548) 3, x r (-47903) 3], .arr [x r 9516 3, x r (-55806) 3], .arr
  [x r 9314 3, x r (-19481) 3], .arr [x r (-7052) 3, x r (-13444) 3], .arr [x r 52096 3, x r (-888) 3], .arr
  [x r 12016 3, x r 24758 3], .arr [n 0, n 0], .arr [n 0, n 0], .arr [n 0, n 0], .arr [n 0, n 0], .arr [n 0, n
  0]]), ("o", .arr [.arr [x r 60111 3, x r (-129889) 3], .arr [x r 33467 3, x r 47822 3], .arr [x r (-9516) 3,
  x r 55807 3], .arr [x r (-9314) 3, x r 19481 3], .arr [x r 7052 3, x r 13444 3], .arr [x r (-29677) 3, x r
  483 3], .arr [x r (-11935) 3, x r (-24758) 3], .arr [n 0, n 0], .arr [n 0, n 0], .arr [n 0, n 0], .arr [n 0,
  n 0], .arr [n 0, n 0]]), ("v", .arr [.arr [x r (-160567) 3, x r (-136722) 3], .arr [x r 117013 3, x r
  (-186851) 3], .arr [x r 151051 3, x r (-30805) 3], .arr [x r 106247 3, x r 93464 3], .arr [x r 96881 3, x r
  157501 3], .arr [x r 58472 3, x r 241289 3], .arr [x r (-1185) 2, x r 221852 3], .arr [x r (-13947) 3, x r
  167419 3], .arr [x r (-4716) 3, x r 152685 3], .arr [x r (-31669) 3, x r 123622 3], .arr [x r (-52035) 3, x
  r 80508 3], .arr [x r (-52825) 3, x r 66427 3]])]]), ("t", n 116)], .obj [("i", .obj [("x", x r 667 3),
  ("y", n 1)]), ("o", .obj [("x", x r 333 3), ("y", n 0)]), ("s", .arr [.obj [("c", .bool false), ("i", .arr
  [.arr [n 0, n 0], .arr [x r (-33548) 3, x r (-47903) 3], .arr [x r 9516 3, x r (-55806) 3], .arr [x r 9314
  3, x r (-19481) 3], .arr [x r (-7052) 3, x r (-13444) 3], .arr [x r 52096 3, x r (-888) 3], .arr [x r 12016
  3, x r 24758 3], .arr [n 0, n 0], .arr [n 0, n 0], .arr [n 0, n 0], .arr [n 0, n 0], .arr [n 0, n 0]]),
  ("o", .arr [.arr [x r 60111 3, x r (-129889) 3], .arr [x r 33467 3, x r 47822 3], .arr [x r (-9516) 3, x r
  55807 3], .arr [x r (-9314) 3, x r 19481 3], .arr [x r 7052 3, x r 13444 3], .arr [x r (-29677) 3, x r 483
  3], .arr [x r (-11935) 3, x r (-24758) 3], .arr [n 0, n 0], .arr [n 0, n 0], .arr [n 0, n 0], .arr [n 0, n
  0], .arr [n 0, n 0]]), ("v", .arr [.arr [x r (-160567) 3, x r (-136722) 3], .arr [x r 117013 3, x r
  (-186851) 3], .arr [x r 151051 3, x r (-30805) 3], .arr [x r 106247 3, x r 93464 3], .arr [x r 96881 3, x r
  157501 3], .arr [x r 58472 3, x r 241289 3], .arr [x r (-1185) 2, x r 221852 3], .arr [x r (-13947) 3, x r
  167419 3], .arr [x r (-4716) 3, x r 152685 3], .arr [x r (-31669) 3, x r 123622 3], .arr [x r (-52035) 3, x
  r 80508 3], .arr [x r (-52825) 3, x r 66427 3]])]]), ("t", n 140)], .obj [("i", .obj [("x", x r 667 3),
  ("y", n 1)]), ("o", .obj [("x", x r 333 3), ("y", n 0)]), ("s", .arr [.obj [("c", .bool false), ("i", .arr
  [.arr [n 0, n 0], .arr [x r (-33548) 3, x r (-47903) 3], .arr [x r 9516 3, x r (-55806) 3], .arr [x r 9314
  3, x r (-19481) 3], .arr [x r (-7052) 3, x r (-13444) 3], .arr [x r 52096 3, x r (-888) 3], .arr [x r 12016
  3, x r 24758 3], .arr [n 0, n 0], .arr [n 0, n 0], .arr [n 0, n 0], .arr [n 0, n 0], .arr [n 0, n 0]]),
  ("o", .arr [.arr [x r 60111 3, x r (-129889) 3], .arr [x r 33467 3, x r 47822 3], .arr [x r (-9516) 3, x r
  55807 3], .arr [x r (-9314) 3, x r 19481 3], .arr [x r 7052 3, x r 13444 3], .arr [x r (-29677) 3, x r 483
  3], .arr [x r (-11935) 3, x r (-24758) 3], .arr [n 0, n 0], .arr [n 0, n 0], .arr [n 0, n 0], .arr [n 0, n
  0], .arr [n 0, n 0]]), ("v", .arr [.arr [x r (-160567) 3, x r (-136722) 3], .arr [x r 137796 3, x r
  (-186851) 3], .arr [x r 151051 3, x r (-30805) 3], .arr [x r 106247 3, x r 93464 3], .arr [x r 96881 3, x r
  157501 3], .arr [x r 58472 3, x r 241289 3], .arr [x r (-1185) 2, x r 221852 3], .arr [x r (-13947) 3, x r
  167419 3], .arr [x r (-4716) 3, x r 152685 3], .arr [x r (-31669) 3, x r 123622 3], .arr [x r (-52035) 3, x
  r 80508 3], .arr [x r (-52825) 3, x r 66427 3]])]]), ("t", n 180)], .obj [("i", .obj [("x", x r 667 3),
  ("y", n 1)]), ("o", .obj [("x", x r 333 3), ("y", n 0)]), ("s", .arr [.obj [("c", .bool false), ("i", .arr
  [.arr [n 0, n 0], .arr [x r (-33548) 3, x r (-47903) 3], .arr [x r 9516 3, x r (-55806) 3], .arr [x r 9314
  3, x r (-19481) 3], .arr [x r (-7052) 3, x r (-13444) 3], .arr [x r 52096 3, x r (-888) 3], .arr [x r 12016
  3, x r 24758 3], .arr [n 0, n 0], .arr [n 0, n 0], .arr [n 0, n 0], .arr [n 0, n 0], .arr [n 0, n 0]]),
  ("o", .arr [.arr [x r 60111 3, x r (-129889) 3], .arr [x r 33467 3, x r 47822 3], .arr [x r (-9516) 3, x r
  55807 3], .arr [x r (-9314) 3, x r 19481 3], .arr [x r 7052 3, x r 13444 3], .arr [x r (-29677) 3, x r 483
  3], .arr [x r (-11935) 3, x r (-24758) 3], .arr [n 0, n 0], .arr [n 0, n 0], .arr [n 0, n 0], .arr [n 0, n
  0], .arr [n 0, n 0]]), ("v", .arr [.arr [x r (-160567) 3, x r (-136722) 3], .arr [x r 137796 3, x r
  (-186851) 3], .arr [x r 151051 3, x r (-30805) 3], .arr [x r 106247 3, x r 93464 3], .arr [x r 96881 3, x r
  157501 3], .arr [x r 58472 3, x r 241289 3], .arr [x r (-1185) 2, x r 221852 3], .arr [x r (-13947) 3, x r
  167419 3], .arr [x r (-4716) 3, x r 152685 3], .arr [x r (-31669) 3, x r 123622 3], .arr [x r (-52035) 3, x
  r 80508 3], .arr [x r (-52825) 3, x r 66427 3]])]]), ("t", n 196)], .obj [("i", .obj [("x", x r 667 3),
  ("y", n 1)]), ("o", .obj [("x", x r 333 3), ("y", n 0)]), ("s", .arr [.obj [("c", .bool false), ("i", .arr
  [.arr [n 0, n 0], .arr [x r (-33548) 3, x r (-47903) 3], .arr [x r 9516 3, x r (-55806) 3], .arr [x r 9314
  3, x r (-19481) 3], .arr [x r (-7052) 3, x r (-13444) 3], .arr [x r 52096 3, x r (-888) 3], .arr [x r 12016
  3, x r 24758 3], .arr [n 0, n 0], .arr [n 0, n 0], .arr [n 0, n 0], .arr [n 0, n 0], .arr [n 0, n 0]]),
  ("o", .arr [.arr [x r 60111 3, x r (-129889) 3], .arr [x r 33467 3, x r 47822 3], .arr [x r (-9516) 3, x r
  55807 3], .arr [x r (-9314) 3, x r 19481 3], .arr [x r 7052 3, x r 13444 3], .arr [x r (-29677) 3, x r 483
  3], .arr [x r (-11935) 3, x r (-24758) 3], .arr [n 0, n 0], .arr [n 0, n 0], .arr [n 0, n 0], .arr [n 0, n
  0], .arr [n 0, n 0]]), ("v", .arr [.arr [x r (-160567) 3, x r (-136722) 3], .arr [x r 117013 3, x r
  (-186851) 3], .arr [x r 151051 3, x r (-30805) 3], .arr [x r 106247 3, x r 93464 3], .arr [x r 96881 3, x r
  157501 3], .arr [x r 58472 3, x r 241289 3], .arr [x r (-1185) 2, x r 221852 3], .arr [x r (-13947) 3, x r
  167419 3], .arr [x r (-4716) 3, x r 152685 3], .arr [x r (-31669) 3, x r 123622 3], .arr [x r (-52035) 3, x
  r 80508 3], .arr [x r (-52825) 3, x r 66427 3]])]]), ("t", n 236)], .obj [("i", .obj [("x", x r 833 3),
  ("y", x r 833 3)]), ("o", .obj [("x", x r 333 3), ("y", n 0)]), ("s", .arr [.obj [("c", .bool false), ("i",
  .arr [.arr [n 0, n 0], .arr [x r (-33548) 3, x r (-47903) 3], .arr [x r 9516 3, x r (-55806) 3], .arr [x r
  9314 3, x r (-19481) 3], .arr [x r (-7052) 3, x r (-13444) 3], .arr [x r 52096 3, x r (-888) 3], .arr [x r
  12016 3, x r 24758 3], .arr [n 0, n 0], .arr [n 0, n 0], .arr [n 0, n 0], .arr [n 0, n 0], .arr [n 0, n
  0]]), ("o", .arr [.arr [x r 60111 3, x r (-129889) 3], .arr [x r 33467 3, x r 47822 3], .arr [x r (-9516) 3,
  x r 55807 3], .arr [x r (-9314) 3, x r 19481 3], .arr [x r 7052 3, x r 13444 3], .arr [x r (-29677) 3, x r
  483 3], .arr [x r (-11935) 3, x r (-24758) 3], .arr [n 0, n 0], .arr [n 0, n 0], .arr [n 0, n 0], .arr [n 0,
  n 0], .arr [n 0, n 0]]), ("v", .arr [.arr [x r (-160567) 3, x r (-136722) 3], .arr [x r 117013 3, x r
  (-186851) 3], .arr [x r 151051 3, x r (-30805) 3], .arr [x r 106247 3, x r 93464 3], .arr [x r 96881 3, x r
  157501 3], .arr [x r 58472 3, x r 241289 3], .arr [x r (-1185) 2, x r 221852 3], .arr [x r (-13947) 3, x r
  167419 3], .arr [x r (-4716) 3, x r 152685 3], .arr [x r (-31669) 3, x r 123622 3], .arr [x r (-52035) 3, x
  r 80508 3], .arr [x r (-52825) 3, x r 66427 3]])]]), ("t", n 246)], .obj [("i", .obj [("x", x r 833 3),
  ("y", x r 833 3)]), ("o", .obj [("x", x r 167 3), ("y", x r 167 3)]), ("s", .arr [.obj [("c", .bool false),
  ("i", .arr [.arr [n 0, n 0], .arr [x r (-33548) 3, x r (-47903) 3], .arr [x r 9516 3, x r (-55806) 3], .arr
  [x r 9314 3, x r (-19481) 3], .arr [x r (-7052) 3, x r (-13444) 3], .arr [x r 52096 3, x r (-888) 3], .arr
  [x r 12016 3, x r 24758 3], .arr [n 0, n 0], .arr [n 0, n 0], .arr [n 0, n 0], .arr [n 0, n 0], .arr [n 0, n
  0]]), ("o", .arr [.arr [x r 89398 3, x r (-120711) 3], .arr [x r 33467 3, x r 47822 3], .arr [x r (-9516) 3,
  x r 55807 3], .arr [x r (-9314) 3, x r 19481 3], .arr [x r 7052 3, x r 13444 3], .arr [x r (-29677) 3, x r
  483 3], .arr [x r (-11935) 3, x r (-24758) 3], .arr [n 0, n 0], .arr [n 0, n 0], .arr [n 0, n 0], .arr [n 0,
  n 0], .arr [n 0, n 0]]), ("v", .arr [.arr [x r (-153671) 3, x r (-154937) 3], .arr [x r 121141 3, x r
  (-187238) 3], .arr [x r 151051 3, x r (-30805) 3], .arr [x r 106247 3, x r 93464 3], .arr [x r 96881 3, x r
  157501 3], .arr [x r 58472 3, x r 241288 3], .arr [x r (-1185) 2, x r 221852 3], .arr [x r (-13947) 3, x r
  167419 3], .arr [x r (-4716) 3, x r 152685 3], .arr [x r (-31669) 3, x r 122219 3], .arr [x r (-51806) 3, x
  r 79024 3], .arr [x r (-52291) 3, x r 65107 3]])]]), ("t", n 248)], .obj [("i", .obj [("x", x r 833 3),
  ("y", x r 833 3)]), ("o", .obj [("x", x r 167 3), ("y", x r 167 3)]), ("s", .arr [.obj [("c", .bool false),
  ("i", .arr [.arr [n 0, n 0], .arr [x r (-33548) 3, x r (-47903) 3], .arr [x r 9516 3, x r (-55806) 3], .arr
  [x r 9314 3, x r (-19481) 3], .arr [x r (-7052) 3, x r (-13444) 3], .arr [x r 52096 3, x r (-888) 3], .arr
  [x r 12016 3, x r 24758 3], .arr [n 0, n 0], .arr [n 0, n 0], .arr [n 0, n 0], .arr [n 0, n 0], .arr [n 0, n
  0]]), ("o", .arr [.arr [x r 111576 3, x r (-11376) 2], .arr [x r 33467 3, x r 47822 3], .arr [x r (-9516) 3,
  x r 55807 3], .arr [x r (-9314) 3, x r 19481 3], .arr [x r 7052 3, x r 13444 3], .arr [x r (-29677) 3, x r
  483 3], .arr [x r (-11935) 3, x r (-24758) 3], .arr [n 0, n 0], .arr [n 0, n 0], .arr [n 0, n 0], .arr [n 0,
  n 0], .arr [n 0, n 0]]), ("v", .arr [.arr [x r (-148449) 3, x r (-167304) 3], .arr [x r 124268 3, x r
  (-187531) 3], .arr [x r 151051 3, x r (-30805) 3], .arr [x r 106247 3, x r 93464 3], .arr [x r 96881 3, x r
  157501 3], .arr [x r 58472 3, x r 241289 3], .arr [x r (-1185) 2, x r 221852 3], .arr [x r (-13947) 3, x r
  167419 3], .arr [x r (-4716) 3, x r 152685 3], .arr [x r (-31669) 3, x r 121157 3], .arr [x r (-51633) 3, x
  r 779 1], .arr [x r (-51887) 3, x r 64108 3]])]]), ("t", n 249)], .obj [("i", .obj [("x", x r 833 3), ("y",
  x r 833 3)]), ("o", .obj [("x", x r 167 3), ("y", x r 167 3)]), ("s", .arr [.obj [("c", .bool false), ("i",
  .arr [.arr [n 0, n 0], .arr [x r (-33548) 3, x r (-47903) 3], .arr [x r 9516 3, x r (-55806) 3], .arr [x r
  9314 3, x r (-19481) 3], .arr [x r (-7052) 3, x r (-13444) 3], .arr [x r 52096 3, x r (-888) 3], .arr [x r
  12016 3, x r 24758 3], .arr [n 0, n 0], .arr [n 0, n 0], .arr [n 0, n 0], .arr [n 0, n 0], .arr [n 0, n
  0]]), ("o", .arr [.arr [x r 135903 3, x r (-106136) 3], .arr [x r 33467 3, x r 47822 3], .arr [x r (-9516)
  3, x r 55807 3], .arr [x r (-9314) 3, x r 19481 3], .arr [x r 7052 3, x r 13444 3], .arr [x r (-29677) 3, x
  r 483 3], .arr [x r (-11935) 3, x r (-24758) 3], .arr [n 0, n 0], .arr [n 0, n 0], .arr [n 0, n 0], .arr [n
  0, n 0], .arr [n 0, n 0]]), ("v", .arr [.arr [x r (-14272) 2, x r (-179919) 3], .arr [x r 127697 3, x r
  (-187852) 3], .arr [x r 151051 3, x r (-30805) 3], .arr [x r 106247 3, x r 93464 3], .arr [x r 96881 3, x r
  157501 3], .arr [x r 58472 3, x r 241289 3], .arr [x r (-1185) 2, x r 221853 3], .arr [x r (-13947) 3, x r
  167419 3], .arr [x r (-4716) 3, x r 152685 3], .arr [x r (-31669) 3, x r 119992 3], .arr [x r (-51443) 3, x
  r 76668 3], .arr [x r (-51443) 3, x r 63011 3]])]]), ("t", n 250)], .obj [("i", .obj [("x", x r 833 3),
  ("y", x r 833 3)]), ("o", .obj [("x", x r 167 3), ("y", x r 167 3)]), ("s", .arr [.obj [("c", .bool false),
  ("i", .arr [.arr [n 0, n 0], .arr [x r (-33548) 3, x r (-47903) 3], .arr [x r 9516 3, x r (-55806) 3], .arr
  [x r 9314 3, x r (-19481) 3], .arr [x r (-7052) 3, x r (-13444) 3], .arr [x r 52096 3, x r (-888) 3], .arr
  [x r 12016 3, x r 24758 3], .arr [n 0, n 0], .arr [n 0, n 0], .arr [n 0, n 0], .arr [n 0, n 0], .arr [n 0, n
  0]]), ("o", .arr [.arr [x r 138677 3, x r (-103935) 3], .arr [x r 33467 3, x r 47822 3], .arr [x r (-9516)
  3, x r 55807 3], .arr [x r (-9314) 3, x r 19481 3], .arr [x r 7052 3, x r 13444 3], .arr [x r (-29677) 3, x
  r 483 3], .arr [x r (-11935) 3, x r (-24758) 3], .arr [n 0, n 0], .arr [n 0, n 0], .arr [n 0, n 0], .arr [n
  0, n 0], .arr [n 0, n 0]]), ("v", .arr [.arr [x r (-14987) 2, x r (-191369) 3], .arr [x r 127447 3, x r
  (-187601) 3], .arr [x r 151051 3, x r (-30805) 3], .arr [x r 106247 3, x r 93464 3], .arr [x r 96881 3, x r
  157501 3], .arr [x r 58472 3, x r 241289 3], .arr [x r (-1185) 2, x r 221852 3], .arr [x r (-13947) 3, x r
  167419 3], .arr [x r (-4716) 3, x r 152685 3], .arr [x r (-31669) 3, x r 1184 1], .arr [x r (-51184) 3, x r
  74983 3], .arr [x r (-50837) 3, x r 61512 3]])]]), ("t", n 251)], .obj [("i", .obj [("x", x r 833 3), ("y",
  x r 833 3)]), ("o", .obj [("x", x r 167 3), ("y", x r 167 3)]), ("s", .arr [.obj [("c", .bool false), ("i",
  .arr [.arr [n 0, n 0], .arr [x r (-33548) 3, x r (-47903) 3], .arr [x r 9516 3, x r (-55806) 3], .arr [x r
  9314 3, x r (-19481) 3], .arr [x r (-7052) 3, x r (-13444) 3], .arr [x r 52096 3, x r (-888) 3], .arr [x r
  12016 3, x r 24758 3], .arr [n 0, n 0], .arr [n 0, n 0], .arr [n 0, n 0], .arr [n 0, n 0], .arr [n 0, n
  0]]), ("o", .arr [.arr [x r 141452 3, x r (-101734) 3], .arr [x r 33467 3, x r 47822 3], .arr [x r (-9516)
  3, x r 55807 3], .arr [x r (-9314) 3, x r 19481 3], .arr [x r 7052 3, x r 13444 3], .arr [x r (-29677) 3, x
  r 483 3], .arr [x r (-11935) 3, x r (-24758) 3], .arr [n 0, n 0], .arr [n 0, n 0], .arr [n 0, n 0], .arr [n
  0, n 0], .arr [n 0, n 0]]), ("v", .arr [.arr [x r (-155769) 3, x r (-20657) 2], .arr [x r 127197 3, x r
  (-187351) 3], .arr [x r 151051 3, x r (-30805) 3], .arr [x r 106247 3, x r 93464 3], .arr [x r 96881 3, x r
  157501 3], .arr [x r 58472 3, x r 241289 3], .arr [x r (-1185) 2, x r 221852 3], .arr [x r (-13947) 3, x r
  167419 3], .arr [x r (-4716) 3, x r 152685 3], .arr [x r (-31669) 3, x r 116807 3], .arr [x r (-50924) 3, x
  r 73298 3], .arr [x r (-5023) 2, x r 60013 3]])]]), ("t", n 252)], .obj [("i", .obj [("x", x r 833 3), ("y",
  x r 833 3)]), ("o", .obj [("x", x r 167 3), ("y", x r 167 3)]), ("s", .arr [.obj [("c", .bool false), ("i",
  .arr [.arr [n 0, n 0], .arr [x r (-33548) 3, x r (-47903) 3], .arr [x r 9516 3, x r (-55806) 3], .arr [x r
  9314 3, x r (-19481) 3], .arr [x r (-7052) 3, x r (-13444) 3], .arr [x r 52096 3, x r (-888) 3], .arr [x r
  12016 3, x r 24758 3], .arr [n 0, n 0], .arr [n 0, n 0], .arr [n 0, n 0], .arr [n 0, n 0], .arr [n 0, n
  0]]), ("o", .arr [.arr [x r 143069 3, x r (-71057) 3], .arr [x r 33467 3, x r 47822 3], .arr [x r (-9516) 3,
  x r 55807 3], .arr [x r (-9314) 3, x r 19481 3], .arr [x r 7052 3, x r 13444 3], .arr [x r (-29677) 3, x r
  483 3], .arr [x r (-11935) 3, x r (-24758) 3], .arr [n 0, n 0], .arr [n 0, n 0], .arr [n 0, n 0], .arr [n 0,
  n 0], .arr [n 0, n 0]]), ("v", .arr [.arr [x r (-151849) 3, x r (-236046) 3], .arr [x r 126947 3, x r
  (-187101) 3], .arr [x r 151051 3, x r (-30805) 3], .arr [x r 106247 3, x r 93464 3], .arr [x r 96881 3, x r
  157501 3], .arr [x r 58472 3, x r 241288 3], .arr [x r (-1185) 2, x r 221852 3], .arr [x r (-13947) 3, x r
  167419 3], .arr [x r (-4716) 3, x r 152685 3], .arr [x r (-31669) 3, x r 115214 3], .arr [x r (-50664) 3, x
  r 71613 3], .arr [x r (-49624) 3, x r 58514 3]])]]), ("t", n 253)], .obj [("s", .arr [.obj [("c", .bool
  false), ("i", .arr [.arr [n 0, n 0], .arr [x r (-33548) 3, x r (-47903) 3], .arr [x r 9516 3, x r (-55806)
  3], .arr [x r 9314 3, x r (-19481) 3], .arr [x r (-7052) 3, x r (-13444) 3], .arr [x r 52096 3, x r (-888)
  3], .arr [x r 12016 3, x r 24758 3], .arr [n 0, n 0], .arr [n 0, n 0], .arr [n 0, n 0], .arr [n 0, n 0],
  .arr [n 0, n 0]]), ("o", .arr [.arr [x r 144685 3, x r (-40379) 3], .arr [x r 33467 3, x r 47822 3], .arr [x
  r (-9516) 3, x r 55807 3], .arr [x r (-9314) 3, x r 19481 3], .arr [x r 7052 3, x r 13444 3], .arr [x r
  (-29677) 3, x r 483 3], .arr [x r (-11935) 3, x r (-24758) 3], .arr [n 0, n 0], .arr [n 0, n 0], .arr [n 0,
  n 0], .arr [n 0, n 0], .arr [n 0, n 0]]), ("v", .arr [.arr [x r (-147929) 3, x r (-270523) 3], .arr [x r
  126697 3, x r (-186851) 3], .arr [x r 151051 3, x r (-30805) 3], .arr [x r 106247 3, x r 93464 3], .arr [x r
  96881 3, x r 157501 3], .arr [x r 58472 3, x r 241289 3], .arr [x r (-1185) 2, x r 221852 3], .arr [x r
  (-13947) 3, x r 167419 3], .arr [x r (-4716) 3, x r 152685 3], .arr [x r (-31669) 3, x r 113622 3], .arr [x
  r (-50405) 3, x r 69928 3], .arr [x r (-49017) 3, x r 57015 3]])]]), ("t", n 254)]]

/-- A value in `examples/assets/google_fonts/Tiger.json`. -/
def tiger5 : Json F :=
  .arr [.obj [("i", .obj [("x", x r 833 3), ("y", x r 833 3)]), ("o", .obj [("x", x r 167 3), ("y", x r 167
  3)]), ("s", .arr [.obj [("c", .bool true), ("i", .arr [.arr [x r 18249 3, x r (-753) 2], .arr [x r 28289 3,
  x r (-28197) 3], .arr [x r (-18653) 3, x r 19888 3], .arr [x r (-428) 2, x r 2293 3]]), ("o", .arr [.arr [n
  0, n 0], .arr [x r (-17116) 3, x r 16365 3], .arr [x r 22827 3, x r (-22754) 3], .arr [x r 21902 3, x r
  (-11737) 3]]), ("v", .arr [.arr [x r 59774 3, x r 35283 3], .arr [x r (-45316) 3, x r 1803 2], .arr [x r
  (-59369) 3, x r 3747 3], .arr [x r 28306 3, x r (-68658) 3]])]]), ("t", n 68)], .obj [("i", .obj [("x", n
  0), ("y", n 1)]), ("o", .obj [("x", x r 167 3), ("y", x r 167 3)]), ("s", .arr [.obj [("c", .bool true),
  ("i", .arr [.arr [x r 18249 3, x r (-753) 2], .arr [x r 28289 3, x r (-28197) 3], .arr [x r (-18653) 3, x r
  19888 3], .arr [x r (-428) 2, x r 2293 3]]), ("o", .arr [.arr [n 0, n 0], .arr [x r (-17116) 3, x r 16365
  3], .arr [x r 22827 3, x r (-22754) 3], .arr [x r 21902 3, x r (-11737) 3]]), ("v", .arr [.arr [x r 59774 3,
  x r 35283 3], .arr [x r (-45316) 3, x r 1803 2], .arr [x r (-59369) 3, x r 3747 3], .arr [x r 28306 3, x r
  (-68658) 3]])]]), ("t", n 77)], .obj [("i", .obj [("x", x r 667 3), ("y", n 1)]), ("o", .obj [("x", x r 333
  3), ("y", n 0)]), ("s", .arr [.obj [("c", .bool true), ("i", .arr [.arr [x r 18249 3, x r (-753) 2], .arr [x
  r 28289 3, x r (-28197) 3], .arr [x r (-18653) 3, x r 19888 3], .arr [x r (-428) 2, x r 2293 3]]), ("o",
  .arr [.arr [n 0, n 0], .arr [x r (-17116) 3, x r 16365 3], .arr [x r 22827 3, x r (-22754) 3], .arr [x r
  21902 3, x r (-11737) 3]]), ("v", .arr [.arr [x r 59774 3, x r 35283 3], .arr [x r (-45316) 3, x r 4103 2],
  .arr [x r (-59369) 3, x r 26747 3], .arr [x r 28306 3, x r (-45658) 3]])]]), ("t", n 84)], .obj [("i", .obj
  [("x", x r 667 3), ("y", n 1)]), ("o", .obj [("x", x r 333 3), ("y", n 0)]), ("s", .arr [.obj [("c", .bool
  true), ("i", .arr [.arr [x r 18249 3, x r (-753) 2], .arr [x r 29629 3, x r (-2467) 2], .arr [x r (-18653)
  3, x r 19888 3], .arr [x r (-428) 2, x r 2293 3]]), ("o", .arr [.arr [n 0, n 0], .arr [x r (-17116) 3, x r
  16365 3], .arr [x r 23683 3, x r (-27888) 3], .arr [x r 21902 3, x r (-11737) 3]]), ("v", .arr [.arr [x r
  28274 3, x r 3283 3], .arr [x r (-45316) 3, x r 4103 2], .arr [x r (-59369) 3, x r 26747 3], .arr [x r 17556
  3, x r (-45158) 3]])]]), ("t", n 102)], .obj [("i", .obj [("x", x r 833 3), ("y", x r 833 3)]), ("o", .obj
  [("x", x r 333 3), ("y", n 0)]), ("s", .arr [.obj [("c", .bool true), ("i", .arr [.arr [x r 18249 3, x r
  (-753) 2], .arr [x r 29629 3, x r (-2467) 2], .arr [x r (-18653) 3, x r 19888 3], .arr [x r (-428) 2, x r
  2293 3]]), ("o", .arr [.arr [n 0, n 0], .arr [x r (-17116) 3, x r 16365 3], .arr [x r 23683 3, x r (-27888)
  3], .arr [x r 21902 3, x r (-11737) 3]]), ("v", .arr [.arr [x r 28274 3, x r 3283 3], .arr [x r (-45316) 3,
  x r 4103 2], .arr [x r (-59369) 3, x r 26747 3], .arr [x r 17556 3, x r (-45158) 3]])]]), ("t", n 246)],
  .obj [("s", .arr [.obj [("c", .bool true), ("i", .arr [.arr [x r 18249 3, x r (-753) 2], .arr [x r 29629 3,
  x r (-2467) 2], .arr [x r (-18653) 3, x r 19888 3], .arr [x r (-4573) 3, x r 1367 3]]), ("o", .arr [.arr [n
  0, n 0], .arr [x r (-17116) 3, x r 16365 3], .arr [x r 23683 3, x r (-27888) 3], .arr [x r 234 1, x r
  (-6994) 3]]), ("v", .arr [.arr [x r 26274 3, x r (-36217) 3], .arr [x r (-45316) 3, x r (-2897) 2], .arr [x
  r (-59369) 3, x r (-73253) 3], .arr [x r 3244 2, x r (-109334) 3]])]]), ("t", n 254)]]

/-- A value in `examples/assets/google_fonts/Tiger.json`. -/
def tiger6 : Json F :=
  .arr [.obj [("i", .obj [("x", x r 833 3), ("y", x r 833 3)]), ("o", .obj [("x", x r 167 3), ("y", x r 167
  3)]), ("s", .arr [.obj [("c", .bool true), ("i", .arr [.arr [x r 49584 3, x r 41444 3], .arr [x r (-72339)
  3, x r 95819 3], .arr [n 0, n 0], .arr [n 0, n 0], .arr [x r 30261 3, x r 4147 2], .arr [x r (-8752) 3, x r
  61494 3]]), ("o", .arr [.arr [x r 616 2, x r 3792 3], .arr [x r 95485 3, x r 55774 3], .arr [n 0, n 0], .arr
  [x r (-114347) 3, x r 42187 3], .arr [x r 24261 3, x r (-3253) 2], .arr [x r (-2752) 3, x r (-8506) 3]]),
  ("v", .arr [.arr [x r (-46248) 3, x r (-121777) 3], .arr [x r 106675 3, x r (-171152) 3], .arr [x r 22496 2,
  x r 106702 3], .arr [x r 123507 3, x r 102465 3], .arr [x r (-38925) 3, x r 102697 3], .arr [x r 29588 3, x
  r (-26327) 3]])]]), ("t", n 68)], .obj [("i", .obj [("x", x r 833 3), ("y", x r 833 3)]), ("o", .obj [("x",
  x r 167 3), ("y", x r 167 3)]), ("s", .arr [.obj [("c", .bool true), ("i", .arr [.arr [x r 49584 3, x r
  41444 3], .arr [x r (-76839) 3, x r 70819 3], .arr [n 0, n 0], .arr [n 0, n 0], .arr [x r 30261 3, x r 4147
  2], .arr [x r (-8752) 3, x r 61494 3]]), ("o", .arr [.arr [x r 616 2, x r 3792 3], .arr [x r 95485 3, x r
  55774 3], .arr [n 0, n 0], .arr [x r (-114347) 3, x r 42187 3], .arr [x r 24261 3, x r (-3253) 2], .arr [x r
  (-2752) 3, x r (-8506) 3]]), ("v", .arr [.arr [x r (-48748) 3, x r (-160777) 3], .arr [x r 90675 3, x r
  (-202152) 3], .arr [x r 22496 2, x r 106702 3], .arr [x r 123507 3, x r 102465 3], .arr [x r (-38925) 3, x r
  102697 3], .arr [x r 29588 3, x r (-26327) 3]])]]), ("t", n 77)], .obj [("i", .obj [("x", n 0), ("y", n
  1)]), ("o", .obj [("x", x r 167 3), ("y", x r 167 3)]), ("s", .arr [.obj [("c", .bool true), ("i", .arr
  [.arr [x r 35099 3, x r 21859 3], .arr [x r (-81101) 3, x r 93862 3], .arr [n 0, n 0], .arr [n 0, n 0], .arr
  [x r 16768 3, x r 22979 3], .arr [x r (-966) 2, x r 62069 3]]), ("o", .arr [.arr [x r 3413 3, x r 2101 3],
  .arr [x r 95485 3, x r 55774 3], .arr [n 0, n 0], .arr [x r (-114347) 3, x r 42187 3], .arr [x r 13443 3, x
  r (-18025) 3], .arr [x r (-4998) 3, x r (-25544) 3]]), ("v", .arr [.arr [x r (-53263) 3, x r (-123192) 3],
  .arr [x r 104943 3, x r (-186768) 3], .arr [x r 224961 3, x r 106702 3], .arr [x r 123507 3, x r 11272 2],
  .arr [x r (-37588) 3, x r 108048 3], .arr [x r 33394 3, x r (-13524) 3]])]]), ("t", n 78)], .obj [("i", .obj
  [("x", x r 833 3), ("y", x r 833 3)]), ("o", .obj [("x", x r 333 3), ("y", n 0)]), ("s", .arr [.obj [("c",
  .bool true), ("i", .arr [.arr [n 0, n 0], .arr [x r (-86396) 3, x r 122496 3], .arr [n 0, n 0], .arr [n 0, n
  0], .arr [n 0, n 0], .arr [x r (-10789) 3, x r 62783 3]]), ("o", .arr [.arr [n 0, n 0], .arr [x r 95485 3, x
  r 55774 3], .arr [n 0, n 0], .arr [x r (-114347) 3, x r 42187 3], .arr [n 0, n 0], .arr [x r (-7789) 3, x r
  (-46717) 3]]), ("v", .arr [.arr [x r (-20748) 3, x r (-102277) 3], .arr [x r 122675 3, x r (-167652) 3],
  .arr [x r 224961 3, x r 106702 3], .arr [x r 123507 3, x r 125465 3], .arr [x r (-35925) 3, x r 114697 3],
  .arr [x r 38124 3, x r 2385 3]])]]), ("t", n 84)], .obj [("i", .obj [("x", x r 667 3), ("y", n 1)]), ("o",
  .obj [("x", x r 167 3), ("y", x r 167 3)]), ("s", .arr [.obj [("c", .bool true), ("i", .arr [.arr [n 0, n
  0], .arr [x r (-75232) 3, x r 110295 3], .arr [n 0, n 0], .arr [n 0, n 0], .arr [n 0, n 0], .arr [x r
  (-1216) 3, x r 25625 3]]), ("o", .arr [.arr [n 0, n 0], .arr [x r 95485 3, x r 55774 3], .arr [n 0, n 0],
  .arr [x r (-114347) 3, x r 42187 3], .arr [n 0, n 0], .arr [x r 85 2, x r (-75346) 3]]), ("v", .arr [.arr [x
  r (-35563) 3, x r (-103202) 3], .arr [x r 122799 3, x r (-183545) 3], .arr [x r 22496 2, x r 88184 3], .arr
  [x r 123507 3, x r 125465 3], .arr [x r (-28518) 3, x r 118401 3], .arr [x r 38281 3, x r 23607 3]])]]),
  ("t", n 99)], .obj [("i", .obj [("x", x r 667 3), ("y", n 1)]), ("o", .obj [("x", x r 333 3), ("y", n 0)]),
  ("s", .arr [.obj [("c", .bool true), ("i", .arr [.arr [n 0, n 0], .arr [x r (-74339) 3, x r 109319 3], .arr
  [n 0, n 0], .arr [n 0, n 0], .arr [n 0, n 0], .arr [x r (-45) 2, x r 22652 3]]), ("o", .arr [.arr [n 0, n
  0], .arr [x r 95485 3, x r 55774 3], .arr [n 0, n 0], .arr [x r (-114347) 3, x r 42187 3], .arr [n 0, n 0],
  .arr [x r 1541 3, x r (-77636) 3]]), ("v", .arr [.arr [x r (-36748) 3, x r (-103277) 3], .arr [x r 122674 3,
  x r (-187652) 3], .arr [x r 22496 2, x r 86702 3], .arr [x r 123507 3, x r 125465 3], .arr [x r (-27925) 3,
  x r 118697 3], .arr [x r 38294 3, x r 25304 3]])]]), ("t", n 102)], .obj [("i", .obj [("x", x r 667 3),
  ("y", n 1)]), ("o", .obj [("x", x r 333 3), ("y", n 0)]), ("s", .arr [.obj [("c", .bool true), ("i", .arr
  [.arr [n 0, n 0], .arr [x r (-74339) 3, x r 109319 3], .arr [n 0, n 0], .arr [n 0, n 0], .arr [n 0, n 0],
  .arr [x r (-45) 2, x r 22652 3]]), ("o", .arr [.arr [n 0, n 0], .arr [x r 95485 3, x r 55774 3], .arr [n 0,
  n 0], .arr [x r (-114347) 3, x r 42187 3], .arr [n 0, n 0], .arr [x r 1541 3, x r (-77636) 3]]), ("v", .arr
  [.arr [x r (-36748) 3, x r (-103277) 3], .arr [x r 122674 3, x r (-187652) 3], .arr [x r 22496 2, x r 86702
  3], .arr [x r 123507 3, x r 125465 3], .arr [x r (-27925) 3, x r 118697 3], .arr [x r 38294 3, x r 25304
  3]])]]), ("t", n 236)], .obj [("i", .obj [("x", x r 833 3), ("y", x r 833 3)]), ("o", .obj [("x", x r 333
  3), ("y", n 0)]), ("s", .arr [.obj [("c", .bool true), ("i", .arr [.arr [n 0, n 0], .arr [x r (-74339) 3, x
  r 109319 3], .arr [n 0, n 0], .arr [n 0, n 0], .arr [n 0, n 0], .arr [x r (-45) 2, x r 22652 3]]), ("o",
  .arr [.arr [n 0, n 0], .arr [x r 95485 3, x r 55774 3], .arr [n 0, n 0], .arr [x r (-114347) 3, x r 42187
  3], .arr [n 0, n 0], .arr [x r 1541 3, x r (-77637) 3]]), ("v", .arr [.arr [x r (-36748) 3, x r (-103277)
  3], .arr [x r 122674 3, x r (-187652) 3], .arr [x r 22496 2, x r 86702 3], .arr [x r 123507 3, x r 125465
  3], .arr [x r (-27925) 3, x r 118697 3], .arr [x r 32794 3, x r 11804 3]])]]), ("t", n 246)], .obj [("i",
  .obj [("x", x r 833 3), ("y", x r 833 3)]), ("o", .obj [("x", x r 167 3), ("y", x r 167 3)]), ("s", .arr
  [.obj [("c", .bool true), ("i", .arr [.arr [n 0, n 0], .arr [x r (-116634) 3, x r 96626 3], .arr [n 0, n 0],
  .arr [n 0, n 0], .arr [n 0, n 0], .arr [x r (-13515) 3, x r 121561 3]]), ("o", .arr [.arr [n 0, n 0], .arr
  [x r 89002 3, x r 64116 3], .arr [n 0, n 0], .arr [x r (-114347) 3, x r 42187 3], .arr [n 0, n 0], .arr [x r
  2503 3, x r (-22518) 3]]), ("v", .arr [.arr [x r (-82538) 3, x r (-161717) 3], .arr [x r 13497 2, x r
  (-203459) 3], .arr [x r 22496 2, x r 83073 3], .arr [x r 123507 3, x r 89171 3], .arr [x r (-63263) 3, x r
  106027 3], .arr [x r 1685 2, x r (-71393) 3]])]]), ("t", n 250)], .obj [("s", .arr [.obj [("c", .bool true),
  ("i", .arr [.arr [n 0, n 0], .arr [x r (-160024) 3, x r 28447 3], .arr [n 0, n 0], .arr [n 0, n 0], .arr [n
  0, n 0], .arr [x r 20041 3, x r 71363 3]]), ("o", .arr [.arr [n 0, n 0], .arr [x r 77621 3, x r 78759 3],
  .arr [n 0, n 0], .arr [x r (-114347) 3, x r 42187 3], .arr [n 0, n 0], .arr [x r (-6126) 3, x r (-21813)
  3]]), ("v", .arr [.arr [x r 5829 3, x r (-270994) 3], .arr [x r 16486 2, x r (-280279) 3], .arr [x r 22496
  2, x r 76703 3], .arr [x r 123507 3, x r 25465 3], .arr [x r 57858 3, x r (-83746) 3], .arr [x r 41294 3, x
  r (-217196) 3]])]]), ("t", n 254)]]

/-- A value in `examples/assets/google_fonts/Tiger.json`. -/
def tiger7 : Json F :=
  .arr [.obj [("bm", n 0), ("cix", n 2), ("hd", .bool false), ("it", .arr [.obj [("hd", .bool false), ("ind",
  n 0), ("ix", n 1), ("ks", .obj [("a", n 1), ("ix", n 2), ("k", tiger1 r)]), ("mn", .str
  "ADBE Vector Shape - Group"), ("nm", .str "Path 1"), ("ty", .str "sh")], .obj [("bm", n 0), ("c", .obj
  [("a", n 0), ("ix", n 4), ("k", .arr [x r 732999973671 12, x r 365000017952 12, x r 258999992819 12, n
  1])]), ("hd", .bool false), ("mn", .str "ADBE Vector Graphic - Fill"), ("nm", .str "Fill 1"), ("o", .obj
  [("a", n 0), ("ix", n 5), ("k", n 100)]), ("r", n 1), ("ty", .str "fl")], .obj [("a", .obj [("a", n 0),
  ("ix", n 1), ("k", .arr [n 0, n 0])]), ("nm", .str "Transform"), ("o", .obj [("a", n 0), ("ix", n 7), ("k",
  n 100)]), ("p", .obj [("a", n 0), ("ix", n 2), ("k", .arr [x r 207224 3, x r 429884 3])]), ("r", .obj [("a",
  n 0), ("ix", n 6), ("k", n 0)]), ("s", .obj [("a", n 0), ("ix", n 3), ("k", .arr [n 100, n 100])]), ("sa",
  .obj [("a", n 0), ("ix", n 5), ("k", n 0)]), ("sk", .obj [("a", n 0), ("ix", n 4), ("k", n 0)]), ("ty", .str
  "tr")]]), ("ix", n 5), ("mn", .str "ADBE Vector Group"), ("nm", .str "Group 5"), ("np", n 2), ("ty", .str
  "gr")], .obj [("bm", n 0), ("cix", n 2), ("hd", .bool false), ("it", .arr [.obj [("hd", .bool false),
  ("ind", n 0), ("ix", n 1), ("ks", .obj [("a", n 1), ("ix", n 2), ("k", tiger2 r)]), ("mn", .str
  "ADBE Vector Shape - Group"), ("nm", .str "Path 1"), ("ty", .str "sh")], .obj [("bm", n 0), ("c", .obj
  [("a", n 0), ("ix", n 4), ("k", .arr [n 1, x r 588000009574 12, x r 75 3, n 1])]), ("hd", .bool false),
  ("mn", .str "ADBE Vector Graphic - Fill"), ("nm", .str "Fill 1"), ("o", .obj [("a", n 0), ("ix", n 5), ("k",
  n 100)]), ("r", n 1), ("ty", .str "fl")], .obj [("a", .obj [("a", n 0), ("ix", n 1), ("k", .arr [n 0, n
  0])]), ("nm", .str "Transform"), ("o", .obj [("a", n 0), ("ix", n 7), ("k", n 100)]), ("p", .obj [("a", n
  0), ("ix", n 2), ("k", .arr [x r 185973 3, x r 384149 3])]), ("r", .obj [("a", n 0), ("ix", n 6), ("k", n
  0)]), ("s", .obj [("a", n 0), ("ix", n 3), ("k", .arr [n 100, n 100])]), ("sa", .obj [("a", n 0), ("ix", n
  5), ("k", n 0)]), ("sk", .obj [("a", n 0), ("ix", n 4), ("k", n 0)]), ("ty", .str "tr")]]), ("ix", n 8),
  ("mn", .str "ADBE Vector Group"), ("nm", .str "Group 8"), ("np", n 2), ("ty", .str "gr")], .obj [("bm", n
  0), ("cix", n 2), ("hd", .bool false), ("it", .arr [.obj [("hd", .bool false), ("ind", n 0), ("ix", n 1),
  ("ks", .obj [("a", n 1), ("ix", n 2), ("k", tiger3 r)]), ("mn", .str "ADBE Vector Shape - Group"), ("nm",
  .str "Path 1"), ("ty", .str "sh")], .obj [("bm", n 0), ("c", .obj [("a", n 0), ("ix", n 4), ("k", .arr [x r
  732999973671 12, x r 365000017952 12, x r 258999992819 12, n 1])]), ("hd", .bool false), ("mn", .str
  "ADBE Vector Graphic - Fill"), ("nm", .str "Fill 1"), ("o", .obj [("a", n 0), ("ix", n 5), ("k", n 100)]),
  ("r", n 1), ("ty", .str "fl")], .obj [("a", .obj [("a", n 0), ("ix", n 1), ("k", .arr [n 0, n 0])]), ("nm",
  .str "Transform"), ("o", .obj [("a", n 0), ("ix", n 7), ("k", n 100)]), ("p", .obj [("a", n 0), ("ix", n 2),
  ("k", .arr [x r 488097 3, x r 390932 3])]), ("r", .obj [("a", n 0), ("ix", n 6), ("k", n 0)]), ("s", .obj
  [("a", n 0), ("ix", n 3), ("k", .arr [n 100, n 100])]), ("sa", .obj [("a", n 0), ("ix", n 5), ("k", n 0)]),
  ("sk", .obj [("a", n 0), ("ix", n 4), ("k", n 0)]), ("ty", .str "tr")]]), ("ix", n 15), ("mn", .str
  "ADBE Vector Group"), ("nm", .str "Group 15"), ("np", n 2), ("ty", .str "gr")], .obj [("bm", n 0), ("cix", n
  2), ("hd", .bool false), ("it", .arr [.obj [("hd", .bool false), ("ind", n 0), ("ix", n 1), ("ks", .obj
  [("a", n 1), ("ix", n 2), ("k", tiger4 r)]), ("mn", .str "ADBE Vector Shape - Group"), ("nm", .str
  "Path 1"), ("ty", .str "sh")], .obj [("bm", n 0), ("c", .obj [("a", n 0), ("ix", n 4), ("k", .arr [n 1, x r
  588000009574 12, x r 75 3, n 1])]), ("hd", .bool false), ("mn", .str "ADBE Vector Graphic - Fill"), ("nm",
  .str "Fill 1"), ("o", .obj [("a", n 0), ("ix", n 5), ("k", n 100)]), ("r", n 1), ("ty", .str "fl")], .obj
  [("a", .obj [("a", n 0), ("ix", n 1), ("k", .arr [n 0, n 0])]), ("nm", .str "Transform"), ("o", .obj [("a",
  n 0), ("ix", n 7), ("k", n 100)]), ("p", .obj [("a", n 0), ("ix", n 2), ("k", .arr [x r 504382 3, x r 246861
  3])]), ("r", .obj [("a", n 0), ("ix", n 6), ("k", n 0)]), ("s", .obj [("a", n 0), ("ix", n 3), ("k", .arr [n
  100, n 100])]), ("sa", .obj [("a", n 0), ("ix", n 5), ("k", n 0)]), ("sk", .obj [("a", n 0), ("ix", n 4),
  ("k", n 0)]), ("ty", .str "tr")]]), ("ix", n 16), ("mn", .str "ADBE Vector Group"), ("nm", .str "Group 16"),
  ("np", n 2), ("ty", .str "gr")], .obj [("bm", n 0), ("cix", n 2), ("hd", .bool false), ("it", .arr [.obj
  [("hd", .bool false), ("ind", n 0), ("ix", n 1), ("ks", .obj [("a", n 1), ("ix", n 2), ("k", tiger5 r)]),
  ("mn", .str "ADBE Vector Shape - Group"), ("nm", .str "Path 1"), ("ty", .str "sh")], .obj [("bm", n 0),
  ("c", .obj [("a", n 0), ("ix", n 4), ("k", .arr [x r 732999973671 12, x r 365000017952 12, x r 258999992819
  12, n 1])]), ("hd", .bool false), ("mn", .str "ADBE Vector Graphic - Fill"), ("nm", .str "Fill 1"), ("o",
  .obj [("a", n 0), ("ix", n 5), ("k", n 100)]), ("r", n 1), ("ty", .str "fl")], .obj [("a", .obj [("a", n 0),
  ("ix", n 1), ("k", .arr [n 0, n 0])]), ("nm", .str "Transform"), ("o", .obj [("a", n 0), ("ix", n 7), ("k",
  n 100)]), ("p", .obj [("a", n 0), ("ix", n 2), ("k", .arr [x r 426002 3, x r 347196 3])]), ("r", .obj [("a",
  n 0), ("ix", n 6), ("k", n 0)]), ("s", .obj [("a", n 0), ("ix", n 3), ("k", .arr [n 100, n 100])]), ("sa",
  .obj [("a", n 0), ("ix", n 5), ("k", n 0)]), ("sk", .obj [("a", n 0), ("ix", n 4), ("k", n 0)]), ("ty", .str
  "tr")]]), ("ix", n 18), ("mn", .str "ADBE Vector Group"), ("nm", .str "Group 18"), ("np", n 2), ("ty", .str
  "gr")], .obj [("bm", n 0), ("cix", n 2), ("hd", .bool false), ("it", .arr [.obj [("hd", .bool false),
  ("ind", n 0), ("ix", n 1), ("ks", .obj [("a", n 1), ("ix", n 2), ("k", tiger6 r)]), ("mn", .str
  "ADBE Vector Shape - Group"), ("nm", .str "Path 1"), ("ty", .str "sh")], .obj [("bm", n 0), ("c", .obj
  [("a", n 0), ("ix", n 4), ("k", .arr [n 1, x r 588000009574 12, x r 75 3, n 1])]), ("hd", .bool false),
  ("mn", .str "ADBE Vector Graphic - Fill"), ("nm", .str "Fill 1"), ("o", .obj [("a", n 0), ("ix", n 5), ("k",
  n 100)]), ("r", n 1), ("ty", .str "fl")], .obj [("a", .obj [("a", n 0), ("ix", n 1), ("k", .arr [n 0, n
  0])]), ("nm", .str "Transform"), ("o", .obj [("a", n 0), ("ix", n 7), ("k", n 100)]), ("p", .obj [("a", n
  0), ("ix", n 2), ("k", .arr [x r 25748 2, x r 248638 3])]), ("r", .obj [("a", n 0), ("ix", n 6), ("k", n
  0)]), ("s", .obj [("a", n 0), ("ix", n 3), ("k", .arr [n 100, n 100])]), ("sa", .obj [("a", n 0), ("ix", n
  5), ("k", n 0)]), ("sk", .obj [("a", n 0), ("ix", n 4), ("k", n 0)]), ("ty", .str "tr")]]), ("ix", n 19),
  ("mn", .str "ADBE Vector Group"), ("nm", .str "Group 19"), ("np", n 2), ("ty", .str "gr")]]

/-- A value in `examples/assets/google_fonts/Tiger.json`. -/
def tiger8 : Json F :=
  .arr [.obj [("i", .obj [("x", n 0), ("y", n 1)]), ("o", .obj [("x", x r 167 3), ("y", x r 167 3)]), ("s",
  .arr [.obj [("c", .bool true), ("i", .arr [.arr [x r (-323) 3, x r (-14354) 3], .arr [x r (-11935) 3, x r
  807 3], .arr [x r 645 3, x r 5565 3], .arr [x r 742 2, x r 1693 3]]), ("o", .arr [.arr [x r 403 3, x r 16371
  3], .arr [x r 11936 3, x r (-806) 3], .arr [x r (-121) 2, x r (-10403) 3], .arr [x r (-11935) 3, x r (-2822)
  3]]), ("v", .arr [.arr [x r (-18467) 3, x r (-15742) 3], .arr [x r (-646) 3, x r 9177 3], .arr [x r 161 3, x
  r (-14371) 3], .arr [x r 137 2, x r (-40661) 3]])]]), ("t", n 77)], .obj [("i", .obj [("x", x r 667 3),
  ("y", n 1)]), ("o", .obj [("x", x r 333 3), ("y", n 0)]), ("s", .arr [.obj [("c", .bool true), ("i", .arr
  [.arr [x r (-323) 3, x r (-14354) 3], .arr [x r (-11935) 3, x r 807 3], .arr [x r 645 3, x r 5565 3], .arr
  [x r 742 2, x r 1693 3]]), ("o", .arr [.arr [x r 403 3, x r 16371 3], .arr [x r 11936 3, x r (-806) 3], .arr
  [x r (-121) 2, x r (-10403) 3], .arr [x r (-11935) 3, x r (-2822) 3]]), ("v", .arr [.arr [x r (-14717) 3, x
  r 1008 3], .arr [x r 3104 3, x r 25927 3], .arr [x r 3911 3, x r 2379 3], .arr [x r 512 2, x r (-23911)
  3]])]]), ("t", n 84)], .obj [("s", .arr [.obj [("c", .bool true), ("i", .arr [.arr [x r (-323) 3, x r
  (-14354) 3], .arr [x r (-11935) 3, x r 807 3], .arr [x r 645 3, x r 5565 3], .arr [x r 742 2, x r 1693 3]]),
  ("o", .arr [.arr [x r 403 3, x r 16371 3], .arr [x r 11936 3, x r (-806) 3], .arr [x r (-121) 2, x r
  (-10403) 3], .arr [x r (-11935) 3, x r (-2822) 3]]), ("v", .arr [.arr [x r (-14717) 3, x r 1008 3], .arr [x
  r 3104 3, x r 25927 3], .arr [x r 3911 3, x r 2379 3], .arr [x r 512 2, x r (-23911) 3]])]]), ("t", n 246)]]

/-- A value in `examples/assets/google_fonts/Tiger.json`. -/
def tiger9 : Json F :=
  .arr [.obj [("i", .obj [("x", x r 833 3), ("y", x r 833 3)]), ("o", .obj [("x", x r 167 3), ("y", x r 167
  3)]), ("s", .arr [.obj [("c", .bool true), ("i", .arr [.arr [n 0, n 0], .arr [x r (-4361) 3, x r 18038 3],
  .arr [x r (-10165) 3, x r 2398 3], .arr [x r 4158 3, x r (-30066) 3], .arr [n 0, n 0], .arr [x r 6701 3, x r
  (-6971) 3]]), ("o", .arr [.arr [n 0, n 0], .arr [x r 535 2, x r (-22128) 3], .arr [x r 10467 3, x r (-2513)
  3], .arr [x r (-2965) 3, x r 21443 3], .arr [n 0, n 0], .arr [x r (-13748) 3, x r 14284 3]]), ("v", .arr
  [.arr [x r (-19602) 3, x r 34698 3], .arr [x r (-1439) 3, x r (-34672) 3], .arr [x r 10681 3, x r (-98185)
  3], .arr [x r 26253 3, x r (-45734) 3], .arr [x r 1671 2, x r (-2205) 3], .arr [x r 2699 3, x r 11516
  3]])]]), ("t", n 68)], .obj [("i", .obj [("x", n 0), ("y", n 1)]), ("o", .obj [("x", x r 167 3), ("y", x r
  167 3)]), ("s", .arr [.obj [("c", .bool true), ("i", .arr [.arr [n 0, n 0], .arr [x r (-5137) 3, x r 17833
  3], .arr [x r (-10259) 3, x r 1956 3], .arr [x r 5454 3, x r (-29858) 3], .arr [n 0, n 0], .arr [n 7, x r
  (-667) 2]]), ("o", .arr [.arr [n 0, n 0], .arr [x r 6302 3, x r (-21876) 3], .arr [x r 10566 3, x r (-2058)
  3], .arr [x r (-389) 2, x r 21294 3], .arr [n 0, n 0], .arr [x r (-14353) 3, x r 13676 3]]), ("v", .arr
  [.arr [x r (-30006) 3, x r 19053 3], .arr [x r (-36) 2, x r (-79466) 3], .arr [x r 14495 3, x r (-142396)
  3], .arr [x r 27784 3, x r (-89321) 3], .arr [x r 12868 3, x r (-17245) 3], .arr [x r (-6723) 3, x r (-3143)
  3]])]]), ("t", n 77)], .obj [("i", .obj [("x", x r 667 3), ("y", n 1)]), ("o", .obj [("x", x r 333 3), ("y",
  n 0)]), ("s", .arr [.obj [("c", .bool true), ("i", .arr [.arr [n 0, n 0], .arr [x r (-3654) 3, x r 18195 3],
  .arr [x r (-10165) 3, x r 2398 3], .arr [x r 4158 3, x r (-34066) 3], .arr [n 0, n 0], .arr [x r 6701 3, x r
  (-6971) 3]]), ("o", .arr [.arr [n 0, n 0], .arr [x r 585 2, x r (-29128) 3], .arr [x r 10467 3, x r (-2513)
  3], .arr [x r (-2623) 3, x r 21487 3], .arr [n 0, n 0], .arr [x r (-13748) 3, x r 14284 3]]), ("v", .arr
  [.arr [x r (-19602) 3, x r 57698 3], .arr [x r (-2939) 3, x r (-8672) 3], .arr [x r 12681 3, x r (-79185)
  3], .arr [x r 28253 3, x r (-22234) 3], .arr [x r 1671 2, x r 20795 3], .arr [x r 2699 3, x r 34516 3]])]]),
  ("t", n 84)], .obj [("i", .obj [("x", x r 833 3), ("y", x r 833 3)]), ("o", .obj [("x", x r 333 3), ("y", n
  0)]), ("s", .arr [.obj [("c", .bool true), ("i", .arr [.arr [n 0, n 0], .arr [x r (-3654) 3, x r 18195 3],
  .arr [x r (-10165) 3, x r 2398 3], .arr [x r 4158 3, x r (-34066) 3], .arr [n 0, n 0], .arr [x r 6701 3, x r
  (-6971) 3]]), ("o", .arr [.arr [n 0, n 0], .arr [x r 585 2, x r (-29128) 3], .arr [x r 10467 3, x r (-2513)
  3], .arr [x r (-2623) 3, x r 21487 3], .arr [n 0, n 0], .arr [x r (-13748) 3, x r 14284 3]]), ("v", .arr
  [.arr [x r (-19602) 3, x r 57698 3], .arr [x r (-2939) 3, x r (-8672) 3], .arr [x r 12681 3, x r (-79185)
  3], .arr [x r 28253 3, x r (-22234) 3], .arr [x r 1671 2, x r 20795 3], .arr [x r 2699 3, x r 34516 3]])]]),
  ("t", n 246)], .obj [("s", .arr [.obj [("c", .bool true), ("i", .arr [.arr [n 0, n 0], .arr [x r (-1619) 3,
  x r 18487 3], .arr [x r (-10165) 3, x r 2398 3], .arr [x r 2158 3, x r (-22066) 3], .arr [n 0, n 0], .arr [x
  r 6701 3, x r (-6971) 3]]), ("o", .arr [.arr [n 0, n 0], .arr [x r 185 2, x r (-21128) 3], .arr [x r 10467
  3, x r (-2513) 3], .arr [x r (-2107) 3, x r 21544 3], .arr [n 0, n 0], .arr [x r (-13748) 3, x r 14284 3]]),
  ("v", .arr [.arr [x r (-19602) 3, x r (-12302) 3], .arr [x r 1061 3, x r (-103172) 3], .arr [x r 22681 3, x
  r (-176685) 3], .arr [x r 26253 3, x r (-108234) 3], .arr [x r 1671 2, x r (-49205) 3], .arr [x r 2699 3, x
  r (-35484) 3]])]]), ("t", n 254)]]

/-- A value in `examples/assets/google_fonts/Tiger.json`. -/
def tiger10 : Json F :=
  .arr [.obj [("i", .obj [("x", x r 833 3), ("y", x r 833 3)]), ("o", .obj [("x", x r 167 3), ("y", x r 167
  3)]), ("s", .arr [.obj [("c", .bool true), ("i", .arr [.arr [n 0, n 0], .arr [x r (-7271) 3, x r (-23247)
  3], .arr [x r (-7708) 3, x r 3403 3], .arr [x r 4041 3, x r 15141 3], .arr [n 0, n 0]]), ("o", .arr [.arr [n
  0, n 0], .arr [x r 7271 3, x r 23247 3], .arr [x r 7708 3, x r (-3403) 3], .arr [x r (-2479) 3, x r (-9287)
  3], .arr [n 0, n 0]]), ("v", .arr [.arr [x r (-18683) 3, x r (-52526) 3], .arr [x r (-2494) 3, x r (-25435)
  3], .arr [x r 17557 3, x r 20766 3], .arr [x r 25965 3, x r (-3749) 2], .arr [x r 13835 3, x r (-66434)
  3]])]]), ("t", n 68)], .obj [("i", .obj [("x", n 0), ("y", n 1)]), ("o", .obj [("x", x r 167 3), ("y", x r
  167 3)]), ("s", .arr [.obj [("c", .bool true), ("i", .arr [.arr [n 0, n 0], .arr [x r (-7271) 3, x r
  (-23247) 3], .arr [x r (-7708) 3, x r 3403 3], .arr [x r 4041 3, x r 15141 3], .arr [n 0, n 0]]), ("o", .arr
  [.arr [n 0, n 0], .arr [x r 7271 3, x r 23247 3], .arr [x r 7708 3, x r (-3403) 3], .arr [x r (-2479) 3, x r
  (-9287) 3], .arr [n 0, n 0]]), ("v", .arr [.arr [x r (-18683) 3, x r (-52526) 3], .arr [x r (-2494) 3, x r
  (-25435) 3], .arr [x r 17557 3, x r 20766 3], .arr [x r 25965 3, x r (-3749) 2], .arr [x r 13835 3, x r
  (-66434) 3]])]]), ("t", n 77)], .obj [("i", .obj [("x", x r 667 3), ("y", n 1)]), ("o", .obj [("x", x r 333
  3), ("y", n 0)]), ("s", .arr [.obj [("c", .bool true), ("i", .arr [.arr [n 0, n 0], .arr [x r (-5041) 3, x r
  (-2383) 2], .arr [x r (-7996) 3, x r 2657 3], .arr [x r 2627 3, x r 15449 3], .arr [n 0, n 0]]), ("o", .arr
  [.arr [n 0, n 0], .arr [x r 5041 3, x r 2383 2], .arr [x r 7995 3, x r (-2659) 3], .arr [x r (-159) 2, x r
  (-948) 2], .arr [n 0, n 0]]), ("v", .arr [.arr [x r (-22827) 3, x r (-34137) 3], .arr [x r (-9271) 3, x r
  (-5637) 3], .arr [x r 6324 3, x r 42252 3], .arr [x r 202 1, x r (-14948) 3], .arr [x r 1086 2, x r (-44909)
  3]])]]), ("t", n 84)], .obj [("i", .obj [("x", x r 833 3), ("y", x r 833 3)]), ("o", .obj [("x", x r 333 3),
  ("y", n 0)]), ("s", .arr [.obj [("c", .bool true), ("i", .arr [.arr [n 0, n 0], .arr [x r (-5041) 3, x r
  (-2383) 2], .arr [x r (-7996) 3, x r 2657 3], .arr [x r 2627 3, x r 15449 3], .arr [n 0, n 0]]), ("o", .arr
  [.arr [n 0, n 0], .arr [x r 5041 3, x r 2383 2], .arr [x r 7995 3, x r (-2659) 3], .arr [x r (-159) 2, x r
  (-948) 2], .arr [n 0, n 0]]), ("v", .arr [.arr [x r (-22827) 3, x r (-34137) 3], .arr [x r (-9271) 3, x r
  (-5637) 3], .arr [x r 6324 3, x r 42252 3], .arr [x r 202 1, x r (-14948) 3], .arr [x r 1086 2, x r (-44909)
  3]])]]), ("t", n 246)], .obj [("s", .arr [.obj [("c", .bool true), ("i", .arr [.arr [n 0, n 0], .arr [x r
  (-16865) 3, x r (-17574) 3], .arr [x r (-5385) 3, x r 648 2], .arr [x r 10363 3, x r 11755 3], .arr [n 0, n
  0]]), ("o", .arr [.arr [n 0, n 0], .arr [x r 16865 3, x r 17574 3], .arr [x r 5385 3, x r (-648) 2], .arr [x
  r (-6356) 3, x r (-7211) 3], .arr [n 0, n 0]]), ("v", .arr [.arr [x r (-13074) 3, x r (-86814) 3], .arr [x r
  13488 3, x r (-6977) 2], .arr [x r 5202 2, x r (-37338) 3], .arr [x r 33598 3, x r (-9324) 2], .arr [x r
  9845 3, x r (-11375) 2]])]]), ("t", n 254)]]

/-- A value in `examples/assets/google_fonts/Tiger.json`. -/
def tiger11 : Json F :=
  .arr [.obj [("i", .obj [("x", x r 833 3), ("y", x r 833 3)]), ("o", .obj [("x", x r 167 3), ("y", x r 167
  3)]), ("s", .arr [.obj [("c", .bool true), ("i", .arr [.arr [n 0, n 0], .arr [x r (-3239) 3, x r (-12349)
  3], .arr [x r (-3834) 3, x r (-3817) 3], .arr [x r 5458 3, x r 24187 3], .arr [n 0, n 0]]), ("o", .arr [.arr
  [n 0, n 0], .arr [x r 324 2, x r 1235 2], .arr [x r 621 2, x r 6184 3], .arr [x r (-5458) 3, x r (-24186)
  3], .arr [n 0, n 0]]), ("v", .arr [.arr [x r (-15101) 3, x r (-49605) 3], .arr [x r 239 3, x r (-1943) 2],
  .arr [x r 13385 3, x r 2413 2], .arr [x r 26192 3, x r (-27257) 3], .arr [x r 1443 2, x r (-61249) 3]])]]),
  ("t", n 68)], .obj [("i", .obj [("x", n 0), ("y", n 1)]), ("o", .obj [("x", x r 167 3), ("y", x r 167 3)]),
  ("s", .arr [.obj [("c", .bool true), ("i", .arr [.arr [n 0, n 0], .arr [x r (-3239) 3, x r (-12349) 3], .arr
  [x r (-3161) 3, x r (-4391) 3], .arr [x r 5458 3, x r 24187 3], .arr [n 0, n 0]]), ("o", .arr [.arr [n 0, n
  0], .arr [x r 324 2, x r 1235 2], .arr [x r 3329 3, x r 4625 3], .arr [x r (-5458) 3, x r (-24186) 3], .arr
  [n 0, n 0]]), ("v", .arr [.arr [x r (-21101) 3, x r (-52105) 3], .arr [x r (-3761) 3, x r (-2093) 2], .arr
  [x r 15885 3, x r 1063 2], .arr [x r 20192 3, x r (-27757) 3], .arr [x r 1043 2, x r (-62249) 3]])]]), ("t",
  n 77)], .obj [("i", .obj [("x", x r 667 3), ("y", n 1)]), ("o", .obj [("x", x r 333 3), ("y", n 0)]), ("s",
  .arr [.obj [("c", .bool true), ("i", .arr [.arr [n 0, n 0], .arr [x r (-2057) 3, x r (-126) 1], .arr [x r
  (-3438) 3, x r (-4177) 3], .arr [x r 3148 3, x r 24595 3], .arr [n 0, n 0]]), ("o", .arr [.arr [n 0, n 0],
  .arr [x r 2058 3, x r 12601 3], .arr [x r 5598 3, x r 6743 3], .arr [x r (-3148) 3, x r (-24594) 3], .arr [n
  0, n 0]]), ("v", .arr [.arr [x r (-21072) 3, x r (-3702) 2], .arr [x r (-8652) 3, x r (-553) 2], .arr [x r
  318 3, x r 39077 3], .arr [x r 17924 3, x r (-10868) 3], .arr [x r 9427 3, x r (-4582) 2]])]]), ("t", n
  84)], .obj [("i", .obj [("x", x r 833 3), ("y", x r 833 3)]), ("o", .obj [("x", x r 333 3), ("y", n 0)]),
  ("s", .arr [.obj [("c", .bool true), ("i", .arr [.arr [n 0, n 0], .arr [x r (-2057) 3, x r (-126) 1], .arr
  [x r (-3438) 3, x r (-4177) 3], .arr [x r 3148 3, x r 24595 3], .arr [n 0, n 0]]), ("o", .arr [.arr [n 0, n
  0], .arr [x r 2058 3, x r 12601 3], .arr [x r 5598 3, x r 6743 3], .arr [x r (-3148) 3, x r (-24594) 3],
  .arr [n 0, n 0]]), ("v", .arr [.arr [x r (-21072) 3, x r (-3702) 2], .arr [x r (-8652) 3, x r (-553) 2],
  .arr [x r 318 3, x r 39077 3], .arr [x r 17924 3, x r (-10868) 3], .arr [x r 9427 3, x r (-4582) 2]])]]),
  ("t", n 246)], .obj [("s", .arr [.obj [("c", .bool true), ("i", .arr [.arr [n 0, n 0], .arr [x r (-8401) 3,
  x r (-9613) 3], .arr [x r (-5133) 3, x r (-171) 2], .arr [x r 15661 3, x r 19224 3], .arr [n 0, n 0]]),
  ("o", .arr [.arr [n 0, n 0], .arr [x r 8402 3, x r 9614 3], .arr [x r 8315 3, x r 277 2], .arr [x r (-15661)
  3, x r (-19223) 3], .arr [n 0, n 0]]), ("v", .arr [.arr [x r 6712 3, x r (-59328) 3], .arr [x r 33888 3, x r
  (-39146) 3], .arr [x r 65061 3, x r (-6003) 3], .arr [x r 53637 3, x r (-57714) 3], .arr [x r 27964 3, x r
  (-82908) 3]])]]), ("t", n 254)]]

/-- A value in `examples/assets/google_fonts/Tiger.json`. -/
def tiger12 : Json F :=
  .arr [.obj [("i", .obj [("x", x r 833 3), ("y", x r 833 3)]), ("o", .obj [("x", x r 167 3), ("y", x r 167
  3)]), ("s", .arr [.obj [("c", .bool false), ("i", .arr [.arr [n 0, n 0], .arr [x r 22729 3, x r (-3398) 3],
  .arr [x r 11543 3, x r (-189) 3], .arr [x r 24229 3, x r (-2332) 3], .arr [x r 7956 3, x r (-333) 2], .arr
  [x r (-31643) 3, x r 7496 3], .arr [x r (-25592) 3, x r 1551 3], .arr [x r (-2092) 2, x r 471 2], .arr [x r
  (-32179) 3, x r 31989 3]]), ("o", .arr [.arr [x r (-16122) 3, x r 1602 2], .arr [x r (-17929) 3, x r 4479
  3], .arr [x r (-19022) 3, x r 311 3], .arr [x r (-20501) 3, x r 2089 3], .arr [x r (-5973) 3, x r 25 1],
  .arr [x r 31644 3, x r (-7496) 3], .arr [x r 25672 3, x r (-1556) 3], .arr [x r 20919 3, x r (-471) 2], .arr
  [n 0, n 0]]), ("v", .arr [.arr [x r 159409 3, x r (-7894) 2], .arr [x r 69103 3, x r 8922 3], .arr [x r
  (-25288) 3, x r 21552 3], .arr [x r (-106408) 3, x r 29268 3], .arr [x r (-152897) 3, x r 22061 3], .arr [x
  r (-99007) 3, x r 49248 3], .arr [x r 5925 3, x r 3407 2], .arr [x r 7757 2, x r 23395 3], .arr [x r 173463
  3, x r (-64658) 3]])]]), ("t", n 68)], .obj [("i", .obj [("x", n 0), ("y", n 1)]), ("o", .obj [("x", x r 167
  3), ("y", x r 167 3)]), ("s", .arr [.obj [("c", .bool false), ("i", .arr [.arr [n 0, n 0], .arr [x r 2211 2,
  x r (-6268) 3], .arr [x r 11424 3, x r (-1659) 3], .arr [x r 24229 3, x r (-2332) 3], .arr [x r 7956 3, x r
  (-333) 2], .arr [x r (-31643) 3, x r 7496 3], .arr [x r (-25186) 3, x r 4802 3], .arr [x r (-20148) 3, x r
  7339 3], .arr [x r (-32179) 3, x r 31989 3]]), ("o", .arr [.arr [x r (-16122) 3, x r 1602 2], .arr [x r
  (-17212) 3, x r 6729 3], .arr [x r (-18827) 3, x r 2734 3], .arr [x r (-20501) 3, x r 2089 3], .arr [x r
  (-5973) 3, x r 25 1], .arr [x r 31644 3, x r (-7496) 3], .arr [x r 25264 3, x r (-4817) 3], .arr [x r 20148
  3, x r (-7339) 3], .arr [n 0, n 0]]), ("v", .arr [.arr [x r 159409 3, x r (-7894) 2], .arr [x r 75275 3, x r
  (-1434) 2], .arr [x r (-29736) 3, x r 15222 3], .arr [x r (-105908) 3, x r 35268 3], .arr [x r (-152897) 3,
  x r 22061 3], .arr [x r (-99007) 3, x r 49248 3], .arr [x r 2819 3, x r 23658 3], .arr [x r 85518 3, x r
  (-1064) 3], .arr [x r 161463 3, x r (-73658) 3]])]]), ("t", n 77)], .obj [("i", .obj [("x", x r 667 3),
  ("y", n 1)]), ("o", .obj [("x", x r 333 3), ("y", n 0)]), ("s", .arr [.obj [("c", .bool false), ("i", .arr
  [.arr [n 0, n 0], .arr [x r 22948 3, x r (-1235) 3], .arr [x r 1151 2, x r 887 3], .arr [x r 24341 3, x r
  (-32) 3], .arr [x r 8228 3, x r (-2587) 3], .arr [x r (-32209) 3, x r 4474 3], .arr [x r (-25624) 3, x r
  (-884) 3], .arr [x r (-21271) 3, x r 2713 3], .arr [x r (-32179) 3, x r 31989 3]]), ("o", .arr [.arr [x r
  (-16122) 3, x r 1602 2], .arr [x r (-18272) 3, x r 2765 3], .arr [x r (-18966) 3, x r (-1488) 3], .arr [x r
  (-20607) 3, x r 142 3], .arr [x r (-6182) 3, x r 1924 3], .arr [x r 32211 3, x r (-4472) 3], .arr [x r 25704
  3, x r 877 3], .arr [x r 21271 3, x r (-2712) 3], .arr [n 0, n 0]]), ("v", .arr [.arr [x r 159409 3, x r
  (-5594) 2], .arr [x r 54967 3, x r 33181 3], .arr [x r (-40194) 3, x r 36834 3], .arr [x r (-12168) 2, x r
  36849 3], .arr [x r (-16728) 2, x r 25281 3], .arr [x r (-115634) 3, x r 51466 3], .arr [x r (-10304) 3, x r
  52246 3], .arr [x r 62029 3, x r 4839 2], .arr [x r 173463 3, x r (-41658) 3]])]]), ("t", n 84)], .obj
  [("i", .obj [("x", x r 833 3), ("y", x r 833 3)]), ("o", .obj [("x", x r 333 3), ("y", n 0)]), ("s", .arr
  [.obj [("c", .bool false), ("i", .arr [.arr [n 0, n 0], .arr [x r 22948 3, x r (-1235) 3], .arr [x r 1151 2,
  x r 887 3], .arr [x r 24341 3, x r (-32) 3], .arr [x r 8228 3, x r (-2587) 3], .arr [x r (-32209) 3, x r
  4474 3], .arr [x r (-25624) 3, x r (-884) 3], .arr [x r (-21271) 3, x r 2713 3], .arr [x r (-32179) 3, x r
  31989 3]]), ("o", .arr [.arr [x r (-16122) 3, x r 1602 2], .arr [x r (-18272) 3, x r 2765 3], .arr [x r
  (-18966) 3, x r (-1488) 3], .arr [x r (-20607) 3, x r 142 3], .arr [x r (-6182) 3, x r 1924 3], .arr [x r
  32211 3, x r (-4472) 3], .arr [x r 25704 3, x r 877 3], .arr [x r 21271 3, x r (-2712) 3], .arr [n 0, n
  0]]), ("v", .arr [.arr [x r 159409 3, x r (-5594) 2], .arr [x r 54967 3, x r 33181 3], .arr [x r (-40194) 3,
  x r 36834 3], .arr [x r (-12168) 2, x r 36849 3], .arr [x r (-16728) 2, x r 25281 3], .arr [x r (-115634) 3,
  x r 51466 3], .arr [x r (-10304) 3, x r 52246 3], .arr [x r 62029 3, x r 4839 2], .arr [x r 173463 3, x r
  (-41658) 3]])]]), ("t", n 246)], .obj [("s", .arr [.obj [("c", .bool false), ("i", .arr [.arr [n 0, n 0],
  .arr [x r 18835 3, x r (-13167) 3], .arr [x r 1025 2, x r (-5311) 3], .arr [x r 20653 3, x r (-12881) 3],
  .arr [x r 564 2, x r (-6526) 3], .arr [x r (-24991) 3, x r 20806 3], .arr [x r (-22222) 3, x r 12789 3],
  .arr [x r (-16631) 3, x r 13536 3], .arr [x r (-32179) 3, x r 31989 3]]), ("o", .arr [.arr [x r (-16122) 3,
  x r 1602 2], .arr [x r (-14056) 3, x r 11997 3], .arr [x r (-16892) 3, x r 8752 3], .arr [x r (-17424) 3, x
  r 11003 3], .arr [x r (-4234) 3, x r 4898 3], .arr [x r 24992 3, x r (-20807) 3], .arr [x r 22291 3, x r
  (-12829) 3], .arr [x r 16631 3, x r (-13536) 3], .arr [n 0, n 0]]), ("v", .arr [.arr [x r 159409 3, x r
  (-15594) 2], .arr [x r 113382 3, x r (-65934) 3], .arr [x r 345 1, x r (-12579) 3], .arr [x r (-3469) 2, x r
  30465 3], .arr [x r (-79522) 3, x r 44722 3], .arr [x r (-21837) 3, x r 39685 3], .arr [x r 68021 3, x r
  (-15275) 3], .arr [x r 12741 2, x r (-56747) 3], .arr [x r 173463 3, x r (-111658) 3]])]]), ("t", n 254)]]

/-- A value in `examples/assets/google_fonts/Tiger.json`. -/
def tiger13 : Json F :=
  .arr [.obj [("i", .obj [("x", x r 833 3), ("y", x r 833 3)]), ("o", .obj [("x", x r 167 3), ("y", x r 167
  3)]), ("s", .arr [.obj [("c", .bool true), ("i", .arr [.arr [x r 1383 3, x r 1308 2], .arr [x r 18466 3, x r
  (-13411) 3], .arr [x r (-6589) 3, x r (-526) 2], .arr [x r (-3832) 3, x r 5129 3]]), ("o", .arr [.arr [x r
  (-688) 3, x r (-6506) 3], .arr [x r (-14913) 3, x r 10894 3], .arr [x r 3654 3, x r 2917 3], .arr [x r 6378
  3, x r (-8609) 3]]), ("v", .arr [.arr [x r 29676 3, x r (-13071) 3], .arr [x r 926 3, x r (-12116) 3], .arr
  [x r (-761) 2, x r 19525 3], .arr [x r 9112 3, x r 2388 3]])]]), ("t", n 68)], .obj [("i", .obj [("x", n 0),
  ("y", n 1)]), ("o", .obj [("x", x r 167 3), ("y", x r 167 3)]), ("s", .arr [.obj [("c", .bool true), ("i",
  .arr [.arr [x r 1383 3, x r 1308 2], .arr [x r 18466 3, x r (-13411) 3], .arr [x r (-6589) 3, x r (-526) 2],
  .arr [x r (-3832) 3, x r 5129 3]]), ("o", .arr [.arr [x r (-688) 3, x r (-6506) 3], .arr [x r (-14913) 3, x
  r 10894 3], .arr [x r 3654 3, x r 2917 3], .arr [x r 6378 3, x r (-8609) 3]]), ("v", .arr [.arr [x r 29676
  3, x r (-13071) 3], .arr [x r 926 3, x r (-12116) 3], .arr [x r (-761) 2, x r 19525 3], .arr [x r 9112 3, x
  r 2388 3]])]]), ("t", n 77)], .obj [("i", .obj [("x", x r 667 3), ("y", n 1)]), ("o", .obj [("x", x r 333
  3), ("y", n 0)]), ("s", .arr [.obj [("c", .bool true), ("i", .arr [.arr [x r 182 3, x r 13152 3], .arr [x r
  19651 3, x r (-11606) 3], .arr [x r (-6058) 3, x r (-5864) 3], .arr [x r (-43) 1, x r 4744 3]]), ("o", .arr
  [.arr [x r (-7) 2, x r (-6542) 3], .arr [x r (-15876) 3, x r 9436 3], .arr [x r 3362 3, x r 3249 3], .arr [x
  r 7163 3, x r (-7968) 3]]), ("v", .arr [.arr [x r 23038 3, x r (-9402) 3], .arr [x r (-5674) 3, x r (-11168)
  3], .arr [x r (-17162) 3, x r 19525 3], .arr [x r 1105 3, x r 4045 3]])]]), ("t", n 84)], .obj [("i", .obj
  [("x", x r 833 3), ("y", x r 833 3)]), ("o", .obj [("x", x r 333 3), ("y", n 0)]), ("s", .arr [.obj [("c",
  .bool true), ("i", .arr [.arr [x r 182 3, x r 13152 3], .arr [x r 19651 3, x r (-11606) 3], .arr [x r
  (-6058) 3, x r (-5864) 3], .arr [x r (-43) 1, x r 4744 3]]), ("o", .arr [.arr [x r (-7) 2, x r (-6542) 3],
  .arr [x r (-15876) 3, x r 9436 3], .arr [x r 3362 3, x r 3249 3], .arr [x r 7163 3, x r (-7968) 3]]), ("v",
  .arr [.arr [x r 23038 3, x r (-9402) 3], .arr [x r (-5674) 3, x r (-11168) 3], .arr [x r (-17162) 3, x r
  19525 3], .arr [x r 1105 3, x r 4045 3]])]]), ("t", n 246)], .obj [("s", .arr [.obj [("c", .bool true),
  ("i", .arr [.arr [x r 7065 3, x r 11095 3], .arr [x r 10559 3, x r (-20233) 3], .arr [x r (-8243) 3, x r
  (-1774) 3], .arr [x r (-1146) 3, x r 6299 3]]), ("o", .arr [.arr [x r (-3514) 3, x r (-5518) 3], .arr [x r
  (-8499) 3, x r 16397 3], .arr [x r 4571 3, x r 984 3], .arr [x r 1875 3, x r (-10549) 3]]), ("v", .arr [.arr
  [x r 66435 3, x r 17786 3], .arr [x r 4112 2, x r 31449 3], .arr [x r 47573 3, x r 6358 2], .arr [x r 54911
  3, x r 40788 3]])]]), ("t", n 254)]]

/-- A value in `examples/assets/google_fonts/Tiger.json`. -/
def tiger14 : Json F :=
  .arr [.obj [("i", .obj [("x", x r 833 3), ("y", x r 833 3)]), ("o", .obj [("x", x r 167 3), ("y", x r 167
  3)]), ("s", .arr [.obj [("c", .bool true), ("i", .arr [.arr [x r 7206 3, x r 12222 3], .arr [x r 16845 3, x
  r (-11398) 3], .arr [x r (-3654) 3, x r (-6724) 3], .arr [x r (-6016) 3, x r 3933 3]]), ("o", .arr [.arr [x
  r (-4628) 3, x r (-791) 2], .arr [x r (-14906) 3, x r 10086 3], .arr [x r 5702 3, x r 10724 3], .arr [x r
  10151 3, x r (-6481) 3]]), ("v", .arr [.arr [x r 31006 3, x r (-18478) 3], .arr [x r 2064 3, x r (-15877)
  3], .arr [x r (-11509) 3, x r 10559 3], .arr [x r 10337 3, x r 1868 3]])]]), ("t", n 68)], .obj [("i", .obj
  [("x", n 0), ("y", n 1)]), ("o", .obj [("x", x r 167 3), ("y", x r 167 3)]), ("s", .arr [.obj [("c", .bool
  true), ("i", .arr [.arr [x r 7206 3, x r 12222 3], .arr [x r 16845 3, x r (-11398) 3], .arr [x r (-3654) 3,
  x r (-6724) 3], .arr [x r (-6016) 3, x r 3933 3]]), ("o", .arr [.arr [x r (-4628) 3, x r (-791) 2], .arr [x
  r (-14906) 3, x r 10086 3], .arr [x r 5702 3, x r 10724 3], .arr [x r 10151 3, x r (-6481) 3]]), ("v", .arr
  [.arr [x r 31006 3, x r (-18478) 3], .arr [x r 2064 3, x r (-15877) 3], .arr [x r (-11509) 3, x r 10559 3],
  .arr [x r 10337 3, x r 1868 3]])]]), ("t", n 77)], .obj [("i", .obj [("x", x r 667 3), ("y", n 1)]), ("o",
  .obj [("x", x r 333 3), ("y", n 0)]), ("s", .arr [.obj [("c", .bool true), ("i", .arr [.arr [x r 6019 3, x r
  12848 3], .arr [x r 1784 2, x r (-9768) 3], .arr [x r (-3002) 3, x r (-7039) 3], .arr [x r (-6361) 3, x r
  3347 3]]), ("o", .arr [.arr [x r (-386) 2, x r (-8312) 3], .arr [x r (-15792) 3, x r 8632 3], .arr [x r 4663
  3, x r 11215 3], .arr [x r 10718 3, x r (-5493) 3]]), ("v", .arr [.arr [x r 21026 3, x r (-13095) 3], .arr
  [x r (-8032) 3, x r (-13241) 3], .arr [x r (-24043) 3, x r 11794 3], .arr [x r (-1473) 3, x r 5207 3]])]]),
  ("t", n 84)], .obj [("i", .obj [("x", x r 833 3), ("y", x r 833 3)]), ("o", .obj [("x", x r 333 3), ("y", n
  0)]), ("s", .arr [.obj [("c", .bool true), ("i", .arr [.arr [x r 6019 3, x r 12848 3], .arr [x r 1784 2, x r
  (-9768) 3], .arr [x r (-3002) 3, x r (-7039) 3], .arr [x r (-6361) 3, x r 3347 3]]), ("o", .arr [.arr [x r
  (-386) 2, x r (-8312) 3], .arr [x r (-15792) 3, x r 8632 3], .arr [x r 4663 3, x r 11215 3], .arr [x r 10718
  3, x r (-5493) 3]]), ("v", .arr [.arr [x r 21026 3, x r (-13095) 3], .arr [x r (-8032) 3, x r (-13241) 3],
  .arr [x r (-24043) 3, x r 11794 3], .arr [x r (-1473) 3, x r 5207 3]])]]), ("t", n 246)], .obj [("s", .arr
  [.obj [("c", .bool true), ("i", .arr [.arr [x r 11896 3, x r 7732 3], .arr [x r 10004 3, x r (-17709) 3],
  .arr [x r (-6266) 3, x r (-4392) 3], .arr [x r (-3634) 3, x r 6201 3]]), ("o", .arr [.arr [x r (-7667) 3, x
  r (-502) 2], .arr [x r (-8852) 3, x r 1567 2], .arr [x r 9882 3, x r 7061 3], .arr [x r 6201 3, x r (-10325)
  3]]), ("v", .arr [.arr [x r 81029 3, x r (-29) 3], .arr [x r 56276 3, x r 15192 3], .arr [x r 559 1, x r
  44907 3], .arr [x r 71588 3, x r 27395 3]])]]), ("t", n 254)]]

/-- A value in `examples/assets/google_fonts/Tiger.json`. -/
def tiger15 : Json F :=
  .arr [.obj [("i", .obj [("x", x r 833 3), ("y", x r 833 3)]), ("o", .obj [("x", x r 167 3), ("y", x r 167
  3)]), ("s", .arr [.obj [("c", .bool false), ("i", .arr [.arr [n 0, n 0], .arr [x r 93522 3, x r (-28597) 3],
  .arr [n 0, n 0], .arr [x r 19337 3, x r 273 3], .arr [x r (-12623) 3, x r (-28668) 3], .arr [x r (-12023) 3,
  x r (-6982) 3], .arr [x r (-38375) 3, x r 8532 3], .arr [x r (-6854) 3, x r (-2744) 3], .arr [n 0, n 0]]),
  ("o", .arr [.arr [x r (-3166) 3, x r 2793 3], .arr [x r (-37669) 3, x r 13744 3], .arr [n 0, n 0], .arr [x r
  (-30141) 3, x r (-524) 3], .arr [x r 13821 3, x r 31389 3], .arr [x r 12087 3, x r 7019 3], .arr [x r 38296
  3, x r (-8514) 3], .arr [x r 6854 3, x r 2744 3], .arr [n 0, n 0]]), ("v", .arr [.arr [x r 111124 3, x r
  (-123678) 3], .arr [x r (-229) 2, x r (-38714) 3], .arr [x r (-97256) 3, x r (-16568) 3], .arr [x r
  (-127819) 3, x r (-22691) 3], .arr [x r (-16543) 2, x r 27677 3], .arr [x r (-117591) 3, x r 80476 3], .arr
  [x r (-41639) 3, x r 84149 3], .arr [x r 90076 3, x r 65366 3], .arr [x r 185724 3, x r (-24669) 3]])]]),
  ("t", n 68)], .obj [("i", .obj [("x", n 0), ("y", n 1)]), ("o", .obj [("x", x r 167 3), ("y", x r 167 3)]),
  ("s", .arr [.obj [("c", .bool false), ("i", .arr [.arr [n 0, n 0], .arr [x r 93522 3, x r (-28597) 3], .arr
  [n 0, n 0], .arr [x r 19337 3, x r 273 3], .arr [x r (-12623) 3, x r (-28668) 3], .arr [x r (-12023) 3, x r
  (-6982) 3], .arr [x r (-38375) 3, x r 8532 3], .arr [x r (-7148) 3, x r (-1847) 3], .arr [n 0, n 0]]), ("o",
  .arr [.arr [x r (-3166) 3, x r 2793 3], .arr [x r (-37669) 3, x r 13744 3], .arr [n 0, n 0], .arr [x r
  (-30141) 3, x r (-524) 3], .arr [x r 13821 3, x r 31389 3], .arr [x r 12087 3, x r 7019 3], .arr [x r 38296
  3, x r (-8514) 3], .arr [x r 7148 3, x r 1847 3], .arr [n 0, n 0]]), ("v", .arr [.arr [x r 111124 3, x r
  (-123678) 3], .arr [x r (-229) 2, x r (-38714) 3], .arr [x r (-97256) 3, x r (-16568) 3], .arr [x r
  (-127819) 3, x r (-22691) 3], .arr [x r (-16543) 2, x r 27677 3], .arr [x r (-117591) 3, x r 80476 3], .arr
  [x r (-41639) 3, x r 84149 3], .arr [x r 97615 3, x r 42052 3], .arr [x r 185724 3, x r (-24669) 3]])]]),
  ("t", n 77)], .obj [("i", .obj [("x", x r 833 3), ("y", x r 833 3)]), ("o", .obj [("x", x r 333 3), ("y", n
  0)]), ("s", .arr [.obj [("c", .bool false), ("i", .arr [.arr [n 0, n 0], .arr [x r 95806 3, x r (-19631) 3],
  .arr [n 0, n 0], .arr [x r 19225 3, x r 2099 3], .arr [x r (-9853) 3, x r (-29734) 3], .arr [x r (-11328) 3,
  x r (-8061) 3], .arr [x r (-39008) 3, x r 4876 3], .arr [x r (-6565) 3, x r (-3377) 3], .arr [n 0, n 0]]),
  ("o", .arr [.arr [x r (-3166) 3, x r 2793 3], .arr [x r (-38799) 3, x r 10123 3], .arr [n 0, n 0], .arr [x r
  (-29957) 3, x r (-337) 2], .arr [x r 10793 3, x r 32555 3], .arr [x r 1137 2, x r 813 2], .arr [x r 38929 3,
  x r (-4857) 3], .arr [x r 6564 3, x r 3379 3], .arr [n 0, n 0]]), ("v", .arr [.arr [x r 111124 3, x r
  (-100678) 3], .arr [x r (-7186) 3, x r (-22792) 3], .arr [x r (-10382) 2, x r (-972) 2], .arr [x r (-133668)
  3, x r (-18704) 3], .arr [x r (-17587) 2, x r 27884 3], .arr [x r (-133235) 3, x r 84968 3], .arr [x r
  (-5797) 2, x r 95802 3], .arr [x r 7493 2, x r 89551 3], .arr [x r 185723 3, x r (-1669) 3]])]]), ("t", n
  84)], .obj [("i", .obj [("x", x r 667 3), ("y", n 1)]), ("o", .obj [("x", x r 167 3), ("y", x r 167 3)]),
  ("s", .arr [.obj [("c", .bool false), ("i", .arr [.arr [n 0, n 0], .arr [x r 95806 3, x r (-19631) 3], .arr
  [n 0, n 0], .arr [x r 19225 3, x r 2099 3], .arr [x r (-9853) 3, x r (-29734) 3], .arr [x r (-11328) 3, x r
  (-8061) 3], .arr [x r (-39008) 3, x r 4876 3], .arr [x r (-6565) 3, x r (-3377) 3], .arr [n 0, n 0]]), ("o",
  .arr [.arr [x r (-3166) 3, x r 2793 3], .arr [x r (-38799) 3, x r 10123 3], .arr [n 0, n 0], .arr [x r
  (-29957) 3, x r (-337) 2], .arr [x r 10793 3, x r 32555 3], .arr [x r 1137 2, x r 813 2], .arr [x r 38929 3,
  x r (-4857) 3], .arr [x r 6564 3, x r 3379 3], .arr [n 0, n 0]]), ("v", .arr [.arr [x r 111124 3, x r
  (-110678) 3], .arr [x r (-7186) 3, x r (-22792) 3], .arr [x r (-10382) 2, x r (-972) 2], .arr [x r (-133668)
  3, x r (-18704) 3], .arr [x r (-17587) 2, x r 27884 3], .arr [x r (-133235) 3, x r 84968 3], .arr [x r
  (-5797) 2, x r 95802 3], .arr [x r 7493 2, x r 89551 3], .arr [x r 185723 3, x r (-1669) 3]])]]), ("t", n
  102)], .obj [("i", .obj [("x", x r 833 3), ("y", x r 833 3)]), ("o", .obj [("x", x r 333 3), ("y", n 0)]),
  ("s", .arr [.obj [("c", .bool false), ("i", .arr [.arr [n 0, n 0], .arr [x r 95806 3, x r (-19631) 3], .arr
  [n 0, n 0], .arr [x r 19225 3, x r 2099 3], .arr [x r (-9853) 3, x r (-29734) 3], .arr [x r (-11328) 3, x r
  (-8061) 3], .arr [x r (-39008) 3, x r 4876 3], .arr [x r (-6565) 3, x r (-3377) 3], .arr [n 0, n 0]]), ("o",
  .arr [.arr [x r (-3166) 3, x r 2793 3], .arr [x r (-38799) 3, x r 10123 3], .arr [n 0, n 0], .arr [x r
  (-29957) 3, x r (-337) 2], .arr [x r 10793 3, x r 32555 3], .arr [x r 1137 2, x r 813 2], .arr [x r 38929 3,
  x r (-4857) 3], .arr [x r 6564 3, x r 3379 3], .arr [n 0, n 0]]), ("v", .arr [.arr [x r 111124 3, x r
  (-110678) 3], .arr [x r (-7186) 3, x r (-22792) 3], .arr [x r (-10382) 2, x r (-972) 2], .arr [x r (-133668)
  3, x r (-18704) 3], .arr [x r (-17587) 2, x r 27884 3], .arr [x r (-133235) 3, x r 84968 3], .arr [x r
  (-5797) 2, x r 95802 3], .arr [x r 7493 2, x r 89551 3], .arr [x r 185723 3, x r (-1669) 3]])]]), ("t", n
  246)], .obj [("s", .arr [.obj [("c", .bool false), ("i", .arr [.arr [n 0, n 0], .arr [x r 70991 3, x r
  (-67264) 3], .arr [n 0, n 0], .arr [x r 17434 3, x r (-837) 2], .arr [x r (-24072) 3, x r (-20043) 3], .arr
  [x r (-13875) 3, x r (-895) 3], .arr [x r (-30556) 3, x r 24733 3], .arr [x r (-7359) 3, x r 597 3], .arr [n
  0, n 0]]), ("o", .arr [.arr [x r (-3166) 3, x r 2793 3], .arr [x r (-27602) 3, x r 29085 3], .arr [n 0, n
  0], .arr [x r (-27219) 3, x r 12958 3], .arr [x r 26357 3, x r 21946 3], .arr [x r 13949 3, x r 9 1], .arr
  [x r 30493 3, x r (-24682) 3], .arr [x r 7358 3, x r (-597) 3], .arr [n 0, n 0]]), ("v", .arr [.arr [x r
  131124 3, x r (-240678) 3], .arr [x r 10096 3, x r (-62525) 3], .arr [x r (-65062) 3, x r (-394) 3], .arr [x
  r (-95153) 3, x r 7739 3], .arr [x r (-106389) 3, x r 69587 3], .arr [x r (-40039) 3, x r 95548 3], .arr [x
  r 29597 3, x r 65002 3], .arr [x r 139154 3, x r (-10488) 3], .arr [x r 185723 3, x r (-71669) 3]])]]),
  ("t", n 254)]]

/-- A value in `examples/assets/google_fonts/Tiger.json`. -/
def tiger16 : Json F :=
  .arr [.obj [("i", .obj [("x", x r 833 3), ("y", x r 833 3)]), ("o", .obj [("x", x r 167 3), ("y", x r 167
  3)]), ("s", .arr [.obj [("c", .bool true), ("i", .arr [.arr [n 0, n 0], .arr [x r (-30242) 3, x r 7177 3],
  .arr [x r (-8388) 3, x r (-4839) 3], .arr [x r 38225 3, x r (-13145) 3], .arr [n 0, n 0], .arr [x r 6209 3,
  x r 7499 3]]), ("o", .arr [.arr [n 0, n 0], .arr [x r 26935 3, x r (-6371) 3], .arr [x r 8386 3, x r 4758
  3], .arr [x r (-37016) 3, x r 12741 3], .arr [n 0, n 0], .arr [x r (-9678) 3, x r (-11452) 3]]), ("v", .arr
  [.arr [x r (-74192) 3, x r (-26427) 3], .arr [x r 7178 3, x r (-1894) 3], .arr [x r 65807 3, x r (-33266)
  3], .arr [x r 25161 3, x r 25364 3], .arr [x r (-30644) 3, x r 32791 3], .arr [x r (-59756) 3, x r (-7233)
  3]])]]), ("t", n 68)], .obj [("i", .obj [("x", n 0), ("y", n 1)]), ("o", .obj [("x", x r 167 3), ("y", x r
  167 3)]), ("s", .arr [.obj [("c", .bool true), ("i", .arr [.arr [n 0, n 0], .arr [x r (-30242) 3, x r 7177
  3], .arr [x r (-8388) 3, x r (-4839) 3], .arr [x r 38225 3, x r (-13145) 3], .arr [n 0, n 0], .arr [x r 6209
  3, x r 7499 3]]), ("o", .arr [.arr [n 0, n 0], .arr [x r 26935 3, x r (-6371) 3], .arr [x r 8386 3, x r 4758
  3], .arr [x r (-37016) 3, x r 12741 3], .arr [n 0, n 0], .arr [x r (-9678) 3, x r (-11452) 3]]), ("v", .arr
  [.arr [x r (-71192) 3, x r (-47427) 3], .arr [x r 3178 3, x r (-42894) 3], .arr [x r 75307 3, x r (-74766)
  3], .arr [x r 23662 3, x r (-17136) 3], .arr [x r (-38144) 3, x r (-7709) 3], .arr [x r (-59756) 3, x r
  (-7233) 3]])]]), ("t", n 77)], .obj [("i", .obj [("x", x r 833 3), ("y", x r 833 3)]), ("o", .obj [("x", x r
  333 3), ("y", n 0)]), ("s", .arr [.obj [("c", .bool true), ("i", .arr [.arr [n 0, n 0], .arr [x r (-30242)
  3, x r 7177 3], .arr [x r (-8388) 3, x r (-4839) 3], .arr [x r 38225 3, x r (-13145) 3], .arr [n 0, n 0],
  .arr [x r 6209 3, x r 7499 3]]), ("o", .arr [.arr [n 0, n 0], .arr [x r 26935 3, x r (-6371) 3], .arr [x r
  8386 3, x r 4758 3], .arr [x r (-37016) 3, x r 12741 3], .arr [n 0, n 0], .arr [x r (-9678) 3, x r (-11452)
  3]]), ("v", .arr [.arr [x r (-46442) 3, x r 10324 3], .arr [x r 7178 3, x r (-1894) 3], .arr [x r 65807 3, x
  r (-33266) 3], .arr [x r 25161 3, x r 25364 3], .arr [x r (-30644) 3, x r 32791 3], .arr [x r (-37006) 3, x
  r 26017 3]])]]), ("t", n 84)], .obj [("i", .obj [("x", x r 667 3), ("y", n 1)]), ("o", .obj [("x", x r 167
  3), ("y", x r 167 3)]), ("s", .arr [.obj [("c", .bool true), ("i", .arr [.arr [n 0, n 0], .arr [x r (-30242)
  3, x r 7177 3], .arr [x r (-8388) 3, x r (-4839) 3], .arr [x r 38225 3, x r (-13145) 3], .arr [n 0, n 0],
  .arr [x r 6209 3, x r 7499 3]]), ("o", .arr [.arr [n 0, n 0], .arr [x r 26935 3, x r (-6371) 3], .arr [x r
  8386 3, x r 4758 3], .arr [x r (-37016) 3, x r 12741 3], .arr [n 0, n 0], .arr [x r (-9678) 3, x r (-11452)
  3]]), ("v", .arr [.arr [x r (-73192) 3, x r (-16927) 3], .arr [x r 8178 3, x r (-15394) 3], .arr [x r 66807
  3, x r (-46766) 3], .arr [x r 26161 3, x r 11864 3], .arr [x r (-45144) 3, x r 19041 3], .arr [x r (-59756)
  3, x r 2516 3]])]]), ("t", n 102)], .obj [("i", .obj [("x", x r 833 3), ("y", x r 833 3)]), ("o", .obj
  [("x", x r 333 3), ("y", n 0)]), ("s", .arr [.obj [("c", .bool true), ("i", .arr [.arr [n 0, n 0], .arr [x r
  (-30242) 3, x r 7177 3], .arr [x r (-8388) 3, x r (-4839) 3], .arr [x r 38225 3, x r (-13145) 3], .arr [n 0,
  n 0], .arr [x r 6209 3, x r 7499 3]]), ("o", .arr [.arr [n 0, n 0], .arr [x r 26935 3, x r (-6371) 3], .arr
  [x r 8386 3, x r 4758 3], .arr [x r (-37016) 3, x r 12741 3], .arr [n 0, n 0], .arr [x r (-9678) 3, x r
  (-11452) 3]]), ("v", .arr [.arr [x r (-73192) 3, x r (-16927) 3], .arr [x r 8178 3, x r (-15394) 3], .arr [x
  r 66807 3, x r (-46766) 3], .arr [x r 26161 3, x r 11864 3], .arr [x r (-45144) 3, x r 19041 3], .arr [x r
  (-59756) 3, x r 2517 3]])]]), ("t", n 246)], .obj [("s", .arr [.obj [("c", .bool true), ("i", .arr [.arr [n
  0, n 0], .arr [x r (-36643) 3, x r 2948 3], .arr [x r (-8388) 3, x r (-4839) 3], .arr [x r 38225 3, x r
  (-13145) 3], .arr [n 0, n 0], .arr [x r 6209 3, x r 7499 3]]), ("o", .arr [.arr [n 0, n 0], .arr [x r 27589
  3, x r (-222) 2], .arr [x r 8386 3, x r 4758 3], .arr [x r (-37016) 3, x r 12741 3], .arr [n 0, n 0], .arr
  [x r (-9678) 3, x r (-11452) 3]]), ("v", .arr [.arr [x r (-62948) 3, x r (-40842) 3], .arr [x r 5178 3, x r
  (-16894) 3], .arr [x r 66807 3, x r (-46766) 3], .arr [x r 26161 3, x r 11864 3], .arr [x r (-45144) 3, x r
  9041 3], .arr [x r (-59756) 3, x r (-7484) 3]])]]), ("t", n 254)]]

/-- A value in `examples/assets/google_fonts/Tiger.json`. -/
def tiger17 : Json F :=
  .arr [.obj [("i", .obj [("x", x r 833 3), ("y", x r 833 3)]), ("o", .obj [("x", x r 167 3), ("y", x r 167
  3)]), ("s", .arr [.obj [("c", .bool true), ("i", .arr [.arr [x r (-4032) 3, x r (-13226) 3], .arr [x r
  (-18064) 3, x r 11936 3], .arr [x r 11935 3, x r (-807) 3], .arr [x r 12822 3, x r (-8387) 3]]), ("o", .arr
  [.arr [x r 2016 3, x r 6693 3], .arr [x r 34435 3, x r (-22822) 3], .arr [x r (-11935) 3, x r 806 3], .arr
  [x r (-12742) 3, x r 8306 3]]), ("v", .arr [.arr [x r (-6137) 2, x r 19903 3], .arr [x r 13387 3, x r 34354
  3], .arr [x r 53467 3, x r (-48789) 3], .arr [x r (-758) 2, x r 1049 3]])]]), ("t", n 68)], .obj [("i", .obj
  [("x", n 0), ("y", n 1)]), ("o", .obj [("x", x r 167 3), ("y", x r 167 3)]), ("s", .arr [.obj [("c", .bool
  true), ("i", .arr [.arr [x r (-5427) 3, x r (-12717) 3], .arr [x r (-16614) 3, x r 13883 3], .arr [x r 11773
  3, x r (-212) 2], .arr [x r 11832 3, x r (-9734) 3]]), ("o", .arr [.arr [x r 2744 3, x r 6429 3], .arr [x r
  31701 3, x r (-26489) 3], .arr [x r (-11773) 3, x r 212 2], .arr [x r (-11746) 3, x r 9664 3]]), ("v", .arr
  [.arr [x r (-33611) 3, x r (-12445) 3], .arr [x r 46785 3, x r (-6347) 3], .arr [x r 85428 3, x r (-90411)
  3], .arr [x r 23265 3, x r (-3813) 2]])]]), ("t", n 77)], .obj [("i", .obj [("x", x r 667 3), ("y", n 1)]),
  ("o", .obj [("x", x r 333 3), ("y", n 0)]), ("s", .arr [.obj [("c", .bool true), ("i", .arr [.arr [x r
  (-3988) 3, x r (-13239) 3], .arr [x r (-18047) 3, x r 11961 3], .arr [x r 11935 3, x r (-806) 3], .arr [x r
  12835 3, x r (-8367) 3]]), ("o", .arr [.arr [x r 2016 3, x r 6693 3], .arr [x r 34435 3, x r (-22822) 3],
  .arr [x r (-11935) 3, x r 806 3], .arr [x r (-12742) 3, x r 8306 3]]), ("v", .arr [.arr [x r (-3637) 2, x r
  42903 3], .arr [x r 36387 3, x r 34354 3], .arr [x r 68467 3, x r (-46789) 3], .arr [x r 1542 2, x r 1049
  3]])]]), ("t", n 84)], .obj [("i", .obj [("x", x r 667 3), ("y", n 1)]), ("o", .obj [("x", x r 333 3), ("y",
  n 0)]), ("s", .arr [.obj [("c", .bool true), ("i", .arr [.arr [x r (-3988) 3, x r (-13239) 3], .arr [x r
  (-18047) 3, x r 11961 3], .arr [x r 11935 3, x r (-806) 3], .arr [x r 12835 3, x r (-8367) 3]]), ("o", .arr
  [.arr [x r 2016 3, x r 6693 3], .arr [x r 34435 3, x r (-22822) 3], .arr [x r (-11935) 3, x r 806 3], .arr
  [x r (-12742) 3, x r 8306 3]]), ("v", .arr [.arr [x r (-3637) 2, x r 19903 3], .arr [x r 36387 3, x r 11354
  3], .arr [x r 68467 3, x r (-69789) 3], .arr [x r 1542 2, x r (-21951) 3]])]]), ("t", n 102)], .obj [("i",
  .obj [("x", x r 833 3), ("y", x r 833 3)]), ("o", .obj [("x", x r 333 3), ("y", n 0)]), ("s", .arr [.obj
  [("c", .bool true), ("i", .arr [.arr [x r (-3988) 3, x r (-13239) 3], .arr [x r (-18047) 3, x r 11961 3],
  .arr [x r 11935 3, x r (-806) 3], .arr [x r 12835 3, x r (-8367) 3]]), ("o", .arr [.arr [x r 2016 3, x r
  6693 3], .arr [x r 34435 3, x r (-22822) 3], .arr [x r (-11935) 3, x r 806 3], .arr [x r (-12742) 3, x r
  8306 3]]), ("v", .arr [.arr [x r (-3637) 2, x r 19903 3], .arr [x r 36387 3, x r 11354 3], .arr [x r 68467
  3, x r (-69789) 3], .arr [x r 1542 2, x r (-21951) 3]])]]), ("t", n 246)], .obj [("s", .arr [.obj [("c",
  .bool true), ("i", .arr [.arr [x r (-4032) 3, x r (-13226) 3], .arr [x r (-18064) 3, x r 11936 3], .arr [x r
  11935 3, x r (-807) 3], .arr [x r 12822 3, x r (-8387) 3]]), ("o", .arr [.arr [x r 2016 3, x r 6693 3], .arr
  [x r 34435 3, x r (-22822) 3], .arr [x r (-11935) 3, x r 806 3], .arr [x r (-12742) 3, x r 8306 3]]), ("v",
  .arr [.arr [x r (-3162) 2, x r 4903 3], .arr [x r 42887 3, x r 17354 3], .arr [x r 82967 3, x r (-63289) 3],
  .arr [x r 2192 2, x r (-15951) 3]])]]), ("t", n 254)]]

/-- A value in `examples/assets/google_fonts/Tiger.json`. -/
def tiger18 : Json F :=
  .arr [.obj [("i", .obj [("x", x r 833 3), ("y", x r 833 3)]), ("o", .obj [("x", x r 167 3), ("y", x r 167
  3)]), ("s", .arr [.obj [("c", .bool true), ("i", .arr [.arr [n 0, n 0], .arr [x r (-7338) 3, x r 2129 2],
  .arr [x r (-12339) 3, x r (-403) 3], .arr [x r 3548 3, x r (-1871) 2], .arr [n 0, n 0], .arr [x r 11836 3, x
  r 19 3]]), ("o", .arr [.arr [n 0, n 0], .arr [x r 4597 3, x r (-13226) 3], .arr [x r 12338 3, x r 403 3],
  .arr [x r (-3629) 3, x r 18709 3], .arr [n 0, n 0], .arr [x r (-9726) 3, x r (-42) 3]]), ("v", .arr [.arr [x
  r (-26834) 3, x r 41382 3], .arr [x r (-16458) 3, x r (-36245) 3], .arr [x r 10156 3, x r (-85922) 3], .arr
  [x r 1814 2, x r (-36084) 3], .arr [x r 27334 3, x r 40324 3], .arr [x r (-271) 3, x r 37335 3]])]]), ("t",
  n 68)], .obj [("i", .obj [("x", n 0), ("y", n 1)]), ("o", .obj [("x", x r 167 3), ("y", x r 167 3)]), ("s",
  .arr [.obj [("c", .bool true), ("i", .arr [.arr [n 0, n 0], .arr [x r (-7338) 3, x r 2129 2], .arr [x r
  (-12339) 3, x r (-403) 3], .arr [x r 3548 3, x r (-1871) 2], .arr [n 0, n 0], .arr [x r 10896 3, x r
  (-13457) 3]]), ("o", .arr [.arr [n 0, n 0], .arr [x r 4597 3, x r (-13226) 3], .arr [x r 12338 3, x r 403
  3], .arr [x r (-3629) 3, x r 18709 3], .arr [n 0, n 0], .arr [x r (-612) 2, x r 7559 3]]), ("v", .arr [.arr
  [x r (-30584) 3, x r 24632 3], .arr [x r (-16458) 3, x r (-36245) 3], .arr [x r 10156 3, x r (-85922) 3],
  .arr [x r 1814 2, x r (-36084) 3], .arr [x r 18084 3, x r (-32926) 3], .arr [x r (-6771) 3, x r 335 3]])]]),
  ("t", n 77)], .obj [("i", .obj [("x", x r 833 3), ("y", x r 833 3)]), ("o", .obj [("x", x r 333 3), ("y", n
  0)]), ("s", .arr [.obj [("c", .bool true), ("i", .arr [.arr [n 0, n 0], .arr [x r (-7338) 3, x r 2129 2],
  .arr [x r (-12339) 3, x r (-403) 3], .arr [x r 3548 3, x r (-1871) 2], .arr [n 0, n 0], .arr [x r 11836 3, x
  r 19 3]]), ("o", .arr [.arr [n 0, n 0], .arr [x r 4597 3, x r (-13226) 3], .arr [x r 12338 3, x r 403 3],
  .arr [x r (-1264) 3, x r 22961 3], .arr [n 0, n 0], .arr [x r (-9726) 3, x r (-42) 3]]), ("v", .arr [.arr [x
  r (-26834) 3, x r 64382 3], .arr [x r (-16458) 3, x r (-13245) 3], .arr [x r 10156 3, x r (-62922) 3], .arr
  [x r 1814 2, x r (-13084) 3], .arr [x r 27834 3, x r 58074 3], .arr [x r (-271) 3, x r 60335 3]])]]), ("t",
  n 84)], .obj [("i", .obj [("x", x r 667 3), ("y", n 1)]), ("o", .obj [("x", x r 167 3), ("y", x r 167 3)]),
  ("s", .arr [.obj [("c", .bool true), ("i", .arr [.arr [n 0, n 0], .arr [x r (-7338) 3, x r 2129 2], .arr [x
  r (-12339) 3, x r (-403) 3], .arr [x r 3548 3, x r (-1871) 2], .arr [n 0, n 0], .arr [x r 14396 3, x r
  (-4957) 3]]), ("o", .arr [.arr [n 0, n 0], .arr [x r 4597 3, x r (-13226) 3], .arr [x r 12338 3, x r 403 3],
  .arr [x r (-3629) 3, x r 18709 3], .arr [n 0, n 0], .arr [x r (-9196) 3, x r 3167 3]]), ("v", .arr [.arr [x
  r (-29084) 3, x r 56632 3], .arr [x r (-18208) 3, x r (-38745) 3], .arr [x r 8406 3, x r (-88422) 3], .arr
  [x r 1639 2, x r (-38584) 3], .arr [x r 24584 3, x r 34824 3], .arr [x r 1479 3, x r 44335 3]])]]), ("t", n
  102)], .obj [("i", .obj [("x", x r 833 3), ("y", x r 833 3)]), ("o", .obj [("x", x r 333 3), ("y", n 0)]),
  ("s", .arr [.obj [("c", .bool true), ("i", .arr [.arr [n 0, n 0], .arr [x r (-7338) 3, x r 2129 2], .arr [x
  r (-12339) 3, x r (-403) 3], .arr [x r 3548 3, x r (-1871) 2], .arr [n 0, n 0], .arr [x r 14396 3, x r
  (-4957) 3]]), ("o", .arr [.arr [n 0, n 0], .arr [x r 4597 3, x r (-13226) 3], .arr [x r 12338 3, x r 403 3],
  .arr [x r (-3629) 3, x r 18709 3], .arr [n 0, n 0], .arr [x r (-9196) 3, x r 3167 3]]), ("v", .arr [.arr [x
  r (-27334) 3, x r 62132 3], .arr [x r (-16458) 3, x r (-33245) 3], .arr [x r 10156 3, x r (-82922) 3], .arr
  [x r 1814 2, x r (-33084) 3], .arr [x r 26334 3, x r 40324 3], .arr [x r 3229 3, x r 49835 3]])]]), ("t", n
  246)], .obj [("s", .arr [.obj [("c", .bool true), ("i", .arr [.arr [n 0, n 0], .arr [x r (-8862) 3, x r
  35834 3], .arr [x r (-12103) 3, x r (-2428) 3], .arr [x r 6377 3, x r (-16391) 3], .arr [n 0, n 0], .arr [x
  r 15073 3, x r 939 3]]), ("o", .arr [.arr [n 0, n 0], .arr [x r 3304 3, x r (-13361) 3], .arr [x r 12102 3,
  x r 2428 3], .arr [x r (-6457) 3, x r 16376 3], .arr [n 0, n 0], .arr [x r (-17988) 3, x r (-1121) 3]]),
  ("v", .arr [.arr [x r (-11913) 3, x r (-8697) 3], .arr [x r 737 3, x r (-80207) 3], .arr [x r 3612 2, x r
  (-141853) 3], .arr [x r 36323 3, x r (-95278) 3], .arr [x r 26334 3, x r 30324 3], .arr [x r 9364 3, x r
  (-7502) 3]])]]), ("t", n 254)]]

/-- A value in `examples/assets/google_fonts/Tiger.json`. -/
def tiger19 : Json F :=
  .arr [.obj [("i", .obj [("x", x r 833 3), ("y", x r 833 3)]), ("o", .obj [("x", x r 167 3), ("y", x r 167
  3)]), ("s", .arr [.obj [("c", .bool true), ("i", .arr [.arr [n 0, n 0], .arr [x r 3548 3, x r (-12337) 3],
  .arr [x r (-629) 2, x r (-7176) 3], .arr [x r (-11936) 3, x r 2629 2], .arr [n 0, n 0], .arr [x r 15106 3, x
  r 8676 3]]), ("o", .arr [.arr [n 0, n 0], .arr [x r (-363) 2, x r 12339 3], .arr [x r 8225 3, x r 9436 3],
  .arr [x r 11935 3, x r (-2629) 2], .arr [n 0, n 0], .arr [x r (-11763) 3, x r (-6782) 3]]), ("v", .arr [.arr
  [x r (-291) 3, x r (-7246) 2], .arr [x r (-6753) 3, x r (-3685) 3], .arr [x r (-34897) 3, x r 60024 3], .arr
  [x r 25828 3, x r 10105 3], .arr [x r 41188 3, x r (-44795) 3], .arr [x r 21099 3, x r (-62382) 3]])]]),
  ("t", n 68)], .obj [("i", .obj [("x", n 0), ("y", n 1)]), ("o", .obj [("x", x r 167 3), ("y", x r 167 3)]),
  ("s", .arr [.obj [("c", .bool true), ("i", .arr [.arr [n 0, n 0], .arr [x r 3548 3, x r (-12337) 3], .arr [x
  r (-629) 2, x r (-7176) 3], .arr [x r (-11936) 3, x r 2629 2], .arr [n 0, n 0], .arr [x r 15106 3, x r 8676
  3]]), ("o", .arr [.arr [n 0, n 0], .arr [x r (-363) 2, x r 12339 3], .arr [x r 8225 3, x r 9436 3], .arr [x
  r 11935 3, x r (-2629) 2], .arr [n 0, n 0], .arr [x r (-11763) 3, x r (-6782) 3]]), ("v", .arr [.arr [x r
  4209 3, x r (-11246) 2], .arr [x r (-4253) 3, x r (-36685) 3], .arr [x r (-32897) 3, x r 28024 3], .arr [x r
  26828 3, x r (-21895) 3], .arr [x r 41188 3, x r (-77795) 3], .arr [x r 23599 3, x r (-98882) 3]])]]), ("t",
  n 77)], .obj [("i", .obj [("x", x r 833 3), ("y", x r 833 3)]), ("o", .obj [("x", x r 333 3), ("y", n 0)]),
  ("s", .arr [.obj [("c", .bool true), ("i", .arr [.arr [n 0, n 0], .arr [x r 3548 3, x r (-12337) 3], .arr [x
  r (-629) 2, x r (-7176) 3], .arr [x r (-11936) 3, x r 2629 2], .arr [n 0, n 0], .arr [x r 15106 3, x r 8676
  3]]), ("o", .arr [.arr [n 0, n 0], .arr [x r (-363) 2, x r 12339 3], .arr [x r 8225 3, x r 9436 3], .arr [x
  r 11935 3, x r (-2629) 2], .arr [n 0, n 0], .arr [x r (-11763) 3, x r (-6782) 3]]), ("v", .arr [.arr [x r
  (-1291) 3, x r (-6946) 2], .arr [x r (-6753) 3, x r (-3685) 3], .arr [x r (-34897) 3, x r 60024 3], .arr [x
  r 25828 3, x r 10105 3], .arr [x r 41188 3, x r (-42795) 3], .arr [x r 20099 3, x r (-59382) 3]])]]), ("t",
  n 84)], .obj [("i", .obj [("x", x r 667 3), ("y", n 1)]), ("o", .obj [("x", x r 167 3), ("y", x r 167 3)]),
  ("s", .arr [.obj [("c", .bool true), ("i", .arr [.arr [n 0, n 0], .arr [x r 3548 3, x r (-12337) 3], .arr [x
  r (-629) 2, x r (-7176) 3], .arr [x r (-11936) 3, x r 2629 2], .arr [n 0, n 0], .arr [x r 15106 3, x r 8676
  3]]), ("o", .arr [.arr [n 0, n 0], .arr [x r (-363) 2, x r 12339 3], .arr [x r 8225 3, x r 9436 3], .arr [x
  r 11935 3, x r (-2629) 2], .arr [n 0, n 0], .arr [x r (-11763) 3, x r (-6782) 3]]), ("v", .arr [.arr [x r
  (-1291) 3, x r (-8946) 2], .arr [x r (-6753) 3, x r (-23685) 3], .arr [x r (-34897) 3, x r 40024 3], .arr [x
  r 25828 3, x r (-9895) 3], .arr [x r 41188 3, x r (-62795) 3], .arr [x r 20099 3, x r (-79382) 3]])]]),
  ("t", n 102)], .obj [("i", .obj [("x", x r 667 3), ("y", n 1)]), ("o", .obj [("x", x r 333 3), ("y", n 0)]),
  ("s", .arr [.obj [("c", .bool true), ("i", .arr [.arr [n 0, n 0], .arr [x r 3548 3, x r (-12337) 3], .arr [x
  r (-629) 2, x r (-7176) 3], .arr [x r (-11936) 3, x r 2629 2], .arr [n 0, n 0], .arr [x r 15106 3, x r 8676
  3]]), ("o", .arr [.arr [n 0, n 0], .arr [x r (-363) 2, x r 12339 3], .arr [x r 8225 3, x r 9436 3], .arr [x
  r 11935 3, x r (-2629) 2], .arr [n 0, n 0], .arr [x r (-11763) 3, x r (-6782) 3]]), ("v", .arr [.arr [x r
  (-10976) 3, x r (-8946) 2], .arr [x r (-15437) 3, x r (-23685) 3], .arr [x r (-42582) 3, x r 40024 3], .arr
  [x r 17143 3, x r (-9895) 3], .arr [x r 31503 3, x r (-62795) 3], .arr [x r 10414 3, x r (-79382) 3]])]]),
  ("t", n 116)], .obj [("i", .obj [("x", x r 667 3), ("y", n 1)]), ("o", .obj [("x", x r 333 3), ("y", n 0)]),
  ("s", .arr [.obj [("c", .bool true), ("i", .arr [.arr [n 0, n 0], .arr [x r 3548 3, x r (-12337) 3], .arr [x
  r (-629) 2, x r (-7176) 3], .arr [x r (-11936) 3, x r 2629 2], .arr [n 0, n 0], .arr [x r 15106 3, x r 8676
  3]]), ("o", .arr [.arr [n 0, n 0], .arr [x r (-363) 2, x r 12339 3], .arr [x r 8225 3, x r 9436 3], .arr [x
  r 11935 3, x r (-2629) 2], .arr [n 0, n 0], .arr [x r (-11763) 3, x r (-6782) 3]]), ("v", .arr [.arr [x r
  (-10976) 3, x r (-8946) 2], .arr [x r (-15437) 3, x r (-23685) 3], .arr [x r (-42582) 3, x r 40024 3], .arr
  [x r 17143 3, x r (-9895) 3], .arr [x r 31503 3, x r (-62795) 3], .arr [x r 10414 3, x r (-79382) 3]])]]),
  ("t", n 140)], .obj [("i", .obj [("x", x r 667 3), ("y", n 1)]), ("o", .obj [("x", x r 333 3), ("y", n 0)]),
  ("s", .arr [.obj [("c", .bool true), ("i", .arr [.arr [n 0, n 0], .arr [x r 3548 3, x r (-12337) 3], .arr [x
  r (-629) 2, x r (-7176) 3], .arr [x r (-11936) 3, x r 2629 2], .arr [n 0, n 0], .arr [x r 15106 3, x r 8676
  3]]), ("o", .arr [.arr [n 0, n 0], .arr [x r (-363) 2, x r 12339 3], .arr [x r 8225 3, x r 9436 3], .arr [x
  r 11935 3, x r (-2629) 2], .arr [n 0, n 0], .arr [x r (-11763) 3, x r (-6782) 3]]), ("v", .arr [.arr [x r
  9808 3, x r (-8946) 2], .arr [x r 1347 3, x r (-23685) 3], .arr [x r (-26798) 3, x r 40024 3], .arr [x r
  33927 3, x r (-9895) 3], .arr [x r 52287 3, x r (-62795) 3], .arr [x r 31198 3, x r (-79382) 3]])]]), ("t",
  n 180)], .obj [("i", .obj [("x", x r 667 3), ("y", n 1)]), ("o", .obj [("x", x r 333 3), ("y", n 0)]), ("s",
  .arr [.obj [("c", .bool true), ("i", .arr [.arr [n 0, n 0], .arr [x r 3548 3, x r (-12337) 3], .arr [x r
  (-629) 2, x r (-7176) 3], .arr [x r (-11936) 3, x r 2629 2], .arr [n 0, n 0], .arr [x r 15106 3, x r 8676
  3]]), ("o", .arr [.arr [n 0, n 0], .arr [x r (-363) 2, x r 12339 3], .arr [x r 8225 3, x r 9436 3], .arr [x
  r 11935 3, x r (-2629) 2], .arr [n 0, n 0], .arr [x r (-11763) 3, x r (-6782) 3]]), ("v", .arr [.arr [x r
  9808 3, x r (-8946) 2], .arr [x r 1347 3, x r (-23685) 3], .arr [x r (-26798) 3, x r 40024 3], .arr [x r
  33927 3, x r (-9895) 3], .arr [x r 52287 3, x r (-62795) 3], .arr [x r 31198 3, x r (-79382) 3]])]]), ("t",
  n 196)], .obj [("i", .obj [("x", x r 667 3), ("y", n 1)]), ("o", .obj [("x", x r 333 3), ("y", n 0)]), ("s",
  .arr [.obj [("c", .bool true), ("i", .arr [.arr [n 0, n 0], .arr [x r 3548 3, x r (-12337) 3], .arr [x r
  (-629) 2, x r (-7176) 3], .arr [x r (-11936) 3, x r 2629 2], .arr [n 0, n 0], .arr [x r 15106 3, x r 8676
  3]]), ("o", .arr [.arr [n 0, n 0], .arr [x r (-363) 2, x r 12339 3], .arr [x r 8225 3, x r 9436 3], .arr [x
  r 11935 3, x r (-2629) 2], .arr [n 0, n 0], .arr [x r (-11763) 3, x r (-6782) 3]]), ("v", .arr [.arr [x r
  (-10976) 3, x r (-8946) 2], .arr [x r (-15437) 3, x r (-23685) 3], .arr [x r (-42582) 3, x r 40024 3], .arr
  [x r 17143 3, x r (-9895) 3], .arr [x r 31503 3, x r (-62795) 3], .arr [x r 10414 3, x r (-79382) 3]])]]),
  ("t", n 236)], .obj [("i", .obj [("x", x r 833 3), ("y", x r 833 3)]), ("o", .obj [("x", x r 333 3), ("y", n
  0)]), ("s", .arr [.obj [("c", .bool true), ("i", .arr [.arr [n 0, n 0], .arr [x r 3548 3, x r (-12337) 3],
  .arr [x r (-629) 2, x r (-7176) 3], .arr [x r (-11936) 3, x r 2629 2], .arr [n 0, n 0], .arr [x r 15106 3, x
  r 8676 3]]), ("o", .arr [.arr [n 0, n 0], .arr [x r (-363) 2, x r 12339 3], .arr [x r 8225 3, x r 9436 3],
  .arr [x r 11935 3, x r (-2629) 2], .arr [n 0, n 0], .arr [x r (-11763) 3, x r (-6782) 3]]), ("v", .arr [.arr
  [x r (-10976) 3, x r (-8946) 2], .arr [x r (-15437) 3, x r (-23685) 3], .arr [x r (-42582) 3, x r 40024 3],
  .arr [x r 17143 3, x r (-9895) 3], .arr [x r 31503 3, x r (-62795) 3], .arr [x r 10414 3, x r (-79382)
  3]])]]), ("t", n 246)], .obj [("i", .obj [("x", x r 833 3), ("y", x r 833 3)]), ("o", .obj [("x", x r 167
  3), ("y", x r 167 3)]), ("s", .arr [.obj [("c", .bool true), ("i", .arr [.arr [n 0, n 0], .arr [x r 3548 3,
  x r (-12337) 3], .arr [x r (-629) 2, x r (-7176) 3], .arr [x r (-11936) 3, x r 2629 2], .arr [n 0, n 0],
  .arr [x r 13787 3, x r 12189 3]]), ("o", .arr [.arr [n 0, n 0], .arr [x r (-363) 2, x r 12339 3], .arr [x r
  8225 3, x r 9436 3], .arr [x r 11935 3, x r (-2629) 2], .arr [n 0, n 0], .arr [x r (-10173) 3, x r (-8993)
  3]]), ("v", .arr [.arr [x r 3209 3, x r (-9946) 2], .arr [x r (-6753) 3, x r (-23685) 3], .arr [x r (-34897)
  3, x r 40024 3], .arr [x r 25828 3, x r (-9895) 3], .arr [x r 42188 3, x r (-63795) 3], .arr [x r 24099 3, x
  r (-84882) 3]])]]), ("t", n 250)], .obj [("i", .obj [("x", x r 833 3), ("y", x r 833 3)]), ("o", .obj [("x",
  x r 167 3), ("y", x r 167 3)]), ("s", .arr [.obj [("c", .bool true), ("i", .arr [.arr [n 0, n 0], .arr [x r
  3548 3, x r (-12337) 3], .arr [x r (-629) 2, x r (-7176) 3], .arr [x r (-11936) 3, x r 2629 2], .arr [n 0, n
  0], .arr [x r 14447 3, x r 10432 3]]), ("o", .arr [.arr [n 0, n 0], .arr [x r (-363) 2, x r 12339 3], .arr
  [x r 8225 3, x r 9436 3], .arr [x r 11935 3, x r (-2629) 2], .arr [n 0, n 0], .arr [x r (-10968) 3, x r
  (-7888) 3]]), ("v", .arr [.arr [x r 1709 3, x r (-10421) 2], .arr [x r (-6753) 3, x r (-23685) 3], .arr [x r
  (-34897) 3, x r 40024 3], .arr [x r 25828 3, x r (-9895) 3], .arr [x r 42188 3, x r (-63795) 3], .arr [x r
  29349 3, x r (-95382) 3]])]]), ("t", n 251)], .obj [("i", .obj [("x", x r 833 3), ("y", x r 833 3)]), ("o",
  .obj [("x", x r 167 3), ("y", x r 167 3)]), ("s", .arr [.obj [("c", .bool true), ("i", .arr [.arr [n 0, n
  0], .arr [x r 3548 3, x r (-12337) 3], .arr [x r (-629) 2, x r (-7176) 3], .arr [x r (-11936) 3, x r 2629
  2], .arr [n 0, n 0], .arr [x r 15106 3, x r 8676 3]]), ("o", .arr [.arr [n 0, n 0], .arr [x r (-363) 2, x r
  12339 3], .arr [x r 8225 3, x r 9436 3], .arr [x r 11935 3, x r (-2629) 2], .arr [n 0, n 0], .arr [x r
  (-11763) 3, x r (-6782) 3]]), ("v", .arr [.arr [x r 2209 3, x r (-10796) 2], .arr [x r (-6753) 3, x r
  (-23685) 3], .arr [x r (-34897) 3, x r 40024 3], .arr [x r 25828 3, x r (-9895) 3], .arr [x r 42188 3, x r
  (-63795) 3], .arr [x r 26099 3, x r (-100882) 3]])]]), ("t", n 252)], .obj [("s", .arr [.obj [("c", .bool
  true), ("i", .arr [.arr [n 0, n 0], .arr [x r 3548 3, x r (-12337) 3], .arr [x r (-629) 2, x r (-7176) 3],
  .arr [x r (-11936) 3, x r 2629 2], .arr [n 0, n 0], .arr [x r 13287 3, x r 16689 3]]), ("o", .arr [.arr [n
  0, n 0], .arr [x r (-363) 2, x r 12339 3], .arr [x r 8225 3, x r 9436 3], .arr [x r 11935 3, x r (-2629) 2],
  .arr [n 0, n 0], .arr [x r (-8457) 3, x r (-10622) 3]]), ("v", .arr [.arr [x r 3709 3, x r (-10346) 2], .arr
  [x r (-6753) 3, x r (-23685) 3], .arr [x r (-34897) 3, x r 40024 3], .arr [x r 25828 3, x r (-9895) 3], .arr
  [x r 42188 3, x r (-63795) 3], .arr [x r 24099 3, x r (-87382) 3]])]]), ("t", n 254)]]

/-- A value in `examples/assets/google_fonts/Tiger.json`. -/
def tiger20 : Json F :=
  .arr [.obj [("i", .obj [("x", x r 833 3), ("y", x r 833 3)]), ("o", .obj [("x", x r 167 3), ("y", x r 167
  3)]), ("s", .arr [.obj [("c", .bool true), ("i", .arr [.arr [x r (-9838) 3, x r (-121) 2], .arr [x r (-7177)
  3, x r 29516 3], .arr [n 0, n 0], .arr [x r 14901 3, x r 752 3], .arr [n 0, n 0], .arr [x r 645 3, x r
  (-44758) 3]]), ("o", .arr [.arr [x r 16129 3, x r 2097 3], .arr [x r 7177 3, x r (-29515) 3], .arr [n 0, n
  0], .arr [x r (-15533) 3, x r (-784) 3], .arr [n 0, n 0], .arr [x r (-404) 3, x r 23951 3]]), ("v", .arr
  [.arr [x r (-19055) 3, x r 7454 2], .arr [x r 19492 3, x r (-10217) 3], .arr [x r 28893 3, x r (-85637) 3],
  .arr [x r 219 2, x r (-88757) 3], .arr [x r (-26796) 3, x r (-87617) 3], .arr [x r (-21232) 3, x r (-20217)
  3]])]]), ("t", n 68)], .obj [("i", .obj [("x", n 0), ("y", n 1)]), ("o", .obj [("x", x r 167 3), ("y", x r
  167 3)]), ("s", .arr [.obj [("c", .bool true), ("i", .arr [.arr [x r (-9838) 3, x r (-121) 2], .arr [x r
  (-7177) 3, x r 29516 3], .arr [n 0, n 0], .arr [x r 14901 3, x r 752 3], .arr [n 0, n 0], .arr [x r 645 3, x
  r (-44758) 3]]), ("o", .arr [.arr [x r 16129 3, x r 2097 3], .arr [x r 7177 3, x r (-29515) 3], .arr [n 0, n
  0], .arr [x r (-15533) 3, x r (-784) 3], .arr [n 0, n 0], .arr [x r (-404) 3, x r 23951 3]]), ("v", .arr
  [.arr [x r (-5055) 3, x r 2554 2], .arr [x r 33492 3, x r (-59217) 3], .arr [x r 42893 3, x r (-134637) 3],
  .arr [x r 1619 2, x r (-137757) 3], .arr [x r (-12796) 3, x r (-136617) 3], .arr [x r (-7232) 3, x r
  (-69217) 3]])]]), ("t", n 77)], .obj [("i", .obj [("x", x r 833 3), ("y", x r 833 3)]), ("o", .obj [("x", x
  r 333 3), ("y", n 0)]), ("s", .arr [.obj [("c", .bool true), ("i", .arr [.arr [x r (-9838) 3, x r (-121) 2],
  .arr [x r (-7177) 3, x r 29516 3], .arr [n 0, n 0], .arr [x r 13455 3, x r (-807) 3], .arr [n 0, n 0], .arr
  [x r 645 3, x r (-44758) 3]]), ("o", .arr [.arr [x r 16129 3, x r 2097 3], .arr [x r 7177 3, x r (-29515)
  3], .arr [n 0, n 0], .arr [x r (-15526) 3, x r 904 3], .arr [n 0, n 0], .arr [x r (-404) 3, x r 23951 3]]),
  ("v", .arr [.arr [x r (-19055) 3, x r 7454 2], .arr [x r 19492 3, x r (-217) 3], .arr [x r 28893 3, x r
  (-74887) 3], .arr [x r (-131) 2, x r (-92507) 3], .arr [x r (-26796) 3, x r (-72617) 3], .arr [x r (-21232)
  3, x r (-10217) 3]])]]), ("t", n 84)], .obj [("i", .obj [("x", x r 667 3), ("y", n 1)]), ("o", .obj [("x", x
  r 167 3), ("y", x r 167 3)]), ("s", .arr [.obj [("c", .bool true), ("i", .arr [.arr [x r (-9838) 3, x r
  (-121) 2], .arr [x r (-7177) 3, x r 29516 3], .arr [n 0, n 0], .arr [x r 13455 3, x r (-807) 3], .arr [n 0,
  n 0], .arr [x r 645 3, x r (-44758) 3]]), ("o", .arr [.arr [x r 16129 3, x r 2097 3], .arr [x r 7177 3, x r
  (-29515) 3], .arr [n 0, n 0], .arr [x r (-15526) 3, x r 904 3], .arr [n 0, n 0], .arr [x r (-404) 3, x r
  23951 3]]), ("v", .arr [.arr [x r (-19055) 3, x r 5454 2], .arr [x r 19492 3, x r (-20217) 3], .arr [x r
  28893 3, x r (-96637) 3], .arr [x r (-31) 2, x r (-109507) 3], .arr [x r (-28546) 3, x r (-98117) 3], .arr
  [x r (-21232) 3, x r (-30217) 3]])]]), ("t", n 102)], .obj [("i", .obj [("x", x r 667 3), ("y", n 1)]),
  ("o", .obj [("x", x r 333 3), ("y", n 0)]), ("s", .arr [.obj [("c", .bool true), ("i", .arr [.arr [x r
  (-9838) 3, x r (-121) 2], .arr [x r (-4827) 3, x r 2999 2], .arr [n 0, n 0], .arr [x r 13455 3, x r (-807)
  3], .arr [n 0, n 0], .arr [x r (-2886) 3, x r (-44669) 3]]), ("o", .arr [.arr [x r 16129 3, x r 2097 3],
  .arr [x r 4827 3, x r (-29989) 3], .arr [n 0, n 0], .arr [x r (-15526) 3, x r 904 3], .arr [n 0, n 0], .arr
  [x r 1486 3, x r 23908 3]]), ("v", .arr [.arr [x r (-2524) 2, x r 5454 2], .arr [x r 11751 3, x r (-21594)
  3], .arr [x r 19209 3, x r (-96637) 3], .arr [x r (-8244) 3, x r (-111007) 3], .arr [x r (-3648) 2, x r
  (-92617) 3], .arr [x r (-29636) 3, x r (-28352) 3]])]]), ("t", n 116)], .obj [("i", .obj [("x", x r 667 3),
  ("y", n 1)]), ("o", .obj [("x", x r 333 3), ("y", n 0)]), ("s", .arr [.obj [("c", .bool true), ("i", .arr
  [.arr [x r (-9838) 3, x r (-121) 2], .arr [x r (-4827) 3, x r 2999 2], .arr [n 0, n 0], .arr [x r 13455 3, x
  r (-807) 3], .arr [n 0, n 0], .arr [x r (-2886) 3, x r (-44669) 3]]), ("o", .arr [.arr [x r 16129 3, x r
  2097 3], .arr [x r 4827 3, x r (-29989) 3], .arr [n 0, n 0], .arr [x r (-15526) 3, x r 904 3], .arr [n 0, n
  0], .arr [x r 1486 3, x r 23908 3]]), ("v", .arr [.arr [x r (-2524) 2, x r 5454 2], .arr [x r 11751 3, x r
  (-21594) 3], .arr [x r 19209 3, x r (-96637) 3], .arr [x r (-7994) 3, x r (-119507) 3], .arr [x r (-3648) 2,
  x r (-92617) 3], .arr [x r (-29636) 3, x r (-28352) 3]])]]), ("t", n 140)], .obj [("i", .obj [("x", x r 667
  3), ("y", n 1)]), ("o", .obj [("x", x r 333 3), ("y", n 0)]), ("s", .arr [.obj [("c", .bool true), ("i",
  .arr [.arr [x r (-9838) 3, x r (-121) 2], .arr [x r (-7177) 3, x r 29516 3], .arr [n 0, n 0], .arr [x r
  13455 3, x r (-807) 3], .arr [n 0, n 0], .arr [x r 645 3, x r (-44758) 3]]), ("o", .arr [.arr [x r 16129 3,
  x r 2097 3], .arr [x r 7177 3, x r (-29515) 3], .arr [n 0, n 0], .arr [x r (-15526) 3, x r 904 3], .arr [n
  0, n 0], .arr [x r (-404) 3, x r 23951 3]]), ("v", .arr [.arr [x r (-10956) 3, x r 5454 2], .arr [x r 27592
  3, x r (-20217) 3], .arr [x r 38243 3, x r (-95637) 3], .arr [x r 729 2, x r (-116757) 3], .arr [x r
  (-17196) 3, x r (-93617) 3], .arr [x r (-13133) 3, x r (-30217) 3]])]]), ("t", n 180)], .obj [("i", .obj
  [("x", x r 667 3), ("y", n 1)]), ("o", .obj [("x", x r 333 3), ("y", n 0)]), ("s", .arr [.obj [("c", .bool
  true), ("i", .arr [.arr [x r (-9838) 3, x r (-121) 2], .arr [x r (-7177) 3, x r 29516 3], .arr [n 0, n 0],
  .arr [x r 13455 3, x r (-807) 3], .arr [n 0, n 0], .arr [x r 645 3, x r (-44758) 3]]), ("o", .arr [.arr [x r
  16129 3, x r 2097 3], .arr [x r 7177 3, x r (-29515) 3], .arr [n 0, n 0], .arr [x r (-15526) 3, x r 904 3],
  .arr [n 0, n 0], .arr [x r (-404) 3, x r 23951 3]]), ("v", .arr [.arr [x r (-10956) 3, x r 5454 2], .arr [x
  r 27592 3, x r (-20216) 3], .arr [x r 38243 3, x r (-95637) 3], .arr [x r 929 2, x r (-107257) 3], .arr [x r
  (-17196) 3, x r (-93617) 3], .arr [x r (-13133) 3, x r (-30217) 3]])]]), ("t", n 196)], .obj [("i", .obj
  [("x", x r 667 3), ("y", n 1)]), ("o", .obj [("x", x r 333 3), ("y", n 0)]), ("s", .arr [.obj [("c", .bool
  true), ("i", .arr [.arr [x r (-9838) 3, x r (-121) 2], .arr [x r (-4827) 3, x r 2999 2], .arr [n 0, n 0],
  .arr [x r 13455 3, x r (-807) 3], .arr [n 0, n 0], .arr [x r (-2886) 3, x r (-44669) 3]]), ("o", .arr [.arr
  [x r 16129 3, x r 2097 3], .arr [x r 4827 3, x r (-29989) 3], .arr [n 0, n 0], .arr [x r (-15526) 3, x r 904
  3], .arr [n 0, n 0], .arr [x r 1486 3, x r 23908 3]]), ("v", .arr [.arr [x r (-2524) 2, x r 5454 2], .arr [x
  r 11751 3, x r (-21594) 3], .arr [x r 19209 3, x r (-96637) 3], .arr [x r (-7994) 3, x r (-115757) 3], .arr
  [x r (-3648) 2, x r (-92617) 3], .arr [x r (-29636) 3, x r (-28352) 3]])]]), ("t", n 236)], .obj [("i", .obj
  [("x", x r 833 3), ("y", x r 833 3)]), ("o", .obj [("x", x r 333 3), ("y", n 0)]), ("s", .arr [.obj [("c",
  .bool true), ("i", .arr [.arr [x r (-9838) 3, x r (-121) 2], .arr [x r (-4827) 3, x r 2999 2], .arr [n 0, n
  0], .arr [x r 13455 3, x r (-807) 3], .arr [n 0, n 0], .arr [x r (-2886) 3, x r (-44669) 3]]), ("o", .arr
  [.arr [x r 16129 3, x r 2097 3], .arr [x r 4827 3, x r (-29989) 3], .arr [n 0, n 0], .arr [x r (-15526) 3, x
  r 904 3], .arr [n 0, n 0], .arr [x r 1486 3, x r 23908 3]]), ("v", .arr [.arr [x r (-2524) 2, x r 5454 2],
  .arr [x r 11751 3, x r (-21594) 3], .arr [x r 19209 3, x r (-96637) 3], .arr [x r (-7494) 3, x r (-95757)
  3], .arr [x r (-3648) 2, x r (-92617) 3], .arr [x r (-29636) 3, x r (-28352) 3]])]]), ("t", n 246)], .obj
  [("i", .obj [("x", x r 833 3), ("y", x r 833 3)]), ("o", .obj [("x", x r 167 3), ("y", x r 167 3)]), ("s",
  .arr [.obj [("c", .bool true), ("i", .arr [.arr [x r (-9719) 3, x r (-1786) 3], .arr [x r (-8887) 3, x r
  28949 3], .arr [n 0, n 0], .arr [x r 13437 3, x r 1 3], .arr [n 0, n 0], .arr [x r 3287 3, x r (-44503)
  3]]), ("o", .arr [.arr [x r 15927 3, x r 304 2], .arr [x r 8887 3, x r (-28948) 3], .arr [n 0, n 0], .arr [x
  r (-15504) 3, x r (-18) 3], .arr [n 0, n 0], .arr [x r (-1818) 3, x r 23811 3]]), ("v", .arr [.arr [x r
  (-16836) 3, x r 44343 3], .arr [x r 25944 3, x r (-27774) 3], .arr [x r 41316 3, x r (-10864) 2], .arr [x r
  1169 2, x r (-110971) 3], .arr [x r (-14752) 3, x r (-106237) 3], .arr [x r (-13993) 3, x r (-40132)
  3]])]]), ("t", n 250)], .obj [("i", .obj [("x", x r 833 3), ("y", x r 833 3)]), ("o", .obj [("x", x r 167
  3), ("y", x r 167 3)]), ("s", .arr [.obj [("c", .bool true), ("i", .arr [.arr [x r (-9667) 3, x r (-2038)
  3], .arr [x r (-9637) 3, x r 287 1], .arr [n 0, n 0], .arr [x r 13429 3, x r 355 3], .arr [n 0, n 0], .arr
  [x r 4447 3, x r (-44391) 3]]), ("o", .arr [.arr [x r 15838 3, x r 3454 3], .arr [x r 9637 3, x r (-28699)
  3], .arr [n 0, n 0], .arr [x r (-15495) 3, x r (-423) 3], .arr [n 0, n 0], .arr [x r (-2438) 3, x r 2375
  2]]), ("v", .arr [.arr [x r (-15862) 3, x r 39868 3], .arr [x r 28775 3, x r (-3109) 2], .arr [x r 46609 3,
  x r (-116707) 3], .arr [x r 17767 3, x r (-125825) 3], .arr [x r (-10217) 3, x r (-119805) 3], .arr [x r
  (-10816) 3, x r (-44484) 3]])]]), ("t", n 251)], .obj [("i", .obj [("x", x r 833 3), ("y", x r 833 3)]),
  ("o", .obj [("x", x r 167 3), ("y", x r 167 3)]), ("s", .arr [.obj [("c", .bool true), ("i", .arr [.arr [x r
  (-9614) 3, x r (-2291) 3], .arr [x r (-10387) 3, x r 28451 3], .arr [n 0, n 0], .arr [x r 13421 3, x r 709
  3], .arr [n 0, n 0], .arr [x r 5606 3, x r (-44279) 3]]), ("o", .arr [.arr [x r 1575 2, x r 3868 3], .arr [x
  r 10387 3, x r (-2845) 2], .arr [n 0, n 0], .arr [x r (-15485) 3, x r (-827) 3], .arr [n 0, n 0], .arr [x r
  (-3058) 3, x r 23688 3]]), ("v", .arr [.arr [x r (-14888) 3, x r 35392 3], .arr [x r 31606 3, x r (-34407)
  3], .arr [x r 53902 3, x r (-117774) 3], .arr [x r 23844 3, x r (-13518) 2], .arr [x r (-4182) 3, x r
  (-126874) 3], .arr [x r (-7639) 3, x r (-48835) 3]])]]), ("t", n 252)], .obj [("s", .arr [.obj [("c", .bool
  true), ("i", .arr [.arr [x r (-951) 2, x r (-2796) 3], .arr [x r (-11888) 3, x r 27953 3], .arr [n 0, n 0],
  .arr [x r 14094 3, x r 7384 3], .arr [n 0, n 0], .arr [x r 7925 3, x r (-44055) 3]]), ("o", .arr [.arr [x r
  15572 3, x r 4696 3], .arr [x r 11888 3, x r (-27952) 3], .arr [n 0, n 0], .arr [x r (-13776) 3, x r (-7218)
  3], .arr [n 0, n 0], .arr [x r (-4299) 3, x r 23566 3]]), ("v", .arr [.arr [x r (-1294) 2, x r 26442 3],
  .arr [x r 37268 3, x r (-41039) 3], .arr [x r 58988 3, x r (-118409) 3], .arr [x r 35998 3, x r (-130889)
  3], .arr [x r 5388 3, x r (-141011) 3], .arr [x r (-1285) 3, x r (-57538) 3]])]]), ("t", n 254)]]

/-- A value in `examples/assets/google_fonts/Tiger.json`. -/
def tiger21 : Json F :=
  .arr [.obj [("i", .obj [("x", x r 833 3), ("y", x r 833 3)]), ("o", .obj [("x", x r 167 3), ("y", x r 167
  3)]), ("s", .arr [.obj [("c", .bool true), ("i", .arr [.arr [n 0, n 0], .arr [x r (-6159) 3, x r (-46563)
  3], .arr [x r (-9233) 3, x r 868 3], .arr [x r (-442) 3, x r 4613 2], .arr [n 0, n 0], .arr [x r 8867 3, x r
  (-9163) 3]]), ("o", .arr [.arr [n 0, n 0], .arr [x r 4081 3, x r 30477 3], .arr [x r 11883 3, x r (-1117)
  3], .arr [x r 442 3, x r (-4613) 2], .arr [n 0, n 0], .arr [x r (-10914) 3, x r 11445 3]]), ("v", .arr [.arr
  [x r (-25631) 3, x r (-72918) 3], .arr [x r (-16256) 3, x r (-15951) 3], .arr [x r 5902 3, x r 66368 3],
  .arr [x r 29189 3, x r (-27277) 3], .arr [x r 28237 3, x r (-117237) 3], .arr [x r (-6523) 3, x r (-94344)
  3]])]]), ("t", n 68)], .obj [("i", .obj [("x", n 0), ("y", n 1)]), ("o", .obj [("x", x r 167 3), ("y", x r
  167 3)]), ("s", .arr [.obj [("c", .bool true), ("i", .arr [.arr [n 0, n 0], .arr [x r (-9617) 3, x r
  (-48675) 3], .arr [x r (-9233) 3, x r 868 3], .arr [x r (-442) 3, x r 4613 2], .arr [n 0, n 0], .arr [x r
  8867 3, x r (-9163) 3]]), ("o", .arr [.arr [n 0, n 0], .arr [x r 6883 3, x r 29825 3], .arr [x r 11883 3, x
  r (-1117) 3], .arr [x r 442 3, x r (-4613) 2], .arr [n 0, n 0], .arr [x r (-10914) 3, x r 11445 3]]), ("v",
  .arr [.arr [x r (-24631) 3, x r (-130918) 3], .arr [x r 4744 3, x r (-6595) 2], .arr [x r 37902 3, x r 19868
  3], .arr [x r 47189 3, x r (-60777) 3], .arr [x r 33737 3, x r (-158237) 3], .arr [x r 12977 3, x r
  (-150344) 3]])]]), ("t", n 77)], .obj [("i", .obj [("x", x r 833 3), ("y", x r 833 3)]), ("o", .obj [("x", x
  r 333 3), ("y", n 0)]), ("s", .arr [.obj [("c", .bool true), ("i", .arr [.arr [n 0, n 0], .arr [x r (-6159)
  3, x r (-46563) 3], .arr [x r (-9233) 3, x r 868 3], .arr [x r (-442) 3, x r 4613 2], .arr [n 0, n 0], .arr
  [x r 8867 3, x r (-9163) 3]]), ("o", .arr [.arr [n 0, n 0], .arr [x r 4081 3, x r 30477 3], .arr [x r 11883
  3, x r (-1117) 3], .arr [x r 442 3, x r (-4613) 2], .arr [n 0, n 0], .arr [x r (-10914) 3, x r 11445 3]]),
  ("v", .arr [.arr [x r (-25631) 3, x r (-52418) 3], .arr [x r (-16256) 3, x r 705 2], .arr [x r 5902 3, x r
  89368 3], .arr [x r 28189 3, x r (-3277) 3], .arr [x r 27237 3, x r (-97737) 3], .arr [x r (-18773) 3, x r
  (-92594) 3]])]]), ("t", n 84)], .obj [("i", .obj [("x", x r 667 3), ("y", n 1)]), ("o", .obj [("x", x r 167
  3), ("y", x r 167 3)]), ("s", .arr [.obj [("c", .bool true), ("i", .arr [.arr [n 0, n 0], .arr [x r (-6159)
  3, x r (-46563) 3], .arr [x r (-9233) 3, x r 868 3], .arr [x r (-2062) 3, x r 48151 3], .arr [n 0, n 0],
  .arr [x r 8867 3, x r (-9163) 3]]), ("o", .arr [.arr [n 0, n 0], .arr [x r 4081 3, x r 30477 3], .arr [x r
  11883 3, x r (-1117) 3], .arr [x r 1974 3, x r (-4609) 2], .arr [n 0, n 0], .arr [x r (-10914) 3, x r 11445
  3]]), ("v", .arr [.arr [x r (-25631) 3, x r (-69918) 3], .arr [x r (-16256) 3, x r (-12951) 3], .arr [x r
  5902 3, x r 69368 3], .arr [x r 28189 3, x r (-29277) 3], .arr [x r 33237 3, x r (-122237) 3], .arr [x r
  (-21773) 3, x r (-116594) 3]])]]), ("t", n 102)], .obj [("i", .obj [("x", x r 667 3), ("y", n 1)]), ("o",
  .obj [("x", x r 333 3), ("y", n 0)]), ("s", .arr [.obj [("c", .bool true), ("i", .arr [.arr [n 0, n 0], .arr
  [x r (-6159) 3, x r (-46563) 3], .arr [x r (-9233) 3, x r 868 3], .arr [x r (-442) 3, x r 4613 2], .arr [n
  0, n 0], .arr [x r 8867 3, x r (-9163) 3]]), ("o", .arr [.arr [n 0, n 0], .arr [x r 4081 3, x r 30477 3],
  .arr [x r 11883 3, x r (-1117) 3], .arr [x r 442 3, x r (-4613) 2], .arr [n 0, n 0], .arr [x r (-10914) 3, x
  r 11445 3]]), ("v", .arr [.arr [x r (-25631) 3, x r (-69918) 3], .arr [x r (-16256) 3, x r (-12951) 3], .arr
  [x r 5902 3, x r 69368 3], .arr [x r 28189 3, x r (-28276) 3], .arr [x r 24737 3, x r (-118487) 3], .arr [x
  r (-18773) 3, x r (-111594) 3]])]]), ("t", n 116)], .obj [("i", .obj [("x", x r 667 3), ("y", n 1)]), ("o",
  .obj [("x", x r 333 3), ("y", n 0)]), ("s", .arr [.obj [("c", .bool true), ("i", .arr [.arr [n 0, n 0], .arr
  [x r (-6159) 3, x r (-46563) 3], .arr [x r (-9233) 3, x r 868 3], .arr [x r (-442) 3, x r 4613 2], .arr [n
  0, n 0], .arr [x r 8867 3, x r (-9163) 3]]), ("o", .arr [.arr [n 0, n 0], .arr [x r 4081 3, x r 30477 3],
  .arr [x r 11883 3, x r (-1117) 3], .arr [x r 442 3, x r (-4613) 2], .arr [n 0, n 0], .arr [x r (-10914) 3, x
  r 11445 3]]), ("v", .arr [.arr [x r (-25631) 3, x r (-69918) 3], .arr [x r (-16256) 3, x r (-12951) 3], .arr
  [x r 5902 3, x r 69368 3], .arr [x r 28189 3, x r (-28276) 3], .arr [x r 24737 3, x r (-118487) 3], .arr [x
  r (-19773) 3, x r (-103344) 3]])]]), ("t", n 140)], .obj [("i", .obj [("x", x r 667 3), ("y", n 1)]), ("o",
  .obj [("x", x r 333 3), ("y", n 0)]), ("s", .arr [.obj [("c", .bool true), ("i", .arr [.arr [n 0, n 0], .arr
  [x r (-6159) 3, x r (-46563) 3], .arr [x r (-9233) 3, x r 868 3], .arr [x r (-2062) 3, x r 48151 3], .arr [n
  0, n 0], .arr [x r 8867 3, x r (-9163) 3]]), ("o", .arr [.arr [n 0, n 0], .arr [x r 4081 3, x r 30477 3],
  .arr [x r 11883 3, x r (-1117) 3], .arr [x r 1974 3, x r (-4609) 2], .arr [n 0, n 0], .arr [x r (-10914) 3,
  x r 11445 3]]), ("v", .arr [.arr [x r (-27881) 3, x r (-78668) 3], .arr [x r (-16256) 3, x r (-1295) 2],
  .arr [x r 5902 3, x r 69368 3], .arr [x r 30189 3, x r (-32277) 3], .arr [x r 34737 3, x r (-126737) 3],
  .arr [x r (-10773) 3, x r (-103344) 3]])]]), ("t", n 180)], .obj [("i", .obj [("x", x r 667 3), ("y", n
  1)]), ("o", .obj [("x", x r 333 3), ("y", n 0)]), ("s", .arr [.obj [("c", .bool true), ("i", .arr [.arr [n
  0, n 0], .arr [x r (-6159) 3, x r (-46563) 3], .arr [x r (-9233) 3, x r 868 3], .arr [x r (-2062) 3, x r
  48151 3], .arr [n 0, n 0], .arr [x r 8867 3, x r (-9163) 3]]), ("o", .arr [.arr [n 0, n 0], .arr [x r 4081
  3, x r 30477 3], .arr [x r 11883 3, x r (-1117) 3], .arr [x r 1974 3, x r (-4609) 2], .arr [n 0, n 0], .arr
  [x r (-10914) 3, x r 11445 3]]), ("v", .arr [.arr [x r (-25631) 3, x r (-69918) 3], .arr [x r (-16256) 3, x
  r (-12951) 3], .arr [x r 5902 3, x r 69368 3], .arr [x r 30189 3, x r (-32277) 3], .arr [x r 34237 3, x r
  (-120237) 3], .arr [x r (-17273) 3, x r (-109594) 3]])]]), ("t", n 196)], .obj [("i", .obj [("x", x r 667
  3), ("y", n 1)]), ("o", .obj [("x", x r 333 3), ("y", n 0)]), ("s", .arr [.obj [("c", .bool true), ("i",
  .arr [.arr [n 0, n 0], .arr [x r (-6159) 3, x r (-46563) 3], .arr [x r (-9233) 3, x r 868 3], .arr [x r
  (-442) 3, x r 4613 2], .arr [n 0, n 0], .arr [x r 8867 3, x r (-9163) 3]]), ("o", .arr [.arr [n 0, n 0],
  .arr [x r 4081 3, x r 30477 3], .arr [x r 11883 3, x r (-1117) 3], .arr [x r 442 3, x r (-4613) 2], .arr [n
  0, n 0], .arr [x r (-10914) 3, x r 11445 3]]), ("v", .arr [.arr [x r (-25631) 3, x r (-69918) 3], .arr [x r
  (-16256) 3, x r (-12951) 3], .arr [x r 5902 3, x r 69368 3], .arr [x r 28189 3, x r (-28276) 3], .arr [x r
  24737 3, x r (-118487) 3], .arr [x r (-18273) 3, x r (-103094) 3]])]]), ("t", n 236)], .obj [("i", .obj
  [("x", x r 833 3), ("y", x r 833 3)]), ("o", .obj [("x", x r 333 3), ("y", n 0)]), ("s", .arr [.obj [("c",
  .bool true), ("i", .arr [.arr [n 0, n 0], .arr [x r (-6159) 3, x r (-46563) 3], .arr [x r (-9233) 3, x r 868
  3], .arr [x r (-442) 3, x r 4613 2], .arr [n 0, n 0], .arr [x r 8867 3, x r (-9163) 3]]), ("o", .arr [.arr
  [n 0, n 0], .arr [x r 4081 3, x r 30477 3], .arr [x r 11883 3, x r (-1117) 3], .arr [x r 442 3, x r (-4613)
  2], .arr [n 0, n 0], .arr [x r (-10914) 3, x r 11445 3]]), ("v", .arr [.arr [x r (-25631) 3, x r (-69918)
  3], .arr [x r (-16256) 3, x r (-12951) 3], .arr [x r 5902 3, x r 69368 3], .arr [x r 28189 3, x r (-28276)
  3], .arr [x r 24737 3, x r (-118487) 3], .arr [x r (-19523) 3, x r (-110094) 3]])]]), ("t", n 246)], .obj
  [("i", .obj [("x", x r 833 3), ("y", x r 833 3)]), ("o", .obj [("x", x r 167 3), ("y", x r 167 3)]), ("s",
  .arr [.obj [("c", .bool true), ("i", .arr [.arr [n 0, n 0], .arr [x r (-1672) 3, x r (-46561) 3], .arr [x r
  (-9199) 3, x r (-17) 3], .arr [x r (-5838) 3, x r 46796 3], .arr [n 0, n 0], .arr [x r 16253 3, x r (-9133)
  3]]), ("o", .arr [.arr [n 0, n 0], .arr [x r 1143 3, x r 3048 2], .arr [x r 11839 3, x r 23 3], .arr [x r
  5782 3, x r (-45482) 3], .arr [n 0, n 0], .arr [x r (-9432) 3, x r 53 1]]), ("v", .arr [.arr [x r (-4523) 3,
  x r (-105774) 3], .arr [x r (-661) 3, x r (-48636) 3], .arr [x r 13421 3, x r 34747 3], .arr [x r 42773 3, x
  r (-50069) 3], .arr [x r 52916 3, x r (-135791) 3], .arr [x r 18374 3, x r (-120493) 3]])]]), ("t", n 250)],
  .obj [("s", .arr [.obj [("c", .bool true), ("i", .arr [.arr [n 0, n 0], .arr [x r 6206 3, x r (-46557) 3],
  .arr [x r (-914) 2, x r (-1572) 3], .arr [x r (-12465) 3, x r 44416 3], .arr [n 0, n 0], .arr [x r 15938 3,
  x r 1214 3]]), ("o", .arr [.arr [n 0, n 0], .arr [x r (-4014) 3, x r 30486 3], .arr [x r 11763 3, x r 2023
  3], .arr [x r 12465 3, x r (-44416) 3], .arr [n 0, n 0], .arr [x r (-15938) 3, x r (-1214) 3]]), ("v", .arr
  [.arr [x r 31528 3, x r (-191713) 3], .arr [x r 26712 3, x r (-111274) 3], .arr [x r 2662 2, x r (-26025)
  3], .arr [x r 68371 3, x r (-86565) 3], .arr [x r 8057 2, x r (-192492) 3], .arr [x r 54565 3, x r (-194411)
  3]])]]), ("t", n 254)]]

/-- A value in `examples/assets/google_fonts/Tiger.json`. -/
def tiger22 : Json F :=
  .arr [.obj [("i", .obj [("x", x r 833 3), ("y", x r 833 3)]), ("o", .obj [("x", x r 167 3), ("y", x r 167
  3)]), ("s", .arr [.obj [("c", .bool false), ("i", .arr [.arr [n 0, n 0], .arr [x r (-7562) 3, x r (-16267)
  3], .arr [x r (-4482) 3, x r (-6075) 3], .arr [x r (-19998) 3, x r (-12373) 3], .arr [x r (-967) 3, x r
  (-30805) 3], .arr [x r (-13951) 3, x r (-1613) 3], .arr [x r 8791 3, x r 5242 3], .arr [x r (-322) 3, x r
  28952 3], .arr [x r 5248 3, x r 5043 3], .arr [x r 121 2, x r 2822 3], .arr [x r 11879 3, x r 18305 3], .arr
  [x r 3629 3, x r 3227 3]]), ("o", .arr [.arr [n 0, n 0], .arr [x r 6951 3, x r 14953 3], .arr [x r 4482 3, x
  r 6075 3], .arr [x r (-564) 3, x r 1612 3], .arr [x r 807 3, x r 27097 3], .arr [x r 13952 3, x r 1612 3],
  .arr [x r (-879) 2, x r (-5162) 3], .arr [x r 404 3, x r (-37983) 3], .arr [x r (-28153) 3, x r (-27053) 3],
  .arr [x r (-1209) 3, x r (-2822) 3], .arr [x r (-11879) 3, x r (-18305) 3], .arr [n 0, n 0]]), ("v", .arr
  [.arr [x r (-44919) 3, x r (-1057) 1], .arr [x r (-37483) 3, x r (-60829) 3], .arr [x r (-19514) 3, x r
  (-41201) 3], .arr [x r 3829 3, x r 8986 3], .arr [x r (-13226) 3, x r 56491 3], .arr [x r 2508 2, x r 97056
  3], .arr [x r 36128 3, x r 92943 3], .arr [x r 4435 3, x r 55281 3], .arr [x r 22496 3, x r 9874 3], .arr [x
  r 16839 3, x r (-21913) 3], .arr [x r (-10403) 3, x r (-44071) 3], .arr [x r (-23871) 3, x r (-121668)
  3]])]]), ("t", n 68)], .obj [("i", .obj [("x", n 0), ("y", n 1)]), ("o", .obj [("x", x r 167 3), ("y", x r
  167 3)]), ("s", .arr [.obj [("c", .bool false), ("i", .arr [.arr [n 0, n 0], .arr [x r (-7562) 3, x r
  (-16267) 3], .arr [x r (-4482) 3, x r (-6075) 3], .arr [x r (-19998) 3, x r (-12373) 3], .arr [x r (-967) 3,
  x r (-30805) 3], .arr [x r (-13951) 3, x r (-1613) 3], .arr [x r 8791 3, x r 5242 3], .arr [x r (-322) 3, x
  r 28952 3], .arr [x r (-335) 2, x r 6461 3], .arr [x r 121 2, x r 2822 3], .arr [x r 11879 3, x r 18305 3],
  .arr [x r 3629 3, x r 3227 3]]), ("o", .arr [.arr [n 0, n 0], .arr [x r 6951 3, x r 14953 3], .arr [x r 4482
  3, x r 6075 3], .arr [x r (-564) 3, x r 1612 3], .arr [x r 807 3, x r 27097 3], .arr [x r 13952 3, x r 1612
  3], .arr [x r (-879) 2, x r (-5162) 3], .arr [x r 404 3, x r (-37983) 3], .arr [x r 6222 3, m (-12)], .arr
  [x r (-1209) 3, x r (-2822) 3], .arr [x r (-11879) 3, x r (-18305) 3], .arr [n 0, n 0]]), ("v", .arr [.arr
  [x r (-44919) 3, x r (-1057) 1], .arr [x r (-37483) 3, x r (-60829) 3], .arr [x r (-19514) 3, x r (-41201)
  3], .arr [x r 3829 3, x r 8986 3], .arr [x r (-13226) 3, x r 56491 3], .arr [x r 2508 2, x r 97056 3], .arr
  [x r 36128 3, x r 92943 3], .arr [x r 4435 3, x r 55281 3], .arr [x r 22496 3, x r 9874 3], .arr [x r 16839
  3, x r (-21913) 3], .arr [x r (-10403) 3, x r (-44071) 3], .arr [x r (-23871) 3, x r (-121668) 3]])]]),
  ("t", n 77)], .obj [("i", .obj [("x", x r 833 3), ("y", x r 833 3)]), ("o", .obj [("x", x r 333 3), ("y", n
  0)]), ("s", .arr [.obj [("c", .bool false), ("i", .arr [.arr [n 0, n 0], .arr [x r (-7562) 3, x r (-16267)
  3], .arr [x r (-4482) 3, x r (-6075) 3], .arr [x r (-19998) 3, x r (-12373) 3], .arr [x r (-967) 3, x r
  (-30805) 3], .arr [x r (-13951) 3, x r (-1613) 3], .arr [x r 8791 3, x r 5242 3], .arr [x r (-322) 3, x r
  28952 3], .arr [x r 5248 3, x r 5043 3], .arr [x r 121 2, x r 2822 3], .arr [x r 11879 3, x r 18305 3], .arr
  [x r 3629 3, x r 3227 3]]), ("o", .arr [.arr [n 0, n 0], .arr [x r 6951 3, x r 14953 3], .arr [x r 4482 3, x
  r 6075 3], .arr [x r (-564) 3, x r 1612 3], .arr [x r 807 3, x r 27097 3], .arr [x r 13952 3, x r 1612 3],
  .arr [x r (-879) 2, x r (-5162) 3], .arr [x r 404 3, x r (-37983) 3], .arr [x r (-28153) 3, x r (-27053) 3],
  .arr [x r (-1209) 3, x r (-2822) 3], .arr [x r (-11879) 3, x r (-18305) 3], .arr [n 0, n 0]]), ("v", .arr
  [.arr [x r (-44919) 3, x r (-827) 1], .arr [x r (-37483) 3, x r (-37829) 3], .arr [x r (-19514) 3, x r
  (-18201) 3], .arr [x r 3829 3, x r 8986 3], .arr [x r (-13226) 3, x r 56491 3], .arr [x r 2508 2, x r 97056
  3], .arr [x r 36128 3, x r 92943 3], .arr [x r 4435 3, x r 55281 3], .arr [x r 22496 3, x r 9874 3], .arr [x
  r 16839 3, x r (-21913) 3], .arr [x r (-10403) 3, x r (-44071) 3], .arr [x r (-23871) 3, x r (-98668)
  3]])]]), ("t", n 84)], .obj [("i", .obj [("x", x r 667 3), ("y", n 1)]), ("o", .obj [("x", x r 167 3), ("y",
  x r 167 3)]), ("s", .arr [.obj [("c", .bool false), ("i", .arr [.arr [n 0, n 0], .arr [x r (-3777) 3, x r
  (-28206) 3], .arr [x r (-6133) 3, x r (-8151) 3], .arr [x r (-2111) 3, x r (-8362) 3], .arr [x r (-967) 3, x
  r (-30805) 3], .arr [x r (-13951) 3, x r (-1613) 3], .arr [x r 8791 3, x r 5242 3], .arr [x r (-322) 3, x r
  28952 3], .arr [x r 4439 3, x r 5768 3], .arr [x r 5121 3, x r 10213 3], .arr [x r 2371 3, x r 15445 3],
  .arr [x r 3629 3, x r 3227 3]]), ("o", .arr [.arr [n 0, n 0], .arr [x r 1701 3, x r 12703 3], .arr [x r
  15482 3, x r 20575 3], .arr [x r (-564) 3, x r 1612 3], .arr [x r 807 3, x r 27097 3], .arr [x r 13952 3, x
  r 1612 3], .arr [x r (-879) 2, x r (-5162) 3], .arr [x r 404 3, x r (-37983) 3], .arr [x r (-15778) 3, x r
  (-205) 1], .arr [x r (-5121) 3, x r (-10213) 3], .arr [x r (-1832) 3, x r (-11931) 3], .arr [n 0, n 0]]),
  ("v", .arr [.arr [x r (-44919) 3, x r (-1027) 1], .arr [x r (-48733) 3, x r (-56329) 3], .arr [x r (-32764)
  3, x r (-25701) 3], .arr [x r 3829 3, x r 8986 3], .arr [x r (-13226) 3, x r 56491 3], .arr [x r 2508 2, x r
  97056 3], .arr [x r 36128 3, x r 92943 3], .arr [x r 4435 3, x r 55281 3], .arr [x r 22496 3, x r 9874 3],
  .arr [x r (-9411) 3, x r (-38663) 3], .arr [x r (-19403) 3, x r (-73321) 3], .arr [x r (-23871) 3, x r
  (-118668) 3]])]]), ("t", n 102)], .obj [("i", .obj [("x", x r 833 3), ("y", x r 833 3)]), ("o", .obj [("x",
  x r 333 3), ("y", n 0)]), ("s", .arr [.obj [("c", .bool false), ("i", .arr [.arr [n 0, n 0], .arr [x r
  (-3777) 3, x r (-28206) 3], .arr [x r (-6133) 3, x r (-8151) 3], .arr [x r (-2111) 3, x r (-8362) 3], .arr
  [x r (-967) 3, x r (-30805) 3], .arr [x r (-13951) 3, x r (-1613) 3], .arr [x r 8791 3, x r 5242 3], .arr [x
  r (-322) 3, x r 28952 3], .arr [x r 4439 3, x r 5768 3], .arr [x r 5121 3, x r 10213 3], .arr [x r 2371 3, x
  r 15445 3], .arr [x r 3629 3, x r 3227 3]]), ("o", .arr [.arr [n 0, n 0], .arr [x r 1701 3, x r 12703 3],
  .arr [x r 15482 3, x r 20575 3], .arr [x r (-564) 3, x r 1612 3], .arr [x r 807 3, x r 27097 3], .arr [x r
  13952 3, x r 1612 3], .arr [x r (-879) 2, x r (-5162) 3], .arr [x r 404 3, x r (-37983) 3], .arr [x r
  (-15778) 3, x r (-205) 1], .arr [x r (-5121) 3, x r (-10213) 3], .arr [x r (-1832) 3, x r (-11931) 3], .arr
  [n 0, n 0]]), ("v", .arr [.arr [x r (-44919) 3, x r (-1027) 1], .arr [x r (-48733) 3, x r (-56329) 3], .arr
  [x r (-32764) 3, x r (-25701) 3], .arr [x r 3829 3, x r 8986 3], .arr [x r (-13226) 3, x r 56491 3], .arr [x
  r 2508 2, x r 97056 3], .arr [x r 36128 3, x r 92943 3], .arr [x r 4435 3, x r 55281 3], .arr [x r 22496 3,
  x r 9874 3], .arr [x r (-9411) 3, x r (-38663) 3], .arr [x r (-19403) 3, x r (-73321) 3], .arr [x r (-23871)
  3, x r (-118668) 3]])]]), ("t", n 246)], .obj [("s", .arr [.obj [("c", .bool false), ("i", .arr [.arr [n 0,
  n 0], .arr [x r 616 3, x r (-26235) 3], .arr [x r (-6133) 3, x r (-8151) 3], .arr [x r (-2111) 3, x r
  (-8362) 3], .arr [x r (-967) 3, x r (-30805) 3], .arr [x r (-13951) 3, x r (-1613) 3], .arr [x r 8791 3, x r
  5242 3], .arr [x r (-322) 3, x r 28952 3], .arr [x r 4439 3, x r 5768 3], .arr [x r 5121 3, x r 10213 3],
  .arr [x r 2371 3, x r 15445 3], .arr [x r 6089 3, x r 28042 3]]), ("o", .arr [.arr [n 0, n 0], .arr [x r
  (-278) 3, x r 11816 3], .arr [x r 15482 3, x r 20575 3], .arr [x r (-564) 3, x r 1612 3], .arr [x r 807 3, x
  r 27097 3], .arr [x r 13952 3, x r 1612 3], .arr [x r (-879) 2, x r (-5162) 3], .arr [x r 404 3, x r
  (-37983) 3], .arr [x r (-15778) 3, x r (-205) 1], .arr [x r (-5121) 3, x r (-10213) 3], .arr [x r (-1832) 3,
  x r (-11931) 3], .arr [n 0, n 0]]), ("v", .arr [.arr [x r (-27905) 3, x r (-165666) 3], .arr [x r (-38801)
  3, x r (-124211) 3], .arr [x r (-32764) 3, x r (-35701) 3], .arr [x r 3829 3, x r 8986 3], .arr [x r
  (-13226) 3, x r 56491 3], .arr [x r 2508 2, x r 97056 3], .arr [x r 36128 3, x r 92943 3], .arr [x r 4435 3,
  x r 55281 3], .arr [x r 22496 3, x r 9874 3], .arr [x r (-10411) 3, x r (-39163) 3], .arr [x r (-26403) 3, x
  r (-78821) 3], .arr [x r (-37371) 3, x r (-141668) 3]])]]), ("t", n 254)]]

/-- A value in `examples/assets/google_fonts/Tiger.json`. -/
def tiger23 : Json F :=
  .arr [.obj [("i", .obj [("x", x r 833 3), ("y", x r 833 3)]), ("o", .obj [("x", x r 167 3), ("y", x r 167
  3)]), ("s", .arr [.obj [("c", .bool false), ("i", .arr [.arr [n 0, n 0], .arr [x r (-33548) 3, x r (-47903)
  3], .arr [x r 9516 3, x r (-55806) 3], .arr [x r 6302 3, x r (-6889) 3], .arr [x r (-29665) 3, x r (-28551)
  3], .arr [x r 52096 3, x r (-888) 3], .arr [x r 12016 3, x r 24758 3], .arr [n 0, n 0], .arr [n 0, n 0],
  .arr [n 0, n 0], .arr [n 0, n 0], .arr [n 0, n 0]]), ("o", .arr [.arr [x r 60111 3, x r (-129889) 3], .arr
  [x r 33467 3, x r 47822 3], .arr [x r (-9516) 3, x r 55807 3], .arr [x r (-6375) 3, x r 6857 3], .arr [x r
  11504 3, x r 11072 3], .arr [x r (-29677) 3, x r 483 3], .arr [x r (-11935) 3, x r (-24758) 3], .arr [n 0, n
  0], .arr [n 0, n 0], .arr [n 0, n 0], .arr [n 0, n 0], .arr [n 0, n 0]]), ("v", .arr [.arr [x r (-160567) 3,
  x r (-139722) 3], .arr [x r 126697 3, x r (-168851) 3], .arr [x r 151051 3, x r (-10805) 3], .arr [x r 95247
  3, x r 101464 3], .arr [x r 96881 3, x r 157501 3], .arr [x r 58472 3, x r 241289 3], .arr [x r (-1185) 2, x
  r 221852 3], .arr [x r (-13947) 3, x r 167419 3], .arr [x r (-12216) 3, x r 140685 3], .arr [x r (-27419) 3,
  x r 131872 3], .arr [x r (-41285) 3, x r 66758 3], .arr [x r (-50075) 3, x r 31677 3]])]]), ("t", n 68)],
  .obj [("i", .obj [("x", n 0), ("y", n 1)]), ("o", .obj [("x", x r 167 3), ("y", x r 167 3)]), ("s", .arr
  [.obj [("c", .bool false), ("i", .arr [.arr [n 0, n 0], .arr [x r (-33548) 3, x r (-47903) 3], .arr [x r
  9516 3, x r (-55806) 3], .arr [x r 11186 3, x r (-18519) 3], .arr [x r (-14448) 3, x r (-29556) 3], .arr [x
  r 52096 3, x r (-888) 3], .arr [x r 12016 3, x r 24758 3], .arr [n 0, n 0], .arr [n 0, n 0], .arr [n 0, n
  0], .arr [n 0, n 0], .arr [n 0, n 0]]), ("o", .arr [.arr [n 144, x r (-137333) 3], .arr [x r 33467 3, x r
  47822 3], .arr [x r (-9516) 3, x r 55807 3], .arr [x r (-7814) 3, x r 14481 3], .arr [x r 7012 3, x r 14344
  3], .arr [x r (-29677) 3, x r 483 3], .arr [x r (-11935) 3, x r (-24758) 3], .arr [n 0, n 0], .arr [n 0, n
  0], .arr [n 0, n 0], .arr [n 0, n 0], .arr [n 0, n 0]]), ("v", .arr [.arr [x r (-180567) 3, x r (-180722)
  3], .arr [x r 128697 3, x r (-197851) 3], .arr [x r 150051 3, x r (-23805) 3], .arr [x r 111247 3, x r 73464
  3], .arr [x r 104881 3, x r 158501 3], .arr [x r 58472 3, x r 241289 3], .arr [x r (-1185) 2, x r 221852 3],
  .arr [x r (-13947) 3, x r 167419 3], .arr [x r (-12216) 3, x r 140685 3], .arr [x r (-27419) 3, x r 131872
  3], .arr [x r (-41285) 3, x r 66757 3], .arr [x r (-50075) 3, x r 31677 3]])]]), ("t", n 77)], .obj [("i",
  .obj [("x", x r 833 3), ("y", x r 833 3)]), ("o", .obj [("x", x r 333 3), ("y", n 0)]), ("s", .arr [.obj
  [("c", .bool false), ("i", .arr [.arr [n 0, n 0], .arr [x r (-33548) 3, x r (-47903) 3], .arr [x r 9516 3, x
  r (-55806) 3], .arr [x r 6302 3, x r (-6889) 3], .arr [x r (-29665) 3, x r (-28551) 3], .arr [x r 52096 3, x
  r (-888) 3], .arr [x r 12016 3, x r 24758 3], .arr [n 0, n 0], .arr [n 0, n 0], .arr [n 0, n 0], .arr [n 0,
  n 0], .arr [n 0, n 0]]), ("o", .arr [.arr [x r 60111 3, x r (-129889) 3], .arr [x r 33467 3, x r 47822 3],
  .arr [x r (-9516) 3, x r 55807 3], .arr [x r (-6375) 3, x r 6857 3], .arr [x r 11504 3, x r 11072 3], .arr
  [x r (-29677) 3, x r 483 3], .arr [x r (-11935) 3, x r (-24758) 3], .arr [n 0, n 0], .arr [n 0, n 0], .arr
  [n 0, n 0], .arr [n 0, n 0], .arr [n 0, n 0]]), ("v", .arr [.arr [x r (-160567) 3, x r (-116722) 3], .arr [x
  r 126697 3, x r (-166851) 3], .arr [x r 151051 3, x r (-10805) 3], .arr [x r 95247 3, x r 101464 3], .arr [x
  r 96881 3, x r 157501 3], .arr [x r 58472 3, x r 241288 3], .arr [x r (-1185) 2, x r 221852 3], .arr [x r
  (-13947) 3, x r 167419 3], .arr [x r (-12216) 3, x r 140684 3], .arr [x r (-27419) 3, x r 131872 3], .arr [x
  r (-41285) 3, x r 89757 3], .arr [x r (-50075) 3, x r 54677 3]])]]), ("t", n 84)], .obj [("i", .obj [("x", x
  r 667 3), ("y", n 1)]), ("o", .obj [("x", x r 167 3), ("y", x r 167 3)]), ("s", .arr [.obj [("c", .bool
  false), ("i", .arr [.arr [n 0, n 0], .arr [x r (-33548) 3, x r (-47903) 3], .arr [x r 9516 3, x r (-55806)
  3], .arr [x r 9314 3, x r (-19481) 3], .arr [x r (-7052) 3, x r (-13444) 3], .arr [x r 52096 3, x r (-888)
  3], .arr [x r 12016 3, x r 24758 3], .arr [n 0, n 0], .arr [n 0, n 0], .arr [n 0, n 0], .arr [n 0, n 0],
  .arr [n 0, n 0]]), ("o", .arr [.arr [x r 60111 3, x r (-129889) 3], .arr [x r 33467 3, x r 47822 3], .arr [x
  r (-9516) 3, x r 55807 3], .arr [x r (-9314) 3, x r 19481 3], .arr [x r 7052 3, x r 13444 3], .arr [x r
  (-29677) 3, x r 483 3], .arr [x r (-11935) 3, x r (-24758) 3], .arr [n 0, n 0], .arr [n 0, n 0], .arr [n 0,
  n 0], .arr [n 0, n 0], .arr [n 0, n 0]]), ("v", .arr [.arr [x r (-160567) 3, x r (-136722) 3], .arr [x r
  126697 3, x r (-186851) 3], .arr [x r 151051 3, x r (-30805) 3], .arr [x r 106247 3, x r 93464 3], .arr [x r
  96881 3, x r 157501 3], .arr [x r 58472 3, x r 241289 3], .arr [x r (-1185) 2, x r 221852 3], .arr [x r
  (-13947) 3, x r 167419 3], .arr [x r (-4716) 3, x r 152685 3], .arr [x r (-31669) 3, x r 123622 3], .arr [x
  r (-52035) 3, x r 80508 3], .arr [x r (-52825) 3, x r 66427 3]])]]), ("t", n 102)], .obj [("i", .obj [("x",
  x r 667 3), ("y", n 1)]), ("o", .obj [("x", x r 333 3), ("y", n 0)]), ("s", .arr [.obj [("c", .bool false),
  ("i", .arr [.arr [n 0, n 0], .arr [x r (-33548) 3, x r (-47903) 3], .arr [x r 9516 3, x r (-55806) 3], .arr
  [x r 9314 3, x r (-19481) 3], .arr [x r (-7052) 3, x r (-13444) 3], .arr [x r 52096 3, x r (-888) 3], .arr
  [x r 12016 3, x r 24758 3], .arr [n 0, n 0], .arr [n 0, n 0], .arr [n 0, n 0], .arr [n 0, n 0], .arr [n 0, n
  0]]), ("o", .arr [.arr [x r 60111 3, x r (-129889) 3], .arr [x r 33467 3, x r 47822 3], .arr [x r (-9516) 3,
  x r 55807 3], .arr [x r (-9314) 3, x r 19481 3], .arr [x r 7052 3, x r 13444 3], .arr [x r (-29677) 3, x r
  483 3], .arr [x r (-11935) 3, x r (-24758) 3], .arr [n 0, n 0], .arr [n 0, n 0], .arr [n 0, n 0], .arr [n 0,
  n 0], .arr [n 0, n 0]]), ("v", .arr [.arr [x r (-160567) 3, x r (-136722) 3], .arr [x r 117013 3, x r
  (-186851) 3], .arr [x r 151051 3, x r (-30805) 3], .arr [x r 106247 3, x r 93464 3], .arr [x r 96881 3, x r
  157501 3], .arr [x r 58472 3, x r 241289 3], .arr [x r (-1185) 2, x r 221852 3], .arr [x r (-13947) 3, x r
  167419 3], .arr [x r (-4716) 3, x r 152685 3], .arr [x r (-31669) 3, x r 123622 3], .arr [x r (-52035) 3, x
  r 80508 3], .arr [x r (-52825) 3, x r 66427 3]])]]), ("t", n 116)], .obj [("i", .obj [("x", x r 667 3),
  ("y", n 1)]), ("o", .obj [("x", x r 333 3), ("y", n 0)]), ("s", .arr [.obj [("c", .bool false), ("i", .arr
  [.arr [n 0, n 0], .arr [x r (-33548) 3, x r (-47903) 3], .arr [x r 9516 3, x r (-55806) 3], .arr [x r 9314
  3, x r (-19481) 3], .arr [x r (-7052) 3, x r (-13444) 3], .arr [x r 52096 3, x r (-888) 3], .arr [x r 12016
  3, x r 24758 3], .arr [n 0, n 0], .arr [n 0, n 0], .arr [n 0, n 0], .arr [n 0, n 0], .arr [n 0, n 0]]),
  ("o", .arr [.arr [x r 60111 3, x r (-129889) 3], .arr [x r 33467 3, x r 47822 3], .arr [x r (-9516) 3, x r
  55807 3], .arr [x r (-9314) 3, x r 19481 3], .arr [x r 7052 3, x r 13444 3], .arr [x r (-29677) 3, x r 483
  3], .arr [x r (-11935) 3, x r (-24758) 3], .arr [n 0, n 0], .arr [n 0, n 0], .arr [n 0, n 0], .arr [n 0, n
  0], .arr [n 0, n 0]]), ("v", .arr [.arr [x r (-160567) 3, x r (-136722) 3], .arr [x r 117013 3, x r
  (-186851) 3], .arr [x r 151051 3, x r (-30805) 3], .arr [x r 106247 3, x r 93464 3], .arr [x r 96881 3, x r
  157501 3], .arr [x r 58472 3, x r 241289 3], .arr [x r (-1185) 2, x r 221852 3], .arr [x r (-13947) 3, x r
  167419 3], .arr [x r (-4716) 3, x r 152685 3], .arr [x r (-31669) 3, x r 123622 3], .arr [x r (-52035) 3, x
  r 80508 3], .arr [x r (-52825) 3, x r 66427 3]])]]), ("t", n 140)], .obj [("i", .obj [("x", x r 667 3),
  ("y", n 1)]), ("o", .obj [("x", x r 333 3), ("y", n 0)]), ("s", .arr [.obj [("c", .bool false), ("i", .arr
  [.arr [n 0, n 0], .arr [x r (-33548) 3, x r (-47903) 3], .arr [x r 9516 3, x r (-55806) 3], .arr [x r 9314
  3, x r (-19481) 3], .arr [x r (-7052) 3, x r (-13444) 3], .arr [x r 52096 3, x r (-888) 3], .arr [x r 12016
  3, x r 24758 3], .arr [n 0, n 0], .arr [n 0, n 0], .arr [n 0, n 0], .arr [n 0, n 0], .arr [n 0, n 0]]),
  ("o", .arr [.arr [x r 60111 3, x r (-129889) 3], .arr [x r 33467 3, x r 47822 3], .arr [x r (-9516) 3, x r
  55807 3], .arr [x r (-9314) 3, x r 19481 3], .arr [x r 7052 3, x r 13444 3], .arr [x r (-29677) 3, x r 483
  3], .arr [x r (-11935) 3, x r (-24758) 3], .arr [n 0, n 0], .arr [n 0, n 0], .arr [n 0, n 0], .arr [n 0, n
  0], .arr [n 0, n 0]]), ("v", .arr [.arr [x r (-160567) 3, x r (-136722) 3], .arr [x r 137796 3, x r
  (-186851) 3], .arr [x r 151051 3, x r (-30805) 3], .arr [x r 106247 3, x r 93464 3], .arr [x r 96881 3, x r
  157501 3], .arr [x r 58472 3, x r 241289 3], .arr [x r (-1185) 2, x r 221852 3], .arr [x r (-13947) 3, x r
  167419 3], .arr [x r (-4716) 3, x r 152685 3], .arr [x r (-31669) 3, x r 123622 3], .arr [x r (-52035) 3, x
  r 80508 3], .arr [x r (-52825) 3, x r 66427 3]])]]), ("t", n 180)], .obj [("i", .obj [("x", x r 667 3),
  ("y", n 1)]), ("o", .obj [("x", x r 333 3), ("y", n 0)]), ("s", .arr [.obj [("c", .bool false), ("i", .arr
  [.arr [n 0, n 0], .arr [x r (-33548) 3, x r (-47903) 3], .arr [x r 9516 3, x r (-55806) 3], .arr [x r 9314
  3, x r (-19481) 3], .arr [x r (-7052) 3, x r (-13444) 3], .arr [x r 52096 3, x r (-888) 3], .arr [x r 12016
  3, x r 24758 3], .arr [n 0, n 0], .arr [n 0, n 0], .arr [n 0, n 0], .arr [n 0, n 0], .arr [n 0, n 0]]),
  ("o", .arr [.arr [x r 60111 3, x r (-129889) 3], .arr [x r 33467 3, x r 47822 3], .arr [x r (-9516) 3, x r
  55807 3], .arr [x r (-9314) 3, x r 19481 3], .arr [x r 7052 3, x r 13444 3], .arr [x r (-29677) 3, x r 483
  3], .arr [x r (-11935) 3, x r (-24758) 3], .arr [n 0, n 0], .arr [n 0, n 0], .arr [n 0, n 0], .arr [n 0, n
  0], .arr [n 0, n 0]]), ("v", .arr [.arr [x r (-160567) 3, x r (-136722) 3], .arr [x r 137796 3, x r
  (-186851) 3], .arr [x r 151051 3, x r (-30805) 3], .arr [x r 106247 3, x r 93464 3], .arr [x r 96881 3, x r
  157501 3], .arr [x r 58472 3, x r 241289 3], .arr [x r (-1185) 2, x r 221852 3], .arr [x r (-13947) 3, x r
  167419 3], .arr [x r (-4716) 3, x r 152685 3], .arr [x r (-31669) 3, x r 123622 3], .arr [x r (-52035) 3, x
  r 80508 3], .arr [x r (-52825) 3, x r 66427 3]])]]), ("t", n 196)], .obj [("i", .obj [("x", x r 667 3),
  ("y", n 1)]), ("o", .obj [("x", x r 333 3), ("y", n 0)]), ("s", .arr [.obj [("c", .bool false), ("i", .arr
  [.arr [n 0, n 0], .arr [x r (-33548) 3, x r (-47903) 3], .arr [x r 9516 3, x r (-55806) 3], .arr [x r 9314
  3, x r (-19481) 3], .arr [x r (-7052) 3, x r (-13444) 3], .arr [x r 52096 3, x r (-888) 3], .arr [x r 12016
  3, x r 24758 3], .arr [n 0, n 0], .arr [n 0, n 0], .arr [n 0, n 0], .arr [n 0, n 0], .arr [n 0, n 0]]),
  ("o", .arr [.arr [x r 60111 3, x r (-129889) 3], .arr [x r 33467 3, x r 47822 3], .arr [x r (-9516) 3, x r
  55807 3], .arr [x r (-9314) 3, x r 19481 3], .arr [x r 7052 3, x r 13444 3], .arr [x r (-29677) 3, x r 483
  3], .arr [x r (-11935) 3, x r (-24758) 3], .arr [n 0, n 0], .arr [n 0, n 0], .arr [n 0, n 0], .arr [n 0, n
  0], .arr [n 0, n 0]]), ("v", .arr [.arr [x r (-160567) 3, x r (-136722) 3], .arr [x r 117013 3, x r
  (-186851) 3], .arr [x r 151051 3, x r (-30805) 3], .arr [x r 106247 3, x r 93464 3], .arr [x r 96881 3, x r
  157501 3], .arr [x r 58472 3, x r 241289 3], .arr [x r (-1185) 2, x r 221852 3], .arr [x r (-13947) 3, x r
  167419 3], .arr [x r (-4716) 3, x r 152685 3], .arr [x r (-31669) 3, x r 123622 3], .arr [x r (-52035) 3, x
  r 80508 3], .arr [x r (-52825) 3, x r 66427 3]])]]), ("t", n 236)], .obj [("i", .obj [("x", x r 833 3),
  ("y", x r 833 3)]), ("o", .obj [("x", x r 333 3), ("y", n 0)]), ("s", .arr [.obj [("c", .bool false), ("i",
  .arr [.arr [n 0, n 0], .arr [x r (-33548) 3, x r (-47903) 3], .arr [x r 9516 3, x r (-55806) 3], .arr [x r
  9314 3, x r (-19481) 3], .arr [x r (-7052) 3, x r (-13444) 3], .arr [x r 52096 3, x r (-888) 3], .arr [x r
  12016 3, x r 24758 3], .arr [n 0, n 0], .arr [n 0, n 0], .arr [n 0, n 0], .arr [n 0, n 0], .arr [n 0, n
  0]]), ("o", .arr [.arr [x r 60111 3, x r (-129889) 3], .arr [x r 33467 3, x r 47822 3], .arr [x r (-9516) 3,
  x r 55807 3], .arr [x r (-9314) 3, x r 19481 3], .arr [x r 7052 3, x r 13444 3], .arr [x r (-29677) 3, x r
  483 3], .arr [x r (-11935) 3, x r (-24758) 3], .arr [n 0, n 0], .arr [n 0, n 0], .arr [n 0, n 0], .arr [n 0,
  n 0], .arr [n 0, n 0]]), ("v", .arr [.arr [x r (-160567) 3, x r (-136722) 3], .arr [x r 117013 3, x r
  (-186851) 3], .arr [x r 151051 3, x r (-30805) 3], .arr [x r 106247 3, x r 93464 3], .arr [x r 96881 3, x r
  157501 3], .arr [x r 58472 3, x r 241289 3], .arr [x r (-1185) 2, x r 221852 3], .arr [x r (-13947) 3, x r
  167419 3], .arr [x r (-4716) 3, x r 152685 3], .arr [x r (-31669) 3, x r 123622 3], .arr [x r (-52035) 3, x
  r 80508 3], .arr [x r (-52825) 3, x r 66427 3]])]]), ("t", n 246)], .obj [("i", .obj [("x", x r 833 3),
  ("y", x r 833 3)]), ("o", .obj [("x", x r 167 3), ("y", x r 167 3)]), ("s", .arr [.obj [("c", .bool false),
  ("i", .arr [.arr [n 0, n 0], .arr [x r (-33548) 3, x r (-47903) 3], .arr [x r 9516 3, x r (-55806) 3], .arr
  [x r 9314 3, x r (-19481) 3], .arr [x r (-7052) 3, x r (-13444) 3], .arr [x r 52096 3, x r (-888) 3], .arr
  [x r 12016 3, x r 24758 3], .arr [n 0, n 0], .arr [n 0, n 0], .arr [n 0, n 0], .arr [n 0, n 0], .arr [n 0, n
  0]]), ("o", .arr [.arr [x r 135903 3, x r (-106136) 3], .arr [x r 33467 3, x r 47822 3], .arr [x r (-9516)
  3, x r 55807 3], .arr [x r (-9314) 3, x r 19481 3], .arr [x r 7052 3, x r 13444 3], .arr [x r (-29677) 3, x
  r 483 3], .arr [x r (-11935) 3, x r (-24758) 3], .arr [n 0, n 0], .arr [n 0, n 0], .arr [n 0, n 0], .arr [n
  0, n 0], .arr [n 0, n 0]]), ("v", .arr [.arr [x r (-14397) 2, x r (-179919) 3], .arr [x r 127697 3, x r
  (-187852) 3], .arr [x r 151051 3, x r (-30805) 3], .arr [x r 106247 3, x r 93464 3], .arr [x r 96881 3, x r
  157501 3], .arr [x r 58472 3, x r 241289 3], .arr [x r (-1185) 2, x r 221852 3], .arr [x r (-13947) 3, x r
  167419 3], .arr [x r (-4716) 3, x r 152685 3], .arr [x r (-31669) 3, x r 119992 3], .arr [x r (-51443) 3, x
  r 76668 3], .arr [x r (-51443) 3, x r 63011 3]])]]), ("t", n 250)], .obj [("i", .obj [("x", x r 833 3),
  ("y", x r 833 3)]), ("o", .obj [("x", x r 167 3), ("y", x r 167 3)]), ("s", .arr [.obj [("c", .bool false),
  ("i", .arr [.arr [n 0, n 0], .arr [x r (-33548) 3, x r (-47903) 3], .arr [x r 9516 3, x r (-55806) 3], .arr
  [x r 9314 3, x r (-19481) 3], .arr [x r (-7052) 3, x r (-13444) 3], .arr [x r 52096 3, x r (-888) 3], .arr
  [x r 12016 3, x r 24758 3], .arr [n 0, n 0], .arr [n 0, n 0], .arr [n 0, n 0], .arr [n 0, n 0], .arr [n 0, n
  0]]), ("o", .arr [.arr [x r 138677 3, x r (-103935) 3], .arr [x r 33467 3, x r 47822 3], .arr [x r (-9516)
  3, x r 55807 3], .arr [x r (-9314) 3, x r 19481 3], .arr [x r 7052 3, x r 13444 3], .arr [x r (-29677) 3, x
  r 483 3], .arr [x r (-11935) 3, x r (-24758) 3], .arr [n 0, n 0], .arr [n 0, n 0], .arr [n 0, n 0], .arr [n
  0, n 0], .arr [n 0, n 0]]), ("v", .arr [.arr [x r (-15137) 2, x r (-194244) 3], .arr [x r 127447 3, x r
  (-187602) 3], .arr [x r 151051 3, x r (-30805) 3], .arr [x r 106247 3, x r 93464 3], .arr [x r 96881 3, x r
  157501 3], .arr [x r 58472 3, x r 241289 3], .arr [x r (-1185) 2, x r 221852 3], .arr [x r (-13947) 3, x r
  167419 3], .arr [x r (-4716) 3, x r 152685 3], .arr [x r (-31669) 3, x r 1184 1], .arr [x r (-51184) 3, x r
  74983 3], .arr [x r (-50837) 3, x r 61512 3]])]]), ("t", n 251)], .obj [("i", .obj [("x", x r 833 3), ("y",
  x r 833 3)]), ("o", .obj [("x", x r 167 3), ("y", x r 167 3)]), ("s", .arr [.obj [("c", .bool false), ("i",
  .arr [.arr [n 0, n 0], .arr [x r (-33548) 3, x r (-47903) 3], .arr [x r 9516 3, x r (-55806) 3], .arr [x r
  9314 3, x r (-19481) 3], .arr [x r (-7052) 3, x r (-13444) 3], .arr [x r 52096 3, x r (-888) 3], .arr [x r
  12016 3, x r 24758 3], .arr [n 0, n 0], .arr [n 0, n 0], .arr [n 0, n 0], .arr [n 0, n 0], .arr [n 0, n
  0]]), ("o", .arr [.arr [x r 141452 3, x r (-101734) 3], .arr [x r 33467 3, x r 47822 3], .arr [x r (-9516)
  3, x r 55807 3], .arr [x r (-9314) 3, x r 19481 3], .arr [x r 7052 3, x r 13444 3], .arr [x r (-29677) 3, x
  r 483 3], .arr [x r (-11935) 3, x r (-24758) 3], .arr [n 0, n 0], .arr [n 0, n 0], .arr [n 0, n 0], .arr [n
  0, n 0], .arr [n 0, n 0]]), ("v", .arr [.arr [x r (-158769) 3, x r (-20732) 2], .arr [x r 127197 3, x r
  (-187351) 3], .arr [x r 151051 3, x r (-30805) 3], .arr [x r 106247 3, x r 93464 3], .arr [x r 96881 3, x r
  157501 3], .arr [x r 58472 3, x r 241289 3], .arr [x r (-1185) 2, x r 221852 3], .arr [x r (-13947) 3, x r
  167419 3], .arr [x r (-4716) 3, x r 152685 3], .arr [x r (-31669) 3, x r 116807 3], .arr [x r (-50924) 3, x
  r 73298 3], .arr [x r (-5023) 2, x r 60013 3]])]]), ("t", n 252)], .obj [("i", .obj [("x", x r 833 3), ("y",
  x r 833 3)]), ("o", .obj [("x", x r 167 3), ("y", x r 167 3)]), ("s", .arr [.obj [("c", .bool false), ("i",
  .arr [.arr [n 0, n 0], .arr [x r (-33548) 3, x r (-47903) 3], .arr [x r 9516 3, x r (-55806) 3], .arr [x r
  9314 3, x r (-19481) 3], .arr [x r (-7052) 3, x r (-13444) 3], .arr [x r 52096 3, x r (-888) 3], .arr [x r
  12016 3, x r 24758 3], .arr [n 0, n 0], .arr [n 0, n 0], .arr [n 0, n 0], .arr [n 0, n 0], .arr [n 0, n
  0]]), ("o", .arr [.arr [x r 143069 3, x r (-71057) 3], .arr [x r 33467 3, x r 47822 3], .arr [x r (-9516) 3,
  x r 55807 3], .arr [x r (-9314) 3, x r 19481 3], .arr [x r 7052 3, x r 13444 3], .arr [x r (-29677) 3, x r
  483 3], .arr [x r (-11935) 3, x r (-24758) 3], .arr [n 0, n 0], .arr [n 0, n 0], .arr [n 0, n 0], .arr [n 0,
  n 0], .arr [n 0, n 0]]), ("v", .arr [.arr [x r (-149724) 3, x r (-244921) 3], .arr [x r 126947 3, x r
  (-187101) 3], .arr [x r 151051 3, x r (-30805) 3], .arr [x r 106247 3, x r 93464 3], .arr [x r 96881 3, x r
  157501 3], .arr [x r 58472 3, x r 241288 3], .arr [x r (-1185) 2, x r 221852 3], .arr [x r (-13947) 3, x r
  167419 3], .arr [x r (-4716) 3, x r 152685 3], .arr [x r (-31669) 3, x r 115214 3], .arr [x r (-50664) 3, x
  r 71613 3], .arr [x r (-49624) 3, x r 58514 3]])]]), ("t", n 253)], .obj [("s", .arr [.obj [("c", .bool
  false), ("i", .arr [.arr [n 0, n 0], .arr [x r (-33548) 3, x r (-47903) 3], .arr [x r 9516 3, x r (-55806)
  3], .arr [x r 9314 3, x r (-19481) 3], .arr [x r (-7052) 3, x r (-13444) 3], .arr [x r 52096 3, x r (-888)
  3], .arr [x r 12016 3, x r 24758 3], .arr [n 0, n 0], .arr [n 0, n 0], .arr [n 0, n 0], .arr [n 0, n 0],
  .arr [n 0, n 0]]), ("o", .arr [.arr [x r 144685 3, x r (-40379) 3], .arr [x r 33467 3, x r 47822 3], .arr [x
  r (-9516) 3, x r 55807 3], .arr [x r (-9314) 3, x r 19481 3], .arr [x r 7052 3, x r 13444 3], .arr [x r
  (-29677) 3, x r 483 3], .arr [x r (-11935) 3, x r (-24758) 3], .arr [n 0, n 0], .arr [n 0, n 0], .arr [n 0,
  n 0], .arr [n 0, n 0], .arr [n 0, n 0]]), ("v", .arr [.arr [x r (-147929) 3, x r (-270523) 3], .arr [x r
  126697 3, x r (-186851) 3], .arr [x r 151051 3, x r (-30805) 3], .arr [x r 106247 3, x r 93464 3], .arr [x r
  96881 3, x r 157501 3], .arr [x r 58472 3, x r 241289 3], .arr [x r (-1185) 2, x r 221852 3], .arr [x r
  (-13947) 3, x r 167419 3], .arr [x r (-4716) 3, x r 152685 3], .arr [x r (-31669) 3, x r 113622 3], .arr [x
  r (-50405) 3, x r 69928 3], .arr [x r (-49017) 3, x r 57015 3]])]]), ("t", n 254)]]

/-- A value in `examples/assets/google_fonts/Tiger.json`. -/
def tiger24 : Json F :=
  .arr [.obj [("i", .obj [("x", x r 833 3), ("y", x r 833 3)]), ("o", .obj [("x", x r 167 3), ("y", x r 167
  3)]), ("s", .arr [.obj [("c", .bool true), ("i", .arr [.arr [n 0, n 0], .arr [x r (-12225) 3, x r (-22308)
  3], .arr [x r (-5938) 3, x r (-18437) 3], .arr [x r (-7984) 3, x r 52 3], .arr [x r 1397 3, x r 2515 2],
  .arr [x r 6788 3, x r 15946 3], .arr [n 0, n 0], .arr [x r 17404 3, x r (-3582) 3]]), ("o", .arr [.arr [n 0,
  n 0], .arr [x r 12237 3, x r 22387 3], .arr [x r 3189 3, x r 9878 3], .arr [x r 8074 3, x r 15 3], .arr [x r
  (-1461) 3, x r (-26119) 3], .arr [x r (-6789) 3, x r (-15945) 3], .arr [n 0, n 0], .arr [x r (-15194) 3, x r
  3088 3]]), ("v", .arr [.arr [x r (-46322) 3, x r (-77864) 3], .arr [x r (-14184) 3, x r (-38594) 3], .arr [x
  r 16366 3, x r 26636 3], .arr [x r 36072 3, x r 57528 3], .arr [x r 44925 3, x r 9318 3], .arr [x r 28053 3,
  x r (-6913) 2], .arr [x r 19369 3, x r (-10358) 2], .arr [x r (-17668) 3, x r (-83319) 3]])]]), ("t", n
  68)], .obj [("i", .obj [("x", n 0), ("y", n 1)]), ("o", .obj [("x", x r 167 3), ("y", x r 167 3)]), ("s",
  .arr [.obj [("c", .bool true), ("i", .arr [.arr [n 0, n 0], .arr [x r (-14422) 3, x r (-31689) 3], .arr [x r
  (-5938) 3, x r (-18437) 3], .arr [x r (-7984) 3, x r 52 3], .arr [x r 1397 3, x r 2515 2], .arr [x r 6788 3,
  x r 15946 3], .arr [n 0, n 0], .arr [x r 17404 3, x r (-3582) 3]]), ("o", .arr [.arr [n 0, n 0], .arr [x r
  10569 3, x r 23221 3], .arr [x r 3189 3, x r 9878 3], .arr [x r 8074 3, x r 15 3], .arr [x r (-1461) 3, x r
  (-26119) 3], .arr [x r (-6789) 3, x r (-15945) 3], .arr [n 0, n 0], .arr [x r (-15194) 3, x r 3088 3]]),
  ("v", .arr [.arr [x r (-44822) 3, x r (-124864) 3], .arr [x r 10816 3, x r (-72594) 3], .arr [x r 28366 3, x
  r (-25864) 3], .arr [x r 45572 3, x r 5028 3], .arr [x r 56925 3, x r (-43182) 3], .arr [x r 47553 3, x r
  (-9213) 2], .arr [x r 14869 3, x r (-15208) 2], .arr [x r (-13668) 3, x r (-135319) 3]])]]), ("t", n 77)],
  .obj [("i", .obj [("x", x r 667 3), ("y", n 1)]), ("o", .obj [("x", x r 333 3), ("y", n 0)]), ("s", .arr
  [.obj [("c", .bool true), ("i", .arr [.arr [n 0, n 0], .arr [x r (-12225) 3, x r (-22308) 3], .arr [x r
  (-5938) 3, x r (-18437) 3], .arr [x r (-7984) 3, x r 52 3], .arr [x r 1397 3, x r 2515 2], .arr [x r 6788 3,
  x r 15946 3], .arr [n 0, n 0], .arr [x r 17404 3, x r (-3582) 3]]), ("o", .arr [.arr [n 0, n 0], .arr [x r
  12237 3, x r 22387 3], .arr [x r 3189 3, x r 9878 3], .arr [x r 8074 3, x r 15 3], .arr [x r (-1461) 3, x r
  (-26119) 3], .arr [x r (-6789) 3, x r (-15945) 3], .arr [n 0, n 0], .arr [x r (-15194) 3, x r 3088 3]]),
  ("v", .arr [.arr [x r (-46322) 3, x r (-59364) 3], .arr [x r (-14184) 3, x r (-15594) 3], .arr [x r 16366 3,
  x r 49636 3], .arr [x r 36072 3, x r 80528 3], .arr [x r 44925 3, x r 32318 3], .arr [x r 28053 3, x r
  (-4613) 2], .arr [x r 19369 3, x r (-8058) 2], .arr [x r (-17668) 3, x r (-60819) 3]])]]), ("t", n 84)],
  .obj [("i", .obj [("x", x r 667 3), ("y", n 1)]), ("o", .obj [("x", x r 333 3), ("y", n 0)]), ("s", .arr
  [.obj [("c", .bool true), ("i", .arr [.arr [n 0, n 0], .arr [x r (-12225) 3, x r (-22308) 3], .arr [x r
  (-5938) 3, x r (-18437) 3], .arr [x r (-7984) 3, x r 52 3], .arr [x r 1397 3, x r 2515 2], .arr [x r 6788 3,
  x r 15946 3], .arr [n 0, n 0], .arr [x r 10688 3, x r (-3536) 3]]), ("o", .arr [.arr [n 0, n 0], .arr [x r
  12237 3, x r 22387 3], .arr [x r 3189 3, x r 9878 3], .arr [x r 8074 3, x r 15 3], .arr [x r (-1461) 3, x r
  (-26119) 3], .arr [x r (-6789) 3, x r (-15945) 3], .arr [n 0, n 0], .arr [x r (-10688) 3, x r 3536 3]]),
  ("v", .arr [.arr [x r (-46322) 3, x r (-71364) 3], .arr [x r (-14184) 3, x r (-25594) 3], .arr [x r 16366 3,
  x r 39636 3], .arr [x r 36072 3, x r 70528 3], .arr [x r 44925 3, x r 22318 3], .arr [x r 28053 3, x r
  (-5613) 2], .arr [x r 11119 3, x r (-9458) 2], .arr [x r (-18543) 3, x r (-79194) 3]])]]), ("t", n 102)],
  .obj [("i", .obj [("x", x r 833 3), ("y", x r 833 3)]), ("o", .obj [("x", x r 333 3), ("y", n 0)]), ("s",
  .arr [.obj [("c", .bool true), ("i", .arr [.arr [n 0, n 0], .arr [x r (-12225) 3, x r (-22308) 3], .arr [x r
  (-5938) 3, x r (-18437) 3], .arr [x r (-7984) 3, x r 52 3], .arr [x r 1397 3, x r 2515 2], .arr [x r 6788 3,
  x r 15946 3], .arr [n 0, n 0], .arr [x r 18562 3, x r (-8214) 3]]), ("o", .arr [.arr [n 0, n 0], .arr [x r
  12237 3, x r 22387 3], .arr [x r 3189 3, x r 9878 3], .arr [x r 8074 3, x r 15 3], .arr [x r (-1461) 3, x r
  (-26119) 3], .arr [x r (-6789) 3, x r (-15945) 3], .arr [n 0, n 0], .arr [x r (-15563) 3, x r 4286 3]]),
  ("v", .arr [.arr [x r (-46322) 3, x r (-71364) 3], .arr [x r (-14184) 3, x r (-25594) 3], .arr [x r 16366 3,
  x r 39636 3], .arr [x r 36072 3, x r 70528 3], .arr [x r 44925 3, x r 22318 3], .arr [x r 28053 3, x r
  (-5613) 2], .arr [x r 11119 3, x r (-94705) 3], .arr [x r (-21793) 3, x r (-97069) 3]])]]), ("t", n 246)],
  .obj [("i", .obj [("x", x r 833 3), ("y", x r 833 3)]), ("o", .obj [("x", x r 167 3), ("y", x r 167 3)]),
  ("s", .arr [.obj [("c", .bool true), ("i", .arr [.arr [n 0, n 0], .arr [x r (-12225) 3, x r (-22308) 3],
  .arr [x r (-5938) 3, x r (-18437) 3], .arr [x r (-7984) 3, x r 52 3], .arr [x r 1397 3, x r 2515 2], .arr [x
  r 6788 3, x r 15946 3], .arr [n 0, n 0], .arr [x r 17264 3, x r (-4878) 3]]), ("o", .arr [.arr [n 0, n 0],
  .arr [x r 12237 3, x r 22387 3], .arr [x r 3189 3, x r 9878 3], .arr [x r 8074 3, x r 15 3], .arr [x r
  (-1461) 3, x r (-26119) 3], .arr [x r (-6789) 3, x r (-15945) 3], .arr [n 0, n 0], .arr [x r (-15194) 3, x r
  3088 3]]), ("v", .arr [.arr [x r (-38593) 3, x r (-115847) 3], .arr [x r (-6455) 3, x r (-75827) 3], .arr [x
  r 24095 3, x r (-10597) 3], .arr [x r 39937 3, x r 20295 3], .arr [x r 52653 3, x r (-27915) 3], .arr [x r
  35782 3, x r (-106363) 3], .arr [x r 20167 3, x r (-135415) 3], .arr [x r (-1487) 2, x r (-136904) 3]])]]),
  ("t", n 250)], .obj [("i", .obj [("x", x r 833 3), ("y", x r 833 3)]), ("o", .obj [("x", x r 167 3), ("y", x
  r 167 3)]), ("s", .arr [.obj [("c", .bool true), ("i", .arr [.arr [n 0, n 0], .arr [x r (-12225) 3, x r
  (-22308) 3], .arr [x r (-5938) 3, x r (-18437) 3], .arr [x r (-7984) 3, x r 52 3], .arr [x r 1397 3, x r
  2515 2], .arr [x r 6788 3, x r 15946 3], .arr [n 0, n 0], .arr [x r 17334 3, x r (-423) 2]]), ("o", .arr
  [.arr [n 0, n 0], .arr [x r 12237 3, x r 22387 3], .arr [x r 3189 3, x r 9878 3], .arr [x r 8074 3, x r 15
  3], .arr [x r (-1461) 3, x r (-26119) 3], .arr [x r (-6789) 3, x r (-15945) 3], .arr [n 0, n 0], .arr [x r
  (-15194) 3, x r 3088 3]]), ("v", .arr [.arr [x r (-52667) 3, x r (-153242) 3], .arr [x r (-3529) 3, x r
  (-94847) 3], .arr [x r 27021 3, x r (-29617) 3], .arr [x r 414 1, x r 1275 3], .arr [x r 55579 3, x r
  (-46935) 3], .arr [x r 38708 3, x r (-125383) 3], .arr [x r 17808 3, x r (-161634) 3], .arr [x r (-22729) 3,
  x r (-160498) 3]])]]), ("t", n 251)], .obj [("i", .obj [("x", x r 833 3), ("y", x r 833 3)]), ("o", .obj
  [("x", x r 167 3), ("y", x r 167 3)]), ("s", .arr [.obj [("c", .bool true), ("i", .arr [.arr [n 0, n 0],
  .arr [x r (-12225) 3, x r (-22308) 3], .arr [x r (-5938) 3, x r (-18437) 3], .arr [x r (-7984) 3, x r 52 3],
  .arr [x r 1397 3, x r 2515 2], .arr [x r 6788 3, x r 15946 3], .arr [n 0, n 0], .arr [x r 17404 3, x r
  (-3582) 3]]), ("o", .arr [.arr [n 0, n 0], .arr [x r 12237 3, x r 22387 3], .arr [x r 3189 3, x r 9878 3],
  .arr [x r 8074 3, x r 15 3], .arr [x r (-1461) 3, x r (-26119) 3], .arr [x r (-6789) 3, x r (-15945) 3],
  .arr [n 0, n 0], .arr [x r (-15194) 3, x r 3088 3]]), ("v", .arr [.arr [x r (-43241) 3, x r (-175137) 3],
  .arr [x r (-603) 3, x r (-113867) 3], .arr [x r 29947 3, x r (-48637) 3], .arr [x r 42863 3, x r (-17745)
  3], .arr [x r 58505 3, x r (-65955) 3], .arr [x r 41634 3, x r (-144403) 3], .arr [x r 1795 2, x r (-187353)
  3], .arr [x r (-21087) 3, x r (-192092) 3]])]]), ("t", n 252)], .obj [("s", .arr [.obj [("c", .bool true),
  ("i", .arr [.arr [n 0, n 0], .arr [x r (-9112) 3, x r (-2375) 2], .arr [x r (-3437) 3, x r (-19062) 3], .arr
  [x r (-7919) 3, x r (-1014) 3], .arr [x r (-1963) 3, x r 25112 3], .arr [x r 46 1, x r 16709 3], .arr [n 0,
  n 0], .arr [x r 17726 3, x r (-1227) 3]]), ("o", .arr [.arr [n 0, n 0], .arr [x r 9139 3, x r 2382 2], .arr
  [x r 1842 3, x r 10215 3], .arr [n 8, x r 1093 3], .arr [x r 2039 3, x r (-2608) 2], .arr [x r (-46) 1, x r
  (-16709) 3], .arr [n 0, n 0], .arr [x r (-1547) 2, x r 1032 3]]), ("v", .arr [.arr [x r (-7021) 3, x r
  (-234391) 3], .arr [x r 18719 3, x r (-18474) 2], .arr [x r 40287 3, x r (-116016) 3], .arr [x r 45782 3, x
  r (-84105) 3], .arr [x r 70902 3, x r (-129366) 3], .arr [x r 64654 3, x r (-209364) 3], .arr [x r 53481 3,
  x r (-244149) 3], .arr [x r 22305 3, x r (-237459) 3]])]]), ("t", n 254)]]

/-- A value in `examples/assets/google_fonts/Tiger.json`. -/
def tiger25 : Json F :=
  .arr [.obj [("i", .obj [("x", x r 833 3), ("y", x r 833 3)]), ("o", .obj [("x", x r 167 3), ("y", x r 167
  3)]), ("s", .arr [.obj [("c", .bool true), ("i", .arr [.arr [x r 18249 3, x r (-753) 2], .arr [x r 28289 3,
  x r (-28197) 3], .arr [x r (-18653) 3, x r 19888 3], .arr [x r (-428) 2, x r 2293 3]]), ("o", .arr [.arr [n
  0, n 0], .arr [x r (-17116) 3, x r 16365 3], .arr [x r 22827 3, x r (-22754) 3], .arr [x r 21902 3, x r
  (-11737) 3]]), ("v", .arr [.arr [x r 59774 3, x r 35283 3], .arr [x r (-45316) 3, x r 1803 2], .arr [x r
  (-59369) 3, x r 3747 3], .arr [x r 28306 3, x r (-68658) 3]])]]), ("t", n 68)], .obj [("i", .obj [("x", n
  0), ("y", n 1)]), ("o", .obj [("x", x r 167 3), ("y", x r 167 3)]), ("s", .arr [.obj [("c", .bool true),
  ("i", .arr [.arr [x r 104 2, x r (-16674) 3], .arr [x r 28289 3, x r (-28197) 3], .arr [x r (-18653) 3, x r
  19888 3], .arr [x r (-428) 2, x r 2293 3]]), ("o", .arr [.arr [n 0, n 0], .arr [x r (-17116) 3, x r 16365
  3], .arr [x r 22827 3, x r (-22754) 3], .arr [x r 21902 3, x r (-11737) 3]]), ("v", .arr [.arr [x r 19024 3,
  x r (-66967) 3], .arr [x r (-57316) 3, x r 903 2], .arr [x r (-59369) 3, x r 3747 3], .arr [x r 28306 3, x r
  (-68658) 3]])]]), ("t", n 77)], .obj [("i", .obj [("x", x r 667 3), ("y", n 1)]), ("o", .obj [("x", x r 333
  3), ("y", n 0)]), ("s", .arr [.obj [("c", .bool true), ("i", .arr [.arr [x r 18249 3, x r (-753) 2], .arr [x
  r 28289 3, x r (-28197) 3], .arr [x r (-18653) 3, x r 19888 3], .arr [x r (-428) 2, x r 2293 3]]), ("o",
  .arr [.arr [n 0, n 0], .arr [x r (-17116) 3, x r 16365 3], .arr [x r 22827 3, x r (-22754) 3], .arr [x r
  21902 3, x r (-11737) 3]]), ("v", .arr [.arr [x r 58024 3, x r 28033 3], .arr [x r (-45316) 3, x r 4103 2],
  .arr [x r (-59369) 3, x r 26747 3], .arr [x r 28306 3, x r (-45658) 3]])]]), ("t", n 84)], .obj [("i", .obj
  [("x", x r 667 3), ("y", n 1)]), ("o", .obj [("x", x r 333 3), ("y", n 0)]), ("s", .arr [.obj [("c", .bool
  true), ("i", .arr [.arr [x r 18249 3, x r (-753) 2], .arr [x r 29629 3, x r (-2467) 2], .arr [x r (-18653)
  3, x r 19888 3], .arr [x r (-428) 2, x r 2293 3]]), ("o", .arr [.arr [n 0, n 0], .arr [x r (-17116) 3, x r
  16365 3], .arr [x r 23683 3, x r (-27888) 3], .arr [x r 21902 3, x r (-11737) 3]]), ("v", .arr [.arr [x r
  28274 3, x r 3283 3], .arr [x r (-45316) 3, x r 4103 2], .arr [x r (-59369) 3, x r 26747 3], .arr [x r 17556
  3, x r (-45158) 3]])]]), ("t", n 102)], .obj [("i", .obj [("x", x r 833 3), ("y", x r 833 3)]), ("o", .obj
  [("x", x r 333 3), ("y", n 0)]), ("s", .arr [.obj [("c", .bool true), ("i", .arr [.arr [x r 18249 3, x r
  (-753) 2], .arr [x r 29629 3, x r (-2467) 2], .arr [x r (-18653) 3, x r 19888 3], .arr [x r (-428) 2, x r
  2293 3]]), ("o", .arr [.arr [n 0, n 0], .arr [x r (-17116) 3, x r 16365 3], .arr [x r 23683 3, x r (-27888)
  3], .arr [x r 21902 3, x r (-11737) 3]]), ("v", .arr [.arr [x r 28274 3, x r 3283 3], .arr [x r (-45316) 3,
  x r 4103 2], .arr [x r (-59369) 3, x r 26747 3], .arr [x r 17556 3, x r (-45158) 3]])]]), ("t", n 246)],
  .obj [("s", .arr [.obj [("c", .bool true), ("i", .arr [.arr [x r 18249 3, x r (-753) 2], .arr [x r 29629 3,
  x r (-2467) 2], .arr [x r (-18653) 3, x r 19888 3], .arr [x r (-4573) 3, x r 1367 3]]), ("o", .arr [.arr [n
  0, n 0], .arr [x r (-17116) 3, x r 16365 3], .arr [x r 23683 3, x r (-27888) 3], .arr [x r 234 1, x r
  (-6994) 3]]), ("v", .arr [.arr [x r 26274 3, x r (-36217) 3], .arr [x r (-45316) 3, x r (-2897) 2], .arr [x
  r (-59369) 3, x r (-73253) 3], .arr [x r 3244 2, x r (-109334) 3]])]]), ("t", n 254)]]

/-- A value in `examples/assets/google_fonts/Tiger.json`. -/
def tiger26 : Json F :=
  .arr [.obj [("i", .obj [("x", x r 833 3), ("y", x r 833 3)]), ("o", .obj [("x", x r 167 3), ("y", x r 167
  3)]), ("s", .arr [.obj [("c", .bool true), ("i", .arr [.arr [x r 49584 3, x r 41444 3], .arr [x r (-72339)
  3, x r 95819 3], .arr [n 0, n 0], .arr [n 0, n 0], .arr [x r 30261 3, x r 4147 2], .arr [x r (-8752) 3, x r
  61494 3]]), ("o", .arr [.arr [x r 616 2, x r 3792 3], .arr [x r 95485 3, x r 55774 3], .arr [n 0, n 0], .arr
  [x r (-114347) 3, x r 42187 3], .arr [x r 24261 3, x r (-3253) 2], .arr [x r (-2752) 3, x r (-8506) 3]]),
  ("v", .arr [.arr [x r (-46248) 3, x r (-121777) 3], .arr [x r 106675 3, x r (-171152) 3], .arr [x r 22496 2,
  x r 106702 3], .arr [x r 123507 3, x r 102465 3], .arr [x r (-38925) 3, x r 102697 3], .arr [x r 29588 3, x
  r (-26327) 3]])]]), ("t", n 68)], .obj [("i", .obj [("x", x r 833 3), ("y", x r 833 3)]), ("o", .obj [("x",
  x r 167 3), ("y", x r 167 3)]), ("s", .arr [.obj [("c", .bool true), ("i", .arr [.arr [x r 49584 3, x r
  41444 3], .arr [x r (-76839) 3, x r 70819 3], .arr [n 0, n 0], .arr [n 0, n 0], .arr [x r 30261 3, x r 4147
  2], .arr [x r (-8752) 3, x r 61494 3]]), ("o", .arr [.arr [x r 616 2, x r 3792 3], .arr [x r 95485 3, x r
  55774 3], .arr [n 0, n 0], .arr [x r (-114347) 3, x r 42187 3], .arr [x r 24261 3, x r (-3253) 2], .arr [x r
  (-2752) 3, x r (-8506) 3]]), ("v", .arr [.arr [x r (-48748) 3, x r (-160777) 3], .arr [x r 90675 3, x r
  (-202152) 3], .arr [x r 20296 2, x r 18203 3], .arr [x r 123507 3, x r 102465 3], .arr [x r (-38925) 3, x r
  102697 3], .arr [x r 29588 3, x r (-26327) 3]])]]), ("t", n 77)], .obj [("i", .obj [("x", n 0), ("y", n
  1)]), ("o", .obj [("x", x r 167 3), ("y", x r 167 3)]), ("s", .arr [.obj [("c", .bool true), ("i", .arr
  [.arr [x r 27475 3, x r 22964 3], .arr [x r (-81101) 3, x r 93862 3], .arr [n 0, n 0], .arr [n 0, n 0], .arr
  [x r 16768 3, x r 22979 3], .arr [x r (-966) 2, x r 62069 3]]), ("o", .arr [.arr [x r 3413 3, x r 2101 3],
  .arr [x r 95485 3, x r 55774 3], .arr [n 0, n 0], .arr [x r (-114347) 3, x r 42187 3], .arr [x r 13443 3, x
  r (-18025) 3], .arr [x r (-4998) 3, x r (-25544) 3]]), ("v", .arr [.arr [x r (-69263) 3, x r (-132192) 3],
  .arr [x r 104943 3, x r (-186768) 3], .arr [x r 21277 2, x r 57664 3], .arr [x r 123507 3, x r 11272 2],
  .arr [x r (-37588) 3, x r 108048 3], .arr [x r 33394 3, x r (-13524) 3]])]]), ("t", n 78)], .obj [("i", .obj
  [("x", x r 667 3), ("y", n 1)]), ("o", .obj [("x", x r 333 3), ("y", n 0)]), ("s", .arr [.obj [("c", .bool
  true), ("i", .arr [.arr [n 0, n 0], .arr [x r (-86396) 3, x r 122496 3], .arr [n 0, n 0], .arr [n 0, n 0],
  .arr [n 0, n 0], .arr [x r (-10789) 3, x r 62783 3]]), ("o", .arr [.arr [n 0, n 0], .arr [x r 95485 3, x r
  55774 3], .arr [n 0, n 0], .arr [x r (-114347) 3, x r 42187 3], .arr [n 0, n 0], .arr [x r (-7789) 3, x r
  (-46717) 3]]), ("v", .arr [.arr [x r (-20748) 3, x r (-102277) 3], .arr [x r 122675 3, x r (-167652) 3],
  .arr [x r 224961 3, x r 106702 3], .arr [x r 123507 3, x r 125465 3], .arr [x r (-35925) 3, x r 114697 3],
  .arr [x r 38124 3, x r 2385 3]])]]), ("t", n 84)], .obj [("i", .obj [("x", x r 667 3), ("y", n 1)]), ("o",
  .obj [("x", x r 333 3), ("y", n 0)]), ("s", .arr [.obj [("c", .bool true), ("i", .arr [.arr [n 0, n 0], .arr
  [x r (-74339) 3, x r 109319 3], .arr [n 0, n 0], .arr [n 0, n 0], .arr [n 0, n 0], .arr [x r (-45) 2, x r
  22652 3]]), ("o", .arr [.arr [n 0, n 0], .arr [x r 95485 3, x r 55774 3], .arr [n 0, n 0], .arr [x r
  (-114347) 3, x r 42187 3], .arr [n 0, n 0], .arr [x r 1541 3, x r (-77636) 3]]), ("v", .arr [.arr [x r
  (-36748) 3, x r (-103277) 3], .arr [x r 122674 3, x r (-187652) 3], .arr [x r 22496 2, x r 86702 3], .arr [x
  r 123507 3, x r 125465 3], .arr [x r (-27925) 3, x r 118697 3], .arr [x r 38294 3, x r 25304 3]])]]), ("t",
  n 102)], .obj [("i", .obj [("x", x r 667 3), ("y", n 1)]), ("o", .obj [("x", x r 333 3), ("y", n 0)]), ("s",
  .arr [.obj [("c", .bool true), ("i", .arr [.arr [n 0, n 0], .arr [x r (-74339) 3, x r 109319 3], .arr [n 0,
  n 0], .arr [n 0, n 0], .arr [n 0, n 0], .arr [x r (-45) 2, x r 22652 3]]), ("o", .arr [.arr [n 0, n 0], .arr
  [x r 95485 3, x r 55774 3], .arr [n 0, n 0], .arr [x r (-114347) 3, x r 42187 3], .arr [n 0, n 0], .arr [x r
  1541 3, x r (-77636) 3]]), ("v", .arr [.arr [x r (-36748) 3, x r (-103277) 3], .arr [x r 122674 3, x r
  (-187652) 3], .arr [x r 22496 2, x r 86702 3], .arr [x r 123507 3, x r 125465 3], .arr [x r (-27925) 3, x r
  118697 3], .arr [x r 38294 3, x r 25304 3]])]]), ("t", n 236)], .obj [("i", .obj [("x", x r 833 3), ("y", x
  r 833 3)]), ("o", .obj [("x", x r 333 3), ("y", n 0)]), ("s", .arr [.obj [("c", .bool true), ("i", .arr
  [.arr [n 0, n 0], .arr [x r (-74339) 3, x r 109319 3], .arr [n 0, n 0], .arr [n 0, n 0], .arr [n 0, n 0],
  .arr [x r (-45) 2, x r 22652 3]]), ("o", .arr [.arr [n 0, n 0], .arr [x r 95485 3, x r 55774 3], .arr [n 0,
  n 0], .arr [x r (-114347) 3, x r 42187 3], .arr [n 0, n 0], .arr [x r 1541 3, x r (-77637) 3]]), ("v", .arr
  [.arr [x r (-36748) 3, x r (-103277) 3], .arr [x r 122674 3, x r (-187652) 3], .arr [x r 22496 2, x r 86702
  3], .arr [x r 123507 3, x r 125465 3], .arr [x r (-27925) 3, x r 118697 3], .arr [x r 32794 3, x r 11804
  3]])]]), ("t", n 246)], .obj [("i", .obj [("x", x r 833 3), ("y", x r 833 3)]), ("o", .obj [("x", x r 167
  3), ("y", x r 167 3)]), ("s", .arr [.obj [("c", .bool true), ("i", .arr [.arr [n 0, n 0], .arr [x r
  (-116634) 3, x r 96626 3], .arr [n 0, n 0], .arr [n 0, n 0], .arr [n 0, n 0], .arr [x r (-13515) 3, x r
  121561 3]]), ("o", .arr [.arr [n 0, n 0], .arr [x r 89002 3, x r 64116 3], .arr [n 0, n 0], .arr [x r
  (-114347) 3, x r 42187 3], .arr [n 0, n 0], .arr [x r 2503 3, x r (-22518) 3]]), ("v", .arr [.arr [x r
  (-82538) 3, x r (-161717) 3], .arr [x r 13497 2, x r (-203459) 3], .arr [x r 22496 2, x r 83073 3], .arr [x
  r 123507 3, x r 89171 3], .arr [x r (-63263) 3, x r 106027 3], .arr [x r 1685 2, x r (-71393) 3]])]]), ("t",
  n 250)], .obj [("s", .arr [.obj [("c", .bool true), ("i", .arr [.arr [n 0, n 0], .arr [x r (-160024) 3, x r
  28447 3], .arr [n 0, n 0], .arr [n 0, n 0], .arr [n 0, n 0], .arr [x r 20041 3, x r 71363 3]]), ("o", .arr
  [.arr [n 0, n 0], .arr [x r 77621 3, x r 78759 3], .arr [n 0, n 0], .arr [x r (-114347) 3, x r 42187 3],
  .arr [n 0, n 0], .arr [x r (-6126) 3, x r (-21813) 3]]), ("v", .arr [.arr [x r 5829 3, x r (-270994) 3],
  .arr [x r 16486 2, x r (-280279) 3], .arr [x r 22496 2, x r 76703 3], .arr [x r 123507 3, x r 25465 3], .arr
  [x r 57858 3, x r (-83746) 3], .arr [x r 41294 3, x r (-217196) 3]])]]), ("t", n 254)]]

/-- A value in `examples/assets/google_fonts/Tiger.json`. -/
def tiger27 : Json F :=
  .arr [.obj [("bm", n 0), ("cix", n 2), ("hd", .bool false), ("it", .arr [.obj [("hd", .bool false), ("ind",
  n 0), ("ix", n 1), ("ks", .obj [("a", n 1), ("ix", n 2), ("k", tiger8 r)]), ("mn", .str
  "ADBE Vector Shape - Group"), ("nm", .str "Path 1"), ("ty", .str "sh")], .obj [("bm", n 0), ("c", .obj
  [("a", n 0), ("ix", n 4), ("k", .arr [x r 995999983245 12, x r 416000007181 12, x r 122000002394 12, n
  1])]), ("hd", .bool false), ("mn", .str "ADBE Vector Graphic - Fill"), ("nm", .str "Fill 1"), ("o", .obj
  [("a", n 0), ("ix", n 5), ("k", n 100)]), ("r", n 1), ("ty", .str "fl")], .obj [("a", .obj [("a", n 0),
  ("ix", n 1), ("k", .arr [n 0, n 0])]), ("nm", .str "Transform"), ("o", .obj [("a", n 0), ("ix", n 7), ("k",
  n 100)]), ("p", .obj [("a", n 0), ("ix", n 2), ("k", .arr [x r 529669 3, x r 463996 3])]), ("r", .obj [("a",
  n 0), ("ix", n 6), ("k", n 0)]), ("s", .obj [("a", n 0), ("ix", n 3), ("k", .arr [n 100, n 100])]), ("sa",
  .obj [("a", n 0), ("ix", n 5), ("k", n 0)]), ("sk", .obj [("a", n 0), ("ix", n 4), ("k", n 0)]), ("ty", .str
  "tr")]]), ("ix", n 1), ("mn", .str "ADBE Vector Group"), ("nm", .str "Group 1"), ("np", n 2), ("ty", .str
  "gr")], .obj [("bm", n 0), ("cix", n 2), ("hd", .bool false), ("it", .arr [.obj [("hd", .bool false),
  ("ind", n 0), ("ix", n 1), ("ks", .obj [("a", n 1), ("ix", n 2), ("k", tiger9 r)]), ("mn", .str
  "ADBE Vector Shape - Group"), ("nm", .str "Path 1"), ("ty", .str "sh")], .obj [("bm", n 0), ("c", .obj
  [("a", n 0), ("ix", n 4), ("k", .arr [x r 2 1, x r 19199999641 11, x r 184000007779 12, n 1])]), ("hd",
  .bool false), ("mn", .str "ADBE Vector Graphic - Fill"), ("nm", .str "Fill 1"), ("o", .obj [("a", n 0),
  ("ix", n 5), ("k", n 100)]), ("r", n 1), ("ty", .str "fl")], .obj [("a", .obj [("a", n 0), ("ix", n 1),
  ("k", .arr [n 0, n 0])]), ("nm", .str "Transform"), ("o", .obj [("a", n 0), ("ix", n 7), ("k", n 100)]),
  ("p", .obj [("a", n 0), ("ix", n 2), ("k", .arr [x r 358404 3, x r 372606 3])]), ("r", .obj [("a", n 0),
  ("ix", n 6), ("k", n 0)]), ("s", .obj [("a", n 0), ("ix", n 3), ("k", .arr [n 100, n 100])]), ("sa", .obj
  [("a", n 0), ("ix", n 5), ("k", n 0)]), ("sk", .obj [("a", n 0), ("ix", n 4), ("k", n 0)]), ("ty", .str
  "tr")]]), ("ix", n 2), ("mn", .str "ADBE Vector Group"), ("nm", .str "Group 2"), ("np", n 2), ("ty", .str
  "gr")], .obj [("bm", n 0), ("cix", n 2), ("hd", .bool false), ("it", .arr [.obj [("hd", .bool false),
  ("ind", n 0), ("ix", n 1), ("ks", .obj [("a", n 1), ("ix", n 2), ("k", tiger10 r)]), ("mn", .str
  "ADBE Vector Shape - Group"), ("nm", .str "Path 1"), ("ty", .str "sh")], .obj [("bm", n 0), ("c", .obj
  [("a", n 0), ("ix", n 4), ("k", .arr [x r 2 1, x r 19199999641 11, x r 195999998205 12, n 1])]), ("hd",
  .bool false), ("mn", .str "ADBE Vector Graphic - Fill"), ("nm", .str "Fill 1"), ("o", .obj [("a", n 0),
  ("ix", n 5), ("k", n 100)]), ("r", n 1), ("ty", .str "fl")], .obj [("a", .obj [("a", n 0), ("ix", n 1),
  ("k", .arr [n 0, n 0])]), ("nm", .str "Transform"), ("o", .obj [("a", n 0), ("ix", n 7), ("k", n 100)]),
  ("p", .obj [("a", n 0), ("ix", n 2), ("k", .arr [x r 228041 3, x r 388783 3])]), ("r", .obj [("a", n 0),
  ("ix", n 6), ("k", n 0)]), ("s", .obj [("a", n 0), ("ix", n 3), ("k", .arr [n 100, n 100])]), ("sa", .obj
  [("a", n 0), ("ix", n 5), ("k", n 0)]), ("sk", .obj [("a", n 0), ("ix", n 4), ("k", n 0)]), ("ty", .str
  "tr")]]), ("ix", n 3), ("mn", .str "ADBE Vector Group"), ("nm", .str "Group 3"), ("np", n 2), ("ty", .str
  "gr")], .obj [("bm", n 0), ("cix", n 2), ("hd", .bool false), ("it", .arr [.obj [("hd", .bool false),
  ("ind", n 0), ("ix", n 1), ("ks", .obj [("a", n 1), ("ix", n 2), ("k", tiger11 r)]), ("mn", .str
  "ADBE Vector Shape - Group"), ("nm", .str "Path 1"), ("ty", .str "sh")], .obj [("bm", n 0), ("c", .obj
  [("a", n 0), ("ix", n 4), ("k", .arr [x r 2 1, x r 19199999641 11, x r 195999998205 12, n 1])]), ("hd",
  .bool false), ("mn", .str "ADBE Vector Graphic - Fill"), ("nm", .str "Fill 1"), ("o", .obj [("a", n 0),
  ("ix", n 5), ("k", n 100)]), ("r", n 1), ("ty", .str "fl")], .obj [("a", .obj [("a", n 0), ("ix", n 1),
  ("k", .arr [n 0, n 0])]), ("nm", .str "Transform"), ("o", .obj [("a", n 0), ("ix", n 7), ("k", n 100)]),
  ("p", .obj [("a", n 0), ("ix", n 2), ("k", .arr [x r 164101 3, x r 408051 3])]), ("r", .obj [("a", n 0),
  ("ix", n 6), ("k", n 0)]), ("s", .obj [("a", n 0), ("ix", n 3), ("k", .arr [n 100, n 100])]), ("sa", .obj
  [("a", n 0), ("ix", n 5), ("k", n 0)]), ("sk", .obj [("a", n 0), ("ix", n 4), ("k", n 0)]), ("ty", .str
  "tr")]]), ("ix", n 4), ("mn", .str "ADBE Vector Group"), ("nm", .str "Group 4"), ("np", n 2), ("ty", .str
  "gr")], .obj [("bm", n 0), ("cix", n 2), ("hd", .bool false), ("it", .arr [.obj [("hd", .bool false),
  ("ind", n 0), ("ix", n 1), ("ks", .obj [("a", n 1), ("ix", n 2), ("k", tiger12 r)]), ("mn", .str
  "ADBE Vector Shape - Group"), ("nm", .str "Path 1"), ("ty", .str "sh")], .obj [("bm", n 0), ("c", .obj
  [("a", n 0), ("ix", n 4), ("k", .arr [x r 732999973671 12, x r 365000017952 12, x r 258999992819 12, n
  1])]), ("hd", .bool false), ("mn", .str "ADBE Vector Graphic - Fill"), ("nm", .str "Fill 1"), ("o", .obj
  [("a", n 0), ("ix", n 5), ("k", n 100)]), ("r", n 1), ("ty", .str "fl")], .obj [("a", .obj [("a", n 0),
  ("ix", n 1), ("k", .arr [n 0, n 0])]), ("nm", .str "Transform"), ("o", .obj [("a", n 0), ("ix", n 7), ("k",
  n 100)]), ("p", .obj [("a", n 0), ("ix", n 2), ("k", .arr [x r 207224 3, x r 429884 3])]), ("r", .obj [("a",
  n 0), ("ix", n 6), ("k", n 0)]), ("s", .obj [("a", n 0), ("ix", n 3), ("k", .arr [n 100, n 100])]), ("sa",
  .obj [("a", n 0), ("ix", n 5), ("k", n 0)]), ("sk", .obj [("a", n 0), ("ix", n 4), ("k", n 0)]), ("ty", .str
  "tr")]]), ("ix", n 5), ("mn", .str "ADBE Vector Group"), ("nm", .str "Group 5"), ("np", n 2), ("ty", .str
  "gr")], .obj [("bm", n 0), ("cix", n 2), ("hd", .bool false), ("it", .arr [.obj [("hd", .bool false),
  ("ind", n 0), ("ix", n 1), ("ks", .obj [("a", n 1), ("ix", n 2), ("k", tiger13 r)]), ("mn", .str
  "ADBE Vector Shape - Group"), ("nm", .str "Path 1"), ("ty", .str "sh")], .obj [("bm", n 0), ("c", .obj
  [("a", n 0), ("ix", n 4), ("k", .arr [x r 995999983245 12, x r 416000007181 12, x r 122000002394 12, n
  1])]), ("hd", .bool false), ("mn", .str "ADBE Vector Graphic - Fill"), ("nm", .str "Fill 1"), ("o", .obj
  [("a", n 0), ("ix", n 5), ("k", n 100)]), ("r", n 1), ("ty", .str "fl")], .obj [("a", .obj [("a", n 0),
  ("ix", n 1), ("k", .arr [n 0, n 0])]), ("nm", .str "Transform"), ("o", .obj [("a", n 0), ("ix", n 7), ("k",
  n 100)]), ("p", .obj [("a", n 0), ("ix", n 2), ("k", .arr [x r 2552 2, x r 383022 3])]), ("r", .obj [("a", n
  0), ("ix", n 6), ("k", n 0)]), ("s", .obj [("a", n 0), ("ix", n 3), ("k", .arr [n 100, n 100])]), ("sa",
  .obj [("a", n 0), ("ix", n 5), ("k", n 0)]), ("sk", .obj [("a", n 0), ("ix", n 4), ("k", n 0)]), ("ty", .str
  "tr")]]), ("ix", n 6), ("mn", .str "ADBE Vector Group"), ("nm", .str "Group 6"), ("np", n 2), ("ty", .str
  "gr")], .obj [("bm", n 0), ("cix", n 2), ("hd", .bool false), ("it", .arr [.obj [("hd", .bool false),
  ("ind", n 0), ("ix", n 1), ("ks", .obj [("a", n 1), ("ix", n 2), ("k", tiger14 r)]), ("mn", .str
  "ADBE Vector Shape - Group"), ("nm", .str "Path 1"), ("ty", .str "sh")], .obj [("bm", n 0), ("c", .obj
  [("a", n 0), ("ix", n 4), ("k", .arr [x r 995999983245 12, x r 416000007181 12, x r 122000002394 12, n
  1])]), ("hd", .bool false), ("mn", .str "ADBE Vector Graphic - Fill"), ("nm", .str "Fill 1"), ("o", .obj
  [("a", n 0), ("ix", n 5), ("k", n 100)]), ("r", n 1), ("ty", .str "fl")], .obj [("a", .obj [("a", n 0),
  ("ix", n 1), ("k", .arr [n 0, n 0])]), ("nm", .str "Transform"), ("o", .obj [("a", n 0), ("ix", n 7), ("k",
  n 100)]), ("p", .obj [("a", n 0), ("ix", n 2), ("k", .arr [x r 43955 3, x r 42285 2])]), ("r", .obj [("a", n
  0), ("ix", n 6), ("k", n 0)]), ("s", .obj [("a", n 0), ("ix", n 3), ("k", .arr [n 100, n 100])]), ("sa",
  .obj [("a", n 0), ("ix", n 5), ("k", n 0)]), ("sk", .obj [("a", n 0), ("ix", n 4), ("k", n 0)]), ("ty", .str
  "tr")]]), ("ix", n 7), ("mn", .str "ADBE Vector Group"), ("nm", .str "Group 7"), ("np", n 2), ("ty", .str
  "gr")], .obj [("bm", n 0), ("cix", n 2), ("hd", .bool false), ("it", .arr [.obj [("hd", .bool false),
  ("ind", n 0), ("ix", n 1), ("ks", .obj [("a", n 1), ("ix", n 2), ("k", tiger15 r)]), ("mn", .str
  "ADBE Vector Shape - Group"), ("nm", .str "Path 1"), ("ty", .str "sh")], .obj [("bm", n 0), ("c", .obj
  [("a", n 0), ("ix", n 4), ("k", .arr [n 1, x r 588000009574 12, x r 75 3, n 1])]), ("hd", .bool false),
  ("mn", .str "ADBE Vector Graphic - Fill"), ("nm", .str "Fill 1"), ("o", .obj [("a", n 0), ("ix", n 5), ("k",
  n 100)]), ("r", n 1), ("ty", .str "fl")], .obj [("a", .obj [("a", n 0), ("ix", n 1), ("k", .arr [n 0, n
  0])]), ("nm", .str "Transform"), ("o", .obj [("a", n 0), ("ix", n 7), ("k", n 100)]), ("p", .obj [("a", n
  0), ("ix", n 2), ("k", .arr [x r 185973 3, x r 384149 3])]), ("r", .obj [("a", n 0), ("ix", n 6), ("k", n
  0)]), ("s", .obj [("a", n 0), ("ix", n 3), ("k", .arr [n 100, n 100])]), ("sa", .obj [("a", n 0), ("ix", n
  5), ("k", n 0)]), ("sk", .obj [("a", n 0), ("ix", n 4), ("k", n 0)]), ("ty", .str "tr")]]), ("ix", n 8),
  ("mn", .str "ADBE Vector Group"), ("nm", .str "Group 8"), ("np", n 2), ("ty", .str "gr")], .obj [("bm", n
  0), ("cix", n 2), ("hd", .bool false), ("it", .arr [.obj [("hd", .bool false), ("ind", n 0), ("ix", n 1),
  ("ks", .obj [("a", n 1), ("ix", n 2), ("k", tiger16 r)]), ("mn", .str "ADBE Vector Shape - Group"), ("nm",
  .str "Path 1"), ("ty", .str "sh")], .obj [("bm", n 0), ("c", .obj [("a", n 0), ("ix", n 4), ("k", .arr [x r
  2 1, x r 19199999641 11, x r 184000007779 12, n 1])]), ("hd", .bool false), ("mn", .str
  "ADBE Vector Graphic - Fill"), ("nm", .str "Fill 1"), ("o", .obj [("a", n 0), ("ix", n 5), ("k", n 100)]),
  ("r", n 1), ("ty", .str "fl")], .obj [("a", .obj [("a", n 0), ("ix", n 1), ("k", .arr [n 0, n 0])]), ("nm",
  .str "Transform"), ("o", .obj [("a", n 0), ("ix", n 7), ("k", n 100)]), ("p", .obj [("a", n 0), ("ix", n 2),
  ("k", .arr [x r 51528 2, x r 362252 3])]), ("r", .obj [("a", n 0), ("ix", n 6), ("k", n 0)]), ("s", .obj
  [("a", n 0), ("ix", n 3), ("k", .arr [n 100, n 100])]), ("sa", .obj [("a", n 0), ("ix", n 5), ("k", n 0)]),
  ("sk", .obj [("a", n 0), ("ix", n 4), ("k", n 0)]), ("ty", .str "tr")]]), ("ix", n 9), ("mn", .str
  "ADBE Vector Group"), ("nm", .str "Group 9"), ("np", n 2), ("ty", .str "gr")], .obj [("bm", n 0), ("cix", n
  2), ("hd", .bool false), ("it", .arr [.obj [("hd", .bool false), ("ind", n 0), ("ix", n 1), ("ks", .obj
  [("a", n 1), ("ix", n 2), ("k", tiger17 r)]), ("mn", .str "ADBE Vector Shape - Group"), ("nm", .str
  "Path 1"), ("ty", .str "sh")], .obj [("bm", n 0), ("c", .obj [("a", n 0), ("ix", n 4), ("k", .arr [x r 2 1,
  x r 19199999641 11, x r 184000007779 12, n 1])]), ("hd", .bool false), ("mn", .str
  "ADBE Vector Graphic - Fill"), ("nm", .str "Fill 1"), ("o", .obj [("a", n 0), ("ix", n 5), ("k", n 100)]),
  ("r", n 1), ("ty", .str "fl")], .obj [("a", .obj [("a", n 0), ("ix", n 1), ("k", .arr [n 0, n 0])]), ("nm",
  .str "Transform"), ("o", .obj [("a", n 0), ("ix", n 7), ("k", n 100)]), ("p", .obj [("a", n 0), ("ix", n 2),
  ("k", .arr [x r 504515 3, x r 270885 3])]), ("r", .obj [("a", n 0), ("ix", n 6), ("k", n 0)]), ("s", .obj
  [("a", n 0), ("ix", n 3), ("k", .arr [n 100, n 100])]), ("sa", .obj [("a", n 0), ("ix", n 5), ("k", n 0)]),
  ("sk", .obj [("a", n 0), ("ix", n 4), ("k", n 0)]), ("ty", .str "tr")]]), ("ix", n 10), ("mn", .str
  "ADBE Vector Group"), ("nm", .str "Group 10"), ("np", n 2), ("ty", .str "gr")], .obj [("bm", n 0), ("cix", n
  2), ("hd", .bool false), ("it", .arr [.obj [("hd", .bool false), ("ind", n 0), ("ix", n 1), ("ks", .obj
  [("a", n 1), ("ix", n 2), ("k", tiger18 r)]), ("mn", .str "ADBE Vector Shape - Group"), ("nm", .str
  "Path 1"), ("ty", .str "sh")], .obj [("bm", n 0), ("c", .obj [("a", n 0), ("ix", n 4), ("k", .arr [x r 2 1,
  x r 19199999641 11, x r 184000007779 12, n 1])]), ("hd", .bool false), ("mn", .str
  "ADBE Vector Graphic - Fill"), ("nm", .str "Fill 1"), ("o", .obj [("a", n 0), ("ix", n 5), ("k", n 100)]),
  ("r", n 1), ("ty", .str "fl")], .obj [("a", .obj [("a", n 0), ("ix", n 1), ("k", .arr [n 0, n 0])]), ("nm",
  .str "Transform"), ("o", .obj [("a", n 0), ("ix", n 7), ("k", n 100)]), ("p", .obj [("a", n 0), ("ix", n 2),
  ("k", .arr [x r 42544 2, x r 313678 3])]), ("r", .obj [("a", n 0), ("ix", n 6), ("k", n 0)]), ("s", .obj
  [("a", n 0), ("ix", n 3), ("k", .arr [n 100, n 100])]), ("sa", .obj [("a", n 0), ("ix", n 5), ("k", n 0)]),
  ("sk", .obj [("a", n 0), ("ix", n 4), ("k", n 0)]), ("ty", .str "tr")]]), ("ix", n 11), ("mn", .str
  "ADBE Vector Group"), ("nm", .str "Group 11"), ("np", n 2), ("ty", .str "gr")], .obj [("bm", n 0), ("cix", n
  2), ("hd", .bool false), ("it", .arr [.obj [("hd", .bool false), ("ind", n 0), ("ix", n 1), ("ks", .obj
  [("a", n 1), ("ix", n 2), ("k", tiger19 r)]), ("mn", .str "ADBE Vector Shape - Group"), ("nm", .str
  "Path 1"), ("ty", .str "sh")], .obj [("bm", n 0), ("c", .obj [("a", n 0), ("ix", n 4), ("k", .arr [x r 2 1,
  x r 19199999641 11, x r 184000007779 12, n 1])]), ("hd", .bool false), ("mn", .str
  "ADBE Vector Graphic - Fill"), ("nm", .str "Fill 1"), ("o", .obj [("a", n 0), ("ix", n 5), ("k", n 100)]),
  ("r", n 1), ("ty", .str "fl")], .obj [("a", .obj [("a", n 0), ("ix", n 1), ("k", .arr [n 0, n 0])]), ("nm",
  .str "Transform"), ("o", .obj [("a", n 0), ("ix", n 7), ("k", n 100)]), ("p", .obj [("a", n 0), ("ix", n 2),
  ("k", .arr [x r 588929 3, x r 121499 3])]), ("r", .obj [("a", n 0), ("ix", n 6), ("k", n 0)]), ("s", .obj
  [("a", n 0), ("ix", n 3), ("k", .arr [n 100, n 100])]), ("sa", .obj [("a", n 0), ("ix", n 5), ("k", n 0)]),
  ("sk", .obj [("a", n 0), ("ix", n 4), ("k", n 0)]), ("ty", .str "tr")]]), ("ix", n 12), ("mn", .str
  "ADBE Vector Group"), ("nm", .str "Group 12"), ("np", n 2), ("ty", .str "gr")], .obj [("bm", n 0), ("cix", n
  2), ("hd", .bool false), ("it", .arr [.obj [("hd", .bool false), ("ind", n 0), ("ix", n 1), ("ks", .obj
  [("a", n 1), ("ix", n 2), ("k", tiger20 r)]), ("mn", .str "ADBE Vector Shape - Group"), ("nm", .str
  "Path 1"), ("ty", .str "sh")], .obj [("bm", n 0), ("c", .obj [("a", n 0), ("ix", n 4), ("k", .arr [x r 2 1,
  x r 19199999641 11, x r 184000007779 12, n 1])]), ("hd", .bool false), ("mn", .str
  "ADBE Vector Graphic - Fill"), ("nm", .str "Fill 1"), ("o", .obj [("a", n 0), ("ix", n 5), ("k", n 100)]),
  ("r", n 1), ("ty", .str "fl")], .obj [("a", .obj [("a", n 0), ("ix", n 1), ("k", .arr [n 0, n 0])]), ("nm",
  .str "Transform"), ("o", .obj [("a", n 0), ("ix", n 7), ("k", n 100)]), ("p", .obj [("a", n 0), ("ix", n 2),
  ("k", .arr [x r 498723 3, x r 11381 2])]), ("r", .obj [("a", n 0), ("ix", n 6), ("k", n 0)]), ("s", .obj
  [("a", n 0), ("ix", n 3), ("k", .arr [n 100, n 100])]), ("sa", .obj [("a", n 0), ("ix", n 5), ("k", n 0)]),
  ("sk", .obj [("a", n 0), ("ix", n 4), ("k", n 0)]), ("ty", .str "tr")]]), ("ix", n 13), ("mn", .str
  "ADBE Vector Group"), ("nm", .str "Group 13"), ("np", n 2), ("ty", .str "gr")], .obj [("bm", n 0), ("cix", n
  2), ("hd", .bool false), ("it", .arr [.obj [("hd", .bool false), ("ind", n 0), ("ix", n 1), ("ks", .obj
  [("a", n 1), ("ix", n 2), ("k", tiger21 r)]), ("mn", .str "ADBE Vector Shape - Group"), ("nm", .str
  "Path 1"), ("ty", .str "sh")], .obj [("bm", n 0), ("c", .obj [("a", n 0), ("ix", n 4), ("k", .arr [x r 2 1,
  x r 19199999641 11, x r 184000007779 12, n 1])]), ("hd", .bool false), ("mn", .str
  "ADBE Vector Graphic - Fill"), ("nm", .str "Fill 1"), ("o", .obj [("a", n 0), ("ix", n 5), ("k", n 100)]),
  ("r", n 1), ("ty", .str "fl")], .obj [("a", .obj [("a", n 0), ("ix", n 1), ("k", .arr [n 0, n 0])]), ("nm",
  .str "Transform"), ("o", .obj [("a", n 0), ("ix", n 7), ("k", n 100)]), ("p", .obj [("a", n 0), ("ix", n 2),
  ("k", .arr [x r 383688 3, x r 156932 3])]), ("r", .obj [("a", n 0), ("ix", n 6), ("k", n 0)]), ("s", .obj
  [("a", n 0), ("ix", n 3), ("k", .arr [n 100, n 100])]), ("sa", .obj [("a", n 0), ("ix", n 5), ("k", n 0)]),
  ("sk", .obj [("a", n 0), ("ix", n 4), ("k", n 0)]), ("ty", .str "tr")]]), ("ix", n 14), ("mn", .str
  "ADBE Vector Group"), ("nm", .str "Group 14"), ("np", n 2), ("ty", .str "gr")], .obj [("bm", n 0), ("cix", n
  2), ("hd", .bool false), ("it", .arr [.obj [("hd", .bool false), ("ind", n 0), ("ix", n 1), ("ks", .obj
  [("a", n 1), ("ix", n 2), ("k", tiger22 r)]), ("mn", .str "ADBE Vector Shape - Group"), ("nm", .str
  "Path 1"), ("ty", .str "sh")], .obj [("bm", n 0), ("c", .obj [("a", n 0), ("ix", n 4), ("k", .arr [x r
  732999973671 12, x r 365000017952 12, x r 258999992819 12, n 1])]), ("hd", .bool false), ("mn", .str
  "ADBE Vector Graphic - Fill"), ("nm", .str "Fill 1"), ("o", .obj [("a", n 0), ("ix", n 5), ("k", n 100)]),
  ("r", n 1), ("ty", .str "fl")], .obj [("a", .obj [("a", n 0), ("ix", n 1), ("k", .arr [n 0, n 0])]), ("nm",
  .str "Transform"), ("o", .obj [("a", n 0), ("ix", n 7), ("k", n 100)]), ("p", .obj [("a", n 0), ("ix", n 2),
  ("k", .arr [x r 488097 3, x r 390932 3])]), ("r", .obj [("a", n 0), ("ix", n 6), ("k", n 0)]), ("s", .obj
  [("a", n 0), ("ix", n 3), ("k", .arr [n 100, n 100])]), ("sa", .obj [("a", n 0), ("ix", n 5), ("k", n 0)]),
  ("sk", .obj [("a", n 0), ("ix", n 4), ("k", n 0)]), ("ty", .str "tr")]]), ("ix", n 15), ("mn", .str
  "ADBE Vector Group"), ("nm", .str "Group 15"), ("np", n 2), ("ty", .str "gr")], .obj [("bm", n 0), ("cix", n
  2), ("hd", .bool false), ("it", .arr [.obj [("hd", .bool false), ("ind", n 0), ("ix", n 1), ("ks", .obj
  [("a", n 1), ("ix", n 2), ("k", tiger23 r)]), ("mn", .str "ADBE Vector Shape - Group"), ("nm", .str
  "Path 1"), ("ty", .str "sh")], .obj [("bm", n 0), ("c", .obj [("a", n 0), ("ix", n 4), ("k", .arr [n 1, x r
  588000009574 12, x r 75 3, n 1])]), ("hd", .bool false), ("mn", .str "ADBE Vector Graphic - Fill"), ("nm",
  .str "Fill 1"), ("o", .obj [("a", n 0), ("ix", n 5), ("k", n 100)]), ("r", n 1), ("ty", .str "fl")], .obj
  [("a", .obj [("a", n 0), ("ix", n 1), ("k", .arr [n 0, n 0])]), ("nm", .str "Transform"), ("o", .obj [("a",
  n 0), ("ix", n 7), ("k", n 100)]), ("p", .obj [("a", n 0), ("ix", n 2), ("k", .arr [x r 504382 3, x r 246861
  3])]), ("r", .obj [("a", n 0), ("ix", n 6), ("k", n 0)]), ("s", .obj [("a", n 0), ("ix", n 3), ("k", .arr [n
  100, n 100])]), ("sa", .obj [("a", n 0), ("ix", n 5), ("k", n 0)]), ("sk", .obj [("a", n 0), ("ix", n 4),
  ("k", n 0)]), ("ty", .str "tr")]]), ("ix", n 16), ("mn", .str "ADBE Vector Group"), ("nm", .str "Group 16"),
  ("np", n 2), ("ty", .str "gr")], .obj [("bm", n 0), ("cix", n 2), ("hd", .bool false), ("it", .arr [.obj
  [("hd", .bool false), ("ind", n 0), ("ix", n 1), ("ks", .obj [("a", n 1), ("ix", n 2), ("k", tiger24 r)]),
  ("mn", .str "ADBE Vector Shape - Group"), ("nm", .str "Path 1"), ("ty", .str "sh")], .obj [("bm", n 0),
  ("c", .obj [("a", n 0), ("ix", n 4), ("k", .arr [x r 2 1, x r 19199999641 11, x r 184000007779 12, n 1])]),
  ("hd", .bool false), ("mn", .str "ADBE Vector Graphic - Fill"), ("nm", .str "Fill 1"), ("o", .obj [("a", n
  0), ("ix", n 5), ("k", n 100)]), ("r", n 1), ("ty", .str "fl")], .obj [("a", .obj [("a", n 0), ("ix", n 1),
  ("k", .arr [n 0, n 0])]), ("nm", .str "Transform"), ("o", .obj [("a", n 0), ("ix", n 7), ("k", n 100)]),
  ("p", .obj [("a", n 0), ("ix", n 2), ("k", .arr [x r 308921 3, x r 217089 3])]), ("r", .obj [("a", n 0),
  ("ix", n 6), ("k", n 0)]), ("s", .obj [("a", n 0), ("ix", n 3), ("k", .arr [n 100, n 100])]), ("sa", .obj
  [("a", n 0), ("ix", n 5), ("k", n 0)]), ("sk", .obj [("a", n 0), ("ix", n 4), ("k", n 0)]), ("ty", .str
  "tr")]]), ("ix", n 17), ("mn", .str "ADBE Vector Group"), ("nm", .str "Group 17"), ("np", n 2), ("ty", .str
  "gr")], .obj [("bm", n 0), ("cix", n 2), ("hd", .bool false), ("it", .arr [.obj [("hd", .bool false),
  ("ind", n 0), ("ix", n 1), ("ks", .obj [("a", n 1), ("ix", n 2), ("k", tiger25 r)]), ("mn", .str
  "ADBE Vector Shape - Group"), ("nm", .str "Path 1"), ("ty", .str "sh")], .obj [("bm", n 0), ("c", .obj
  [("a", n 0), ("ix", n 4), ("k", .arr [x r 732999973671 12, x r 365000017952 12, x r 258999992819 12, n
  1])]), ("hd", .bool false), ("mn", .str "ADBE Vector Graphic - Fill"), ("nm", .str "Fill 1"), ("o", .obj
  [("a", n 0), ("ix", n 5), ("k", n 100)]), ("r", n 1), ("ty", .str "fl")], .obj [("a", .obj [("a", n 0),
  ("ix", n 1), ("k", .arr [n 0, n 0])]), ("nm", .str "Transform"), ("o", .obj [("a", n 0), ("ix", n 7), ("k",
  n 100)]), ("p", .obj [("a", n 0), ("ix", n 2), ("k", .arr [x r 426002 3, x r 347196 3])]), ("r", .obj [("a",
  n 0), ("ix", n 6), ("k", n 0)]), ("s", .obj [("a", n 0), ("ix", n 3), ("k", .arr [n 100, n 100])]), ("sa",
  .obj [("a", n 0), ("ix", n 5), ("k", n 0)]), ("sk", .obj [("a", n 0), ("ix", n 4), ("k", n 0)]), ("ty", .str
  "tr")]]), ("ix", n 18), ("mn", .str "ADBE Vector Group"), ("nm", .str "Group 18"), ("np", n 2), ("ty", .str
  "gr")], .obj [("bm", n 0), ("cix", n 2), ("hd", .bool false), ("it", .arr [.obj [("hd", .bool false),
  ("ind", n 0), ("ix", n 1), ("ks", .obj [("a", n 1), ("ix", n 2), ("k", tiger26 r)]), ("mn", .str
  "ADBE Vector Shape - Group"), ("nm", .str "Path 1"), ("ty", .str "sh")], .obj [("bm", n 0), ("c", .obj
  [("a", n 0), ("ix", n 4), ("k", .arr [n 1, x r 588000009574 12, x r 75 3, n 1])]), ("hd", .bool false),
  ("mn", .str "ADBE Vector Graphic - Fill"), ("nm", .str "Fill 1"), ("o", .obj [("a", n 0), ("ix", n 5), ("k",
  n 100)]), ("r", n 1), ("ty", .str "fl")], .obj [("a", .obj [("a", n 0), ("ix", n 1), ("k", .arr [n 0, n
  0])]), ("nm", .str "Transform"), ("o", .obj [("a", n 0), ("ix", n 7), ("k", n 100)]), ("p", .obj [("a", n
  0), ("ix", n 2), ("k", .arr [x r 25748 2, x r 248638 3])]), ("r", .obj [("a", n 0), ("ix", n 6), ("k", n
  0)]), ("s", .obj [("a", n 0), ("ix", n 3), ("k", .arr [n 100, n 100])]), ("sa", .obj [("a", n 0), ("ix", n
  5), ("k", n 0)]), ("sk", .obj [("a", n 0), ("ix", n 4), ("k", n 0)]), ("ty", .str "tr")]]), ("ix", n 19),
  ("mn", .str "ADBE Vector Group"), ("nm", .str "Group 19"), ("np", n 2), ("ty", .str "gr")]]

/-- A value in `examples/assets/google_fonts/Tiger.json`. -/
def tiger28 : Json F :=
  .arr [.obj [("i", .obj [("x", x r 667 3), ("y", n 1)]), ("o", .obj [("x", x r 167 3), ("y", x r 167 3)]),
  ("s", .arr [x r 326829 3, x r 549509 3, n 0]), ("t", n 30), ("ti", .arr [n 0, n 0, n 0]), ("to", .arr [n 0,
  n 0, n 0])], .obj [("i", .obj [("x", x r 833 3), ("y", x r 833 3)]), ("o", .obj [("x", x r 333 3), ("y", n
  0)]), ("s", .arr [x r 326829 3, x r 566509 3, n 0]), ("t", n 38), ("ti", .arr [n 0, n 0, n 0]), ("to", .arr
  [n 0, n 0, n 0])], .obj [("i", .obj [("x", x r 3 1), ("y", n 1)]), ("o", .obj [("x", x r 167 3), ("y", x r
  167 3)]), ("s", .arr [x r 326829 3, x r 549509 3, n 0]), ("t", n 48), ("ti", .arr [n 0, n 0, n 0]), ("to",
  .arr [n 0, n 0, n 0])], .obj [("i", .obj [("x", x r 881 3), ("y", x r 516 3)]), ("o", .obj [("x", x r 652
  3), ("y", n 0)]), ("s", .arr [x r 369829 3, x r 484509 3, n 0]), ("t", n 58), ("ti", .arr [x r (-158) 3, x r
  (-53772) 3, n 0]), ("to", .arr [n 0, n 0, n 0])], .obj [("i", .obj [("x", x r 833 3), ("y", x r 833 3)]),
  ("o", .obj [("x", x r 426 3), ("y", x r 432 3)]), ("s", .arr [x r 337329 3, x r 597041 3, n 0]), ("t", x r
  73072 3), ("ti", .arr [n 0, n 0, n 0]), ("to", .arr [x r 158 3, x r 53772 3, n 0])], .obj [("i", .obj [("x",
  x r 833 3), ("y", x r 833 3)]), ("o", .obj [("x", x r 167 3), ("y", x r 167 3)]), ("s", .arr [x r 352776 3,
  x r 687138 3, n 0]), ("t", n 76), ("ti", .arr [n 0, n 0, n 0]), ("to", .arr [n 0, n 0, n 0])], .obj [("i",
  .obj [("x", x r 667 3), ("y", n 1)]), ("o", .obj [("x", x r 167 3), ("y", x r 167 3)]), ("s", .arr [x r
  356743 3, x r 769672 3, n 0]), ("t", n 78), ("ti", .arr [n 0, n 0, n 0]), ("to", .arr [n 0, n 0, n 0])],
  .obj [("i", .obj [("x", x r 667 3), ("y", x r 667 3)]), ("o", .obj [("x", x r 333 3), ("y", x r 333 3)]),
  ("s", .arr [x r 365829 3, x r 802009 3, n 0]), ("t", n 92), ("ti", .arr [n 0, n 0, n 0]), ("to", .arr [n 0,
  n 0, n 0])], .obj [("i", .obj [("x", x r 1 1), ("y", x r 1 1)]), ("o", .obj [("x", x r 333 3), ("y", x r 333
  3)]), ("s", .arr [x r 365829 3, x r 802009 3, n 0]), ("t", n 236), ("ti", .arr [n 0, n 0, n 0]), ("to", .arr
  [n 0, n 0, n 0])], .obj [("i", .obj [("x", x r 833 3), ("y", x r 833 3)]), ("o", .obj [("x", x r 504 3),
  ("y", n 0)]), ("s", .arr [x r 365829 3, x r 802009 3, n 0]), ("t", n 246), ("ti", .arr [n 0, n 0, n 0]),
  ("to", .arr [n 0, n 0, n 0])], .obj [("i", .obj [("x", x r 471 3), ("y", n 1)]), ("o", .obj [("x", x r 167
  3), ("y", x r 167 3)]), ("s", .arr [x r 373355 3, x r 578246 3, n 0]), ("t", n 254), ("ti", .arr [n 0, n 0,
  n 0]), ("to", .arr [n 0, n 0, n 0])], .obj [("i", .obj [("x", x r 667 3), ("y", n 1)]), ("o", .obj [("x", x
  r 7 1), ("y", n 0)]), ("s", .arr [x r 381829 3, x r 538009 3, n 0]), ("t", n 260), ("ti", .arr [n 0, n 0, n
  0]), ("to", .arr [n 0, n 0, n 0])], .obj [("i", .obj [("x", x r 667 3), ("y", n 1)]), ("o", .obj [("x", x r
  333 3), ("y", n 0)]), ("s", .arr [x r 326829 3, x r 566509 3, n 0]), ("t", n 272), ("ti", .arr [n 0, n 0, n
  0]), ("to", .arr [n 0, n 0, n 0])], .obj [("i", .obj [("x", x r 667 3), ("y", x r 667 3)]), ("o", .obj
  [("x", x r 333 3), ("y", x r 333 3)]), ("s", .arr [x r 326829 3, x r 549509 3, n 0]), ("t", n 288), ("ti",
  .arr [n 0, n 0, n 0]), ("to", .arr [n 0, n 0, n 0])], .obj [("s", .arr [x r 326829 3, x r 549509 3, n 0]),
  ("t", n 302)]]

/-- A value in `examples/assets/google_fonts/Tiger.json`. -/
def tiger29 : Json F :=
  .arr [.obj [("i", .obj [("x", .arr [x r 667 3]), ("y", .arr [n 1])]), ("o", .obj [("x", .arr [x r 167 3]),
  ("y", .arr [x r 167 3])]), ("s", .arr [n 0]), ("t", n 30)], .obj [("i", .obj [("x", .arr [x r 716 3]), ("y",
  .arr [x r 728 3])]), ("o", .obj [("x", .arr [x r 333 3]), ("y", .arr [n 0])]), ("s", .arr [x r (-7566) 3]),
  ("t", n 38)], .obj [("i", .obj [("x", .arr [x r 667 3]), ("y", .arr [n 1])]), ("o", .obj [("x", .arr [x r
  232 3]), ("y", .arr [x r 254 3])]), ("s", .arr [n 0]), ("t", n 48)], .obj [("i", .obj [("x", .arr [x r 667
  3]), ("y", .arr [n 1])]), ("o", .obj [("x", .arr [x r 675 3]), ("y", .arr [n 0])]), ("s", .arr [x r 7941
  3]), ("t", n 60)], .obj [("i", .obj [("x", .arr [x r 667 3]), ("y", .arr [n 1])]), ("o", .obj [("x", .arr [x
  r 333 3]), ("y", .arr [n 0])]), ("s", .arr [x r (-1205) 2]), ("t", n 76)], .obj [("i", .obj [("x", .arr [x r
  667 3]), ("y", .arr [n 1])]), ("o", .obj [("x", .arr [x r 333 3]), ("y", .arr [n 0])]), ("s", .arr [x r 4393
  3]), ("t", n 92)], .obj [("i", .obj [("x", .arr [x r 667 3]), ("y", .arr [n 1])]), ("o", .obj [("x", .arr [x
  r 333 3]), ("y", .arr [n 0])]), ("s", .arr [x r 2918 3]), ("t", n 106)], .obj [("i", .obj [("x", .arr [x r
  893 3]), ("y", .arr [x r 727 3])]), ("o", .obj [("x", .arr [x r 297 3]), ("y", .arr [n 0])]), ("s", .arr [x
  r 2918 3]), ("t", n 236)], .obj [("i", .obj [("x", .arr [x r 667 3]), ("y", .arr [n 1])]), ("o", .obj [("x",
  .arr [x r 271 3]), ("y", .arr [x r 96 3])]), ("s", .arr [x r (-2082) 3]), ("t", n 246)], .obj [("i", .obj
  [("x", .arr [x r 832 3]), ("y", .arr [x r 831 3])]), ("o", .obj [("x", .arr [x r 333 3]), ("y", .arr [n
  0])]), ("s", .arr [x r (-30863) 3]), ("t", n 254)], .obj [("i", .obj [("x", .arr [x r 846 3]), ("y", .arr [x
  r 925 3])]), ("o", .obj [("x", .arr [x r 469 3]), ("y", .arr [x r 204 3])]), ("s", .arr [x r (-26456) 3]),
  ("t", n 260)], .obj [("i", .obj [("x", .arr [x r 667 3]), ("y", .arr [n 1])]), ("o", .obj [("x", .arr [x r
  204 3]), ("y", .arr [x r 338 3])]), ("s", .arr [m (-6)]), ("t", n 272)], .obj [("i", .obj [("x", .arr [x r
  667 3]), ("y", .arr [n 1])]), ("o", .obj [("x", .arr [x r 333 3]), ("y", .arr [n 0])]), ("s", .arr [n 2]),
  ("t", n 288)], .obj [("s", .arr [n 0]), ("t", n 302)]]

/-- A value in `examples/assets/google_fonts/Tiger.json`. -/
def tiger30 : Json F :=
  .arr [.obj [("i", .obj [("x", x r 667 3), ("y", n 1)]), ("o", .obj [("x", x r 333 3), ("y", n 0)]), ("s",
  .arr [.obj [("c", .bool true), ("i", .arr [.arr [x r 246 3, x r 236 3], .arr [x r 286 3, x r (-6993) 3],
  .arr [x r (-238) 3, x r (-477) 3], .arr [x r (-291) 3, x r 7115 3]]), ("o", .arr [.arr [x r (-246) 3, x r
  (-236) 3], .arr [x r (-386) 3, x r 9435 3], .arr [x r 238 3, x r 477 3], .arr [x r 291 3, x r (-7115) 3]]),
  ("v", .arr [.arr [x r 85302 3, x r 150103 3], .arr [x r 81687 3, x r 168761 3], .arr [x r 81721 3, x r
  182649 3], .arr [x r 82303 3, x r 169805 3]])]]), ("t", n 246)], .obj [("i", .obj [("x", x r 667 3), ("y", n
  1)]), ("o", .obj [("x", x r 7 1), ("y", n 0)]), ("s", .arr [.obj [("c", .bool true), ("i", .arr [.arr [x r
  8277 3, x r 1885 3], .arr [x r 2715 3, x r (-10447) 3], .arr [x r (-8166) 3, x r (-2109) 3], .arr [x r
  (-2775) 3, x r 10627 3]]), ("o", .arr [.arr [x r (-8277) 3, x r (-1885) 3], .arr [x r (-3663) 3, x r 14094
  3], .arr [x r 8166 3, x r 2109 3], .arr [x r 2775 3, x r (-10627) 3]]), ("v", .arr [.arr [x r 98696 3, x r
  147087 3], .arr [x r 8186 2, x r 17138 2], .arr [x r 86277 3, x r 201223 3], .arr [x r 103225 3, x r 177265
  3]])]]), ("t", n 260)], .obj [("s", .arr [.obj [("c", .bool true), ("i", .arr [.arr [x r 213 3, x r 266 3],
  .arr [x r 119 2, x r (-6897) 3], .arr [x r (-174) 3, x r (-504) 3], .arr [x r (-1211) 3, x r 7017 3]]),
  ("o", .arr [.arr [x r (-213) 3, x r (-266) 3], .arr [x r (-1606) 3, x r 9305 3], .arr [x r 174 3, x r 504
  3], .arr [x r 1211 3, x r (-7017) 3]]), ("v", .arr [.arr [x r 87411 3, x r 150484 3], .arr [x r 81408 3, x r
  168517 3], .arr [x r 79642 3, x r 182292 3], .arr [x r 81884 3, x r 169632 3]])]]), ("t", n 272)]]

/-- A value in `examples/assets/google_fonts/Tiger.json`. -/
def tiger31 : Json F :=
  .arr [.obj [("i", .obj [("x", x r 667 3), ("y", n 1)]), ("o", .obj [("x", x r 333 3), ("y", n 0)]), ("s",
  .arr [.obj [("c", .bool true), ("i", .arr [.arr [x r (-534) 3, x r (-8486) 3], .arr [x r 289 3, x r 2883 3],
  .arr [x r (-737) 3, x r (-11386) 3], .arr [x r (-133) 3, x r 252 3], .arr [x r 816 3, x r 11823 3]]), ("o",
  .arr [.arr [x r 534 3, x r 8486 3], .arr [x r (-289) 3, x r (-2883) 3], .arr [x r 737 3, x r 11386 3], .arr
  [x r 133 3, x r (-252) 3], .arr [x r (-816) 3, x r (-11823) 3]]), ("v", .arr [.arr [x r 1258 2, x r 259283
  3], .arr [x r 14182 3, x r 284742 3], .arr [x r 13908 3, x r 284116 3], .arr [x r 28574 3, x r 305124 3],
  .arr [x r 1387 2, x r 275308 3]])]]), ("t", n 246)], .obj [("i", .obj [("x", x r 833 3), ("y", n 1)]), ("o",
  .obj [("x", x r 7 1), ("y", n 0)]), ("s", .arr [.obj [("c", .bool true), ("i", .arr [.arr [x r 3114 3, x r
  (-8503) 3], .arr [x r 5819 3, x r 2896 3], .arr [x r 2885 3, x r (-11409) 3], .arr [x r (-9615) 3, x r 242
  3], .arr [x r 246 3, x r 11851 3]]), ("o", .arr [.arr [x r (-3114) 3, x r 8503 3], .arr [x r (-5819) 3, x r
  (-2896) 3], .arr [x r (-2885) 3, x r 11409 3], .arr [x r 9615 3, x r (-242) 3], .arr [x r (-246) 3, x r
  (-11851) 3]]), ("v", .arr [.arr [x r 6237 2, x r 270028 3], .arr [x r 53027 3, x r 295537 3], .arr [x r
  38268 3, x r 294894 3], .arr [x r 55096 3, x r 325049 3], .arr [x r 74476 3, x r 286105 3]])]]), ("t", n
  260)], .obj [("s", .arr [.obj [("c", .bool true), ("i", .arr [.arr [x r 3114 3, x r (-8503) 3], .arr [x r
  5819 3, x r 2896 3], .arr [x r 2885 3, x r (-11409) 3], .arr [x r (-9615) 3, x r 242 3], .arr [x r 246 3, x
  r 11851 3]]), ("o", .arr [.arr [x r (-3114) 3, x r 8503 3], .arr [x r (-5819) 3, x r (-2896) 3], .arr [x r
  (-2885) 3, x r 11409 3], .arr [x r 9615 3, x r (-242) 3], .arr [x r (-246) 3, x r (-11851) 3]]), ("v", .arr
  [.arr [x r 52425 3, x r 268983 3], .arr [x r 43082 3, x r 294492 3], .arr [x r 28323 3, x r 293849 3], .arr
  [x r 55096 3, x r 325049 3], .arr [x r 6453 2, x r 28506 2]])]]), ("t", n 272)]]

/-- A value in `examples/assets/google_fonts/Tiger.json`. -/
def tiger32 : Json F :=
  .arr [.obj [("i", .obj [("x", x r 667 3), ("y", n 1)]), ("o", .obj [("x", x r 167 3), ("y", x r 167 3)]),
  ("s", .arr [.obj [("c", .bool true), ("i", .arr [.arr [x r 15564 3, x r (-7984) 3], .arr [x r 8871 3, x r
  (-22661) 3], .arr [x r (-10322) 3, x r (-5968) 3], .arr [x r (-4435) 3, x r 19515 3]]), ("o", .arr [.arr [x
  r (-12097) 3, x r 6209 3], .arr [x r (-4435) 3, x r 1129 2], .arr [x r 10403 3, x r 5968 3], .arr [x r 4436
  3, x r (-19516) 3]]), ("v", .arr [.arr [x r (-8992) 3, x r (-66411) 3], .arr [x r (-11815) 3, x r 22943 3],
  .arr [x r (-20605) 3, x r 68427 3], .arr [x r 26491 3, x r 23346 3]])]]), ("t", n 48)], .obj [("i", .obj
  [("x", x r 667 3), ("y", n 1)]), ("o", .obj [("x", x r 333 3), ("y", n 0)]), ("s", .arr [.obj [("c", .bool
  true), ("i", .arr [.arr [x r 15905 3, x r (-7203) 3], .arr [x r 8871 3, x r (-22661) 3], .arr [x r (-982) 2,
  x r (-4694) 3], .arr [x r (-4435) 3, x r 19515 3]]), ("o", .arr [.arr [x r (-12363) 3, x r 5601 3], .arr [x
  r (-4435) 3, x r 1129 2], .arr [x r 9869 3, x r 4694 3], .arr [x r 4436 3, x r (-19516) 3]]), ("v", .arr
  [.arr [x r 6041 3, x r (-66498) 3], .arr [x r 6841 3, x r 23211 3], .arr [x r (-824) 3, x r 69474 3], .arr
  [x r 39649 3, x r 20247 3]])]]), ("t", n 58)], .obj [("i", .obj [("x", x r 833 3), ("y", x r 833 3)]), ("o",
  .obj [("x", x r 333 3), ("y", n 0)]), ("s", .arr [.obj [("c", .bool true), ("i", .arr [.arr [x r 15564 3, x
  r (-7984) 3], .arr [x r 8871 3, x r (-22661) 3], .arr [x r (-10322) 3, x r (-5968) 3], .arr [x r (-4435) 3,
  x r 19515 3]]), ("o", .arr [.arr [x r (-12097) 3, x r 6209 3], .arr [x r (-4435) 3, x r 1129 2], .arr [x r
  10403 3, x r 5968 3], .arr [x r 4436 3, x r (-19516) 3]]), ("v", .arr [.arr [x r (-28882) 3, x r (-68501)
  3], .arr [x r (-31705) 3, x r 20853 3], .arr [x r (-40495) 3, x r 66336 3], .arr [x r 6601 3, x r 21256
  3]])]]), ("t", n 70)], .obj [("i", .obj [("x", x r 667 3), ("y", n 1)]), ("o", .obj [("x", x r 167 3), ("y",
  x r 167 3)]), ("s", .arr [.obj [("c", .bool true), ("i", .arr [.arr [x r 15564 3, x r (-7984) 3], .arr [x r
  3633 3, x r (-24063) 3], .arr [x r (-10322) 3, x r (-5968) 3], .arr [x r (-978) 3, x r 37133 3]]), ("o",
  .arr [.arr [x r (-12097) 3, x r 6209 3], .arr [x r (-403) 2, x r 26696 3], .arr [x r 10403 3, x r 5968 3],
  .arr [x r 527 3, x r (-20007) 3]]), ("v", .arr [.arr [x r (-19671) 3, x r (-86183) 3], .arr [x r (-9524) 3,
  x r 4056 3], .arr [x r (-20605) 3, x r 68427 3], .arr [x r 22479 3, x r (-5995) 3]])]]), ("t", n 78)], .obj
  [("i", .obj [("x", x r 667 3), ("y", n 1)]), ("o", .obj [("x", x r 333 3), ("y", n 0)]), ("s", .arr [.obj
  [("c", .bool true), ("i", .arr [.arr [x r 15564 3, x r (-7984) 3], .arr [x r 8871 3, x r (-22661) 3], .arr
  [x r (-10322) 3, x r (-5968) 3], .arr [x r (-4435) 3, x r 19515 3]]), ("o", .arr [.arr [x r (-12097) 3, x r
  6209 3], .arr [x r (-4435) 3, x r 1129 2], .arr [x r 10403 3, x r 5968 3], .arr [x r 4436 3, x r (-19516)
  3]]), ("v", .arr [.arr [x r (-12362) 3, x r (-68855) 3], .arr [x r (-10665) 3, x r 18798 3], .arr [x r
  (-20932) 3, x r 68619 3], .arr [x r 24243 3, x r 1828 2]])]]), ("t", n 92)], .obj [("i", .obj [("x", x r 667
  3), ("y", n 1)]), ("o", .obj [("x", x r 333 3), ("y", n 0)]), ("s", .arr [.obj [("c", .bool true), ("i",
  .arr [.arr [x r 15564 3, x r (-7984) 3], .arr [x r 8871 3, x r (-22661) 3], .arr [x r (-10322) 3, x r
  (-5968) 3], .arr [x r (-4435) 3, x r 19515 3]]), ("o", .arr [.arr [x r (-12097) 3, x r 6209 3], .arr [x r
  (-4435) 3, x r 1129 2], .arr [x r 10403 3, x r 5968 3], .arr [x r 4436 3, x r (-19516) 3]]), ("v", .arr
  [.arr [x r (-12362) 3, x r (-68855) 3], .arr [x r (-10665) 3, x r 18798 3], .arr [x r (-20932) 3, x r 68619
  3], .arr [x r 24243 3, x r 1828 2]])]]), ("t", n 246)], .obj [("i", .obj [("x", x r 667 3), ("y", n 1)]),
  ("o", .obj [("x", x r 7 1), ("y", n 0)]), ("s", .arr [.obj [("c", .bool true), ("i", .arr [.arr [x r 16431
  3, x r (-5999) 3], .arr [x r 8871 3, x r (-22661) 3], .arr [x r (-9047) 3, x r (-273) 2], .arr [x r (-4435)
  3, x r 19515 3]]), ("o", .arr [.arr [x r (-12773) 3, x r 4663 3], .arr [x r (-4435) 3, x r 1129 2], .arr [x
  r 9047 3, x r 273 2], .arr [x r 4436 3, x r (-19516) 3]]), ("v", .arr [.arr [x r 34396 3, x r (-62866) 3],
  .arr [x r 33814 3, x r 30012 3], .arr [x r 30158 3, x r 7079 2], .arr [x r 63386 3, x r 23276 3]])]]), ("t",
  n 260)], .obj [("i", .obj [("x", x r 667 3), ("y", n 1)]), ("o", .obj [("x", x r 333 3), ("y", n 0)]), ("s",
  .arr [.obj [("c", .bool true), ("i", .arr [.arr [x r 15564 3, x r (-7984) 3], .arr [x r 8871 3, x r (-22661)
  3], .arr [x r (-10322) 3, x r (-5968) 3], .arr [x r (-4435) 3, x r 19515 3]]), ("o", .arr [.arr [x r
  (-12097) 3, x r 6209 3], .arr [x r (-4435) 3, x r 1129 2], .arr [x r 10403 3, x r 5968 3], .arr [x r 4436 3,
  x r (-19516) 3]]), ("v", .arr [.arr [x r (-28882) 3, x r (-68501) 3], .arr [x r (-31705) 3, x r 20853 3],
  .arr [x r (-40495) 3, x r 66336 3], .arr [x r 6601 3, x r 21256 3]])]]), ("t", n 272)], .obj [("i", .obj
  [("x", x r 667 3), ("y", n 1)]), ("o", .obj [("x", x r 333 3), ("y", n 0)]), ("s", .arr [.obj [("c", .bool
  true), ("i", .arr [.arr [x r 15564 3, x r (-7984) 3], .arr [x r 8871 3, x r (-22661) 3], .arr [x r (-10322)
  3, x r (-5968) 3], .arr [x r (-4435) 3, x r 19515 3]]), ("o", .arr [.arr [x r (-12097) 3, x r 6209 3], .arr
  [x r (-4435) 3, x r 1129 2], .arr [x r 10403 3, x r 5968 3], .arr [x r 4436 3, x r (-19516) 3]]), ("v", .arr
  [.arr [x r (-8992) 3, x r (-66411) 3], .arr [x r (-11815) 3, x r 22943 3], .arr [x r (-20605) 3, x r 68427
  3], .arr [x r 26491 3, x r 23346 3]])]]), ("t", n 288)], .obj [("s", .arr [.obj [("c", .bool true), ("i",
  .arr [.arr [x r 15564 3, x r (-7984) 3], .arr [x r 8871 3, x r (-22661) 3], .arr [x r (-10322) 3, x r
  (-5968) 3], .arr [x r (-4435) 3, x r 19515 3]]), ("o", .arr [.arr [x r (-12097) 3, x r 6209 3], .arr [x r
  (-4435) 3, x r 1129 2], .arr [x r 10403 3, x r 5968 3], .arr [x r 4436 3, x r (-19516) 3]]), ("v", .arr
  [.arr [x r (-8992) 3, x r (-66411) 3], .arr [x r (-11815) 3, x r 22943 3], .arr [x r (-20605) 3, x r 68427
  3], .arr [x r 26491 3, x r 23346 3]])]]), ("t", n 302)]]

/-- A value in `examples/assets/google_fonts/Tiger.json`. -/
def tiger33 : Json F :=
  .arr [.obj [("i", .obj [("x", x r 667 3), ("y", n 1)]), ("o", .obj [("x", x r 167 3), ("y", x r 167 3)]),
  ("s", .arr [.obj [("c", .bool true), ("i", .arr [.arr [x r 84844 3, x r 43045 3], .arr [n 0, n 0], .arr [x r
  (-13548) 3, x r (-2419) 3], .arr [n 0, n 0], .arr [x r (-14919) 3, x r 12258 3], .arr [x r (-807) 3, x r
  45484 3], .arr [x r 4032 3, x r 7178 3], .arr [x r (-13547) 3, x r 9516 3], .arr [x r (-29677) 3, x r
  (-31935) 3], .arr [n 0, n 0], .arr [x r 39112 3, x r (-29516) 3], .arr [x r 10564 3, x r (-8548) 3]]), ("o",
  .arr [.arr [x r (-4839) 3, x r (-6935) 3], .arr [n 0, n 0], .arr [x r 13387 3, x r 2339 3], .arr [n 0, n 0],
  .arr [x r 22338 3, x r (-18307) 3], .arr [x r 806 3, x r (-45483) 3], .arr [x r (-3952) 3, x r (-7177) 3],
  .arr [x r 13549 3, x r (-9597) 3], .arr [x r 31129 3, x r 33467 3], .arr [n 0, n 0], .arr [x r (-14355) 3, x
  r 10806 3], .arr [x r (-18226) 3, x r 14758 3]]), ("v", .arr [.arr [x r (-101732) 3, x r 120855 3], .arr [x
  r (-125441) 3, x r 97307 3], .arr [x r (-104878) 3, x r 92146 3], .arr [x r (-73911) 3, x r 110453 3], .arr
  [x r (-31653) 3, x r 69808 3], .arr [x r 26573 3, x r (-23498) 3], .arr [x r 1815 3, x r (-113658) 3], .arr
  [x r (-606) 3, x r (-154303) 3], .arr [x r 60039 3, x r (-129544) 3], .arr [x r 125441 3, x r (-31401) 3],
  .arr [x r 68023 3, x r 49163 3], .arr [x r 27782 3, x r 73113 3]])]]), ("t", n 30)], .obj [("i", .obj [("x",
  x r 833 3), ("y", x r 833 3)]), ("o", .obj [("x", x r 333 3), ("y", n 0)]), ("s", .arr [.obj [("c", .bool
  true), ("i", .arr [.arr [x r 84844 3, x r 43045 3], .arr [n 0, n 0], .arr [x r (-13548) 3, x r (-2419) 3],
  .arr [n 0, n 0], .arr [x r (-14919) 3, x r 12258 3], .arr [x r (-807) 3, x r 45484 3], .arr [x r 4032 3, x r
  7178 3], .arr [x r (-13547) 3, x r 9516 3], .arr [x r (-29677) 3, x r (-31935) 3], .arr [n 0, n 0], .arr [x
  r 39112 3, x r (-29516) 3], .arr [x r 10564 3, x r (-8548) 3]]), ("o", .arr [.arr [x r (-4839) 3, x r
  (-6935) 3], .arr [n 0, n 0], .arr [x r 13387 3, x r 2339 3], .arr [n 0, n 0], .arr [x r 22338 3, x r
  (-18307) 3], .arr [x r 806 3, x r (-45483) 3], .arr [x r (-3952) 3, x r (-7177) 3], .arr [x r 13549 3, x r
  (-9597) 3], .arr [x r 31129 3, x r 33467 3], .arr [n 0, n 0], .arr [x r (-14355) 3, x r 10806 3], .arr [x r
  (-18226) 3, x r 14758 3]]), ("v", .arr [.arr [x r (-101732) 3, x r 120855 3], .arr [x r (-125441) 3, x r
  97307 3], .arr [x r (-104878) 3, x r 92146 3], .arr [x r (-72594) 3, x r 10054 2], .arr [x r (-31653) 3, x r
  69808 3], .arr [x r 26573 3, x r (-23498) 3], .arr [x r 1815 3, x r (-113658) 3], .arr [x r (-606) 3, x r
  (-154303) 3], .arr [x r 60039 3, x r (-129544) 3], .arr [x r 125441 3, x r (-31401) 3], .arr [x r 68023 3, x
  r 49163 3], .arr [x r 27782 3, x r 73113 3]])]]), ("t", n 38)], .obj [("i", .obj [("x", x r 667 3), ("y", n
  1)]), ("o", .obj [("x", x r 167 3), ("y", x r 167 3)]), ("s", .arr [.obj [("c", .bool true), ("i", .arr
  [.arr [x r 84844 3, x r 43045 3], .arr [n 0, n 0], .arr [x r (-13548) 3, x r (-2419) 3], .arr [n 0, n 0],
  .arr [x r (-14919) 3, x r 12258 3], .arr [x r (-807) 3, x r 45484 3], .arr [x r 4032 3, x r 7178 3], .arr [x
  r (-13547) 3, x r 9516 3], .arr [x r (-29677) 3, x r (-31935) 3], .arr [n 0, n 0], .arr [x r 39112 3, x r
  (-29516) 3], .arr [x r 10564 3, x r (-8548) 3]]), ("o", .arr [.arr [x r (-4839) 3, x r (-6935) 3], .arr [n
  0, n 0], .arr [x r 13387 3, x r 2339 3], .arr [n 0, n 0], .arr [x r 22338 3, x r (-18307) 3], .arr [x r 806
  3, x r (-45483) 3], .arr [x r (-3952) 3, x r (-7177) 3], .arr [x r 13549 3, x r (-9597) 3], .arr [x r 31129
  3, x r 33467 3], .arr [n 0, n 0], .arr [x r (-14355) 3, x r 10806 3], .arr [x r (-18226) 3, x r 14758 3]]),
  ("v", .arr [.arr [x r (-101732) 3, x r 120855 3], .arr [x r (-125441) 3, x r 97307 3], .arr [x r (-104878)
  3, x r 92146 3], .arr [x r (-73911) 3, x r 110453 3], .arr [x r (-31653) 3, x r 69808 3], .arr [x r 26573 3,
  x r (-23498) 3], .arr [x r 1815 3, x r (-113658) 3], .arr [x r (-606) 3, x r (-154303) 3], .arr [x r 60039
  3, x r (-129544) 3], .arr [x r 125441 3, x r (-31401) 3], .arr [x r 68023 3, x r 49163 3], .arr [x r 27782
  3, x r 73113 3]])]]), ("t", n 48)], .obj [("i", .obj [("x", x r 667 3), ("y", n 1)]), ("o", .obj [("x", x r
  333 3), ("y", n 0)]), ("s", .arr [.obj [("c", .bool true), ("i", .arr [.arr [x r 7658 2, x r 28014 3], .arr
  [n 0, n 0], .arr [x r (-12555) 3, x r (-1078) 3], .arr [n 0, n 0], .arr [x r (-14919) 3, x r 12258 3], .arr
  [x r (-807) 3, x r 45484 3], .arr [x r 537 2, x r 1013 2], .arr [x r (-1397) 2, x r 8827 3], .arr [x r
  (-31894) 3, x r (-28792) 3], .arr [n 0, n 0], .arr [x r 28109 3, x r (-36354) 3], .arr [x r 11229 3, x r
  (-7495) 3]]), ("o", .arr [.arr [x r (-6965) 3, x r (-4512) 3], .arr [n 0, n 0], .arr [x r 12458 3, x r 1029
  3], .arr [n 0, n 0], .arr [x r 22338 3, x r (-18307) 3], .arr [x r 806 3, x r (-45483) 3], .arr [x r (-6796)
  3, x r (-13041) 3], .arr [x r 13976 3, x r (-8908) 3], .arr [x r 23494 3, x r 23415 3], .arr [n 0, n 0],
  .arr [x r (-12947) 3, x r 17088 3], .arr [x r (-20207) 3, x r 13337 3]]), ("v", .arr [.arr [x r (-98738) 3,
  x r 121905 3], .arr [x r (-121384) 3, x r 101963 3], .arr [x r (-93515) 3, x r 9714 2], .arr [x r (-55967)
  3, x r 105314 3], .arr [x r (-8235) 3, x r 73547 3], .arr [x r 40169 3, x r (-22923) 3], .arr [x r 22001 3,
  x r (-107011) 3], .arr [x r 18303 3, x r (-152572) 3], .arr [x r 77596 3, x r (-124896) 3], .arr [x r 135127
  3, x r (-33759) 3], .arr [x r 95021 3, x r 44233 3], .arr [x r 42028 3, x r 88373 3]])]]), ("t", n 58)],
  .obj [("i", .obj [("x", x r 833 3), ("y", x r 833 3)]), ("o", .obj [("x", x r 333 3), ("y", n 0)]), ("s",
  .arr [.obj [("c", .bool true), ("i", .arr [.arr [x r 84844 3, x r 43045 3], .arr [n 0, n 0], .arr [x r
  (-13548) 3, x r (-2419) 3], .arr [n 0, n 0], .arr [x r (-14919) 3, x r 12258 3], .arr [x r (-807) 3, x r
  45484 3], .arr [x r 4032 3, x r 7178 3], .arr [x r (-13547) 3, x r 9516 3], .arr [x r (-29677) 3, x r
  (-31935) 3], .arr [n 0, n 0], .arr [x r 40528 3, x r (-46522) 3], .arr [x r 9473 3, x r (-9743) 3]]), ("o",
  .arr [.arr [x r (-4839) 3, x r (-6935) 3], .arr [n 0, n 0], .arr [x r 13387 3, x r 2339 3], .arr [n 0, n 0],
  .arr [x r 22338 3, x r (-18307) 3], .arr [x r 806 3, x r (-45483) 3], .arr [x r (-3952) 3, x r (-7177) 3],
  .arr [x r 13549 3, x r (-9597) 3], .arr [x r 31129 3, x r 33467 3], .arr [n 0, n 0], .arr [x r (-11802) 3, x
  r 13548 3], .arr [x r (-22592) 3, x r 23236 3]]), ("v", .arr [.arr [x r (-9498) 2, x r 123575 3], .arr [x r
  (-125441) 3, x r 97307 3], .arr [x r (-113252) 3, x r 95287 3], .arr [x r (-87363) 3, x r 104514 3], .arr [x
  r (-31706) 3, x r 60752 3], .arr [x r 6682 3, x r (-25589) 3], .arr [x r 1815 3, x r (-113658) 3], .arr [x r
  (-606) 3, x r (-154303) 3], .arr [x r 60039 3, x r (-129544) 3], .arr [x r 125441 3, x r (-31401) 3], .arr
  [x r 58705 3, x r 4215 2], .arr [x r 4911 3, x r 89814 3]])]]), ("t", n 70)], .obj [("i", .obj [("x", x r
  667 3), ("y", n 1)]), ("o", .obj [("x", x r 167 3), ("y", x r 167 3)]), ("s", .arr [.obj [("c", .bool true),
  ("i", .arr [.arr [x r 84844 3, x r 43045 3], .arr [n 0, n 0], .arr [x r (-13548) 3, x r (-2419) 3], .arr [n
  0, n 0], .arr [x r (-14919) 3, x r 12258 3], .arr [x r (-807) 3, x r 45484 3], .arr [x r 4032 3, x r 7178
  3], .arr [x r (-13547) 3, x r 9516 3], .arr [x r (-36491) 3, x r (-23853) 3], .arr [n 0, n 0], .arr [x r
  44332 3, x r (-44267) 3], .arr [x r 10564 3, x r (-8548) 3]]), ("o", .arr [.arr [x r (-4839) 3, x r (-6935)
  3], .arr [n 0, n 0], .arr [x r 13387 3, x r 2339 3], .arr [n 0, n 0], .arr [x r 22338 3, x r (-18307) 3],
  .arr [x r 806 3, x r (-45483) 3], .arr [x r (-3952) 3, x r (-7177) 3], .arr [x r 13549 3, x r (-9597) 3],
  .arr [x r 30076 3, x r 1966 2], .arr [n 0, n 0], .arr [x r (-23551) 3, x r 23517 3], .arr [x r (-18226) 3, x
  r 14758 3]]), ("v", .arr [.arr [x r (-101732) 3, x r 120855 3], .arr [x r (-125441) 3, x r 97307 3], .arr [x
  r (-104878) 3, x r 92146 3], .arr [x r (-73911) 3, x r 110453 3], .arr [x r (-31653) 3, x r 69808 3], .arr
  [x r 26573 3, x r (-23498) 3], .arr [x r 1815 3, x r (-113658) 3], .arr [x r (-606) 3, x r (-154303) 3],
  .arr [x r 59382 3, x r (-134601) 3], .arr [x r 12712 2, x r (-4131) 2], .arr [x r 67139 3, x r 62132 3],
  .arr [x r 34198 3, x r 96605 3]])]]), ("t", n 78)], .obj [("i", .obj [("x", x r 667 3), ("y", n 1)]), ("o",
  .obj [("x", x r 333 3), ("y", n 0)]), ("s", .arr [.obj [("c", .bool true), ("i", .arr [.arr [x r 84844 3, x
  r 43045 3], .arr [n 0, n 0], .arr [x r (-13548) 3, x r (-2419) 3], .arr [n 0, n 0], .arr [x r (-14919) 3, x
  r 12258 3], .arr [x r (-807) 3, x r 45484 3], .arr [x r 4032 3, x r 7178 3], .arr [x r (-13547) 3, x r 9516
  3], .arr [x r (-36037) 3, x r (-24534) 3], .arr [n 0, n 0], .arr [x r 28885 3, x r (-33374) 3], .arr [x r
  10564 3, x r (-8548) 3]]), ("o", .arr [.arr [x r (-4839) 3, x r (-6935) 3], .arr [n 0, n 0], .arr [x r 13387
  3, x r 2339 3], .arr [n 0, n 0], .arr [x r 22338 3, x r (-18307) 3], .arr [x r 806 3, x r (-45483) 3], .arr
  [x r (-3952) 3, x r (-7177) 3], .arr [x r 13549 3, x r (-9597) 3], .arr [x r 21383 3, x r 14557 3], .arr [n
  0, n 0], .arr [x r (-11759) 3, x r 13586 3], .arr [x r (-18226) 3, x r 14758 3]]), ("v", .arr [.arr [x r
  (-101732) 3, x r 120855 3], .arr [x r (-125441) 3, x r 97307 3], .arr [x r (-104878) 3, x r 92146 3], .arr
  [x r (-73911) 3, x r 110453 3], .arr [x r (-31653) 3, x r 69808 3], .arr [x r 19378 3, x r (-27137) 3], .arr
  [x r 1815 3, x r (-113658) 3], .arr [x r (-606) 3, x r (-154303) 3], .arr [x r 58786 3, x r (-134487) 3],
  .arr [x r 123315 3, x r (-33863) 3], .arr [x r 79033 3, x r 48644 3], .arr [x r 37752 3, x r 85386 3]])]]),
  ("t", n 92)], .obj [("i", .obj [("x", x r 667 3), ("y", n 1)]), ("o", .obj [("x", x r 333 3), ("y", n 0)]),
  ("s", .arr [.obj [("c", .bool true), ("i", .arr [.arr [x r 84844 3, x r 43045 3], .arr [n 0, n 0], .arr [x r
  (-13548) 3, x r (-2419) 3], .arr [n 0, n 0], .arr [x r (-14919) 3, x r 12258 3], .arr [x r (-807) 3, x r
  45484 3], .arr [x r 4032 3, x r 7178 3], .arr [x r (-13547) 3, x r 9516 3], .arr [x r (-36037) 3, x r
  (-24534) 3], .arr [n 0, n 0], .arr [x r 28885 3, x r (-33374) 3], .arr [x r 10564 3, x r (-8548) 3]]), ("o",
  .arr [.arr [x r (-4839) 3, x r (-6935) 3], .arr [n 0, n 0], .arr [x r 13387 3, x r 2339 3], .arr [n 0, n 0],
  .arr [x r 22338 3, x r (-18307) 3], .arr [x r 806 3, x r (-45483) 3], .arr [x r (-3952) 3, x r (-7177) 3],
  .arr [x r 13549 3, x r (-9597) 3], .arr [x r 21383 3, x r 14557 3], .arr [n 0, n 0], .arr [x r (-11759) 3, x
  r 13586 3], .arr [x r (-18226) 3, x r 14758 3]]), ("v", .arr [.arr [x r (-101732) 3, x r 120855 3], .arr [x
  r (-125441) 3, x r 97307 3], .arr [x r (-104878) 3, x r 92146 3], .arr [x r (-73911) 3, x r 110453 3], .arr
  [x r (-31653) 3, x r 69808 3], .arr [x r 19378 3, x r (-27137) 3], .arr [x r 1815 3, x r (-113658) 3], .arr
  [x r (-606) 3, x r (-154303) 3], .arr [x r 58786 3, x r (-134487) 3], .arr [x r 123315 3, x r (-33863) 3],
  .arr [x r 79034 3, x r 48644 3], .arr [x r 37752 3, x r 85386 3]])]]), ("t", n 246)], .obj [("i", .obj
  [("x", x r 667 3), ("y", n 1)]), ("o", .obj [("x", x r 7 1), ("y", n 0)]), ("s", .arr [.obj [("c", .bool
  true), ("i", .arr [.arr [x r 63848 3, x r 4855 3], .arr [n 0, n 0], .arr [x r (-11025) 3, x r 988 3], .arr
  [n 0, n 0], .arr [x r (-14919) 3, x r 12258 3], .arr [x r (-807) 3, x r 45484 3], .arr [x r 7432 3, x r
  14679 3], .arr [x r (-14621) 3, x r 7766 3], .arr [x r (-25511) 3, x r (-35352) 3], .arr [n 0, n 0], .arr [x
  r 26914 3, x r (-40946) 3], .arr [x r 12254 3, x r (-5873) 3]]), ("o", .arr [.arr [x r (-10242) 3, x r
  (-779) 3], .arr [n 0, n 0], .arr [x r 11025 3, x r (-988) 3], .arr [n 0, n 0], .arr [x r 22338 3, x r
  (-18307) 3], .arr [x r 806 3, x r (-45483) 3], .arr [x r (-11178) 3, x r (-22077) 3], .arr [x r 14633 3, x r
  (-7846) 3], .arr [x r 26746 3, x r 37064 3], .arr [n 0, n 0], .arr [x r (-14779) 3, x r 22484 3], .arr [x r
  (-2326) 2, x r 11148 3]]), ("v", .arr [.arr [x r (-94125) 3, x r 123523 3], .arr [x r (-115133) 3, x r
  109138 3], .arr [x r (-76008) 3, x r 104836 3], .arr [x r (-2832) 2, x r 97396 3], .arr [x r 27845 3, x r
  79309 3], .arr [x r 72202 3, x r (-1643) 2], .arr [x r 53103 3, x r (-96768) 3], .arr [x r 47436 3, x r
  (-149905) 3], .arr [x r 106577 3, x r (-110118) 3], .arr [x r 153327 3, x r (-33599) 3], .arr [x r 119654 3,
  x r 37437 3], .arr [x r 48616 3, x r 92975 3]])]]), ("t", n 260)], .obj [("i", .obj [("x", x r 667 3), ("y",
  n 1)]), ("o", .obj [("x", x r 333 3), ("y", n 0)]), ("s", .arr [.obj [("c", .bool true), ("i", .arr [.arr [x
  r 84844 3, x r 43045 3], .arr [n 0, n 0], .arr [x r (-13548) 3, x r (-2419) 3], .arr [n 0, n 0], .arr [x r
  (-14919) 3, x r 12258 3], .arr [x r (-807) 3, x r 45484 3], .arr [x r 4032 3, x r 7178 3], .arr [x r
  (-13547) 3, x r 9516 3], .arr [x r (-29677) 3, x r (-31935) 3], .arr [n 0, n 0], .arr [x r 40528 3, x r
  (-46522) 3], .arr [x r 9473 3, x r (-9743) 3]]), ("o", .arr [.arr [x r (-4839) 3, x r (-6935) 3], .arr [n 0,
  n 0], .arr [x r 13387 3, x r 2339 3], .arr [n 0, n 0], .arr [x r 22338 3, x r (-18307) 3], .arr [x r 806 3,
  x r (-45483) 3], .arr [x r (-3952) 3, x r (-7177) 3], .arr [x r 13549 3, x r (-9597) 3], .arr [x r 31129 3,
  x r 33467 3], .arr [n 0, n 0], .arr [x r (-11802) 3, x r 13548 3], .arr [x r (-22592) 3, x r 23236 3]]),
  ("v", .arr [.arr [x r (-9498) 2, x r 123575 3], .arr [x r (-125441) 3, x r 97307 3], .arr [x r (-113252) 3,
  x r 95287 3], .arr [x r (-87363) 3, x r 104514 3], .arr [x r (-31706) 3, x r 60752 3], .arr [x r 6682 3, x r
  (-25589) 3], .arr [x r 1814 3, x r (-113658) 3], .arr [x r (-606) 3, x r (-154303) 3], .arr [x r 60039 3, x
  r (-129544) 3], .arr [x r 125441 3, x r (-31401) 3], .arr [x r 58705 3, x r 4215 2], .arr [x r 4911 3, x r
  89814 3]])]]), ("t", n 272)], .obj [("i", .obj [("x", x r 667 3), ("y", n 1)]), ("o", .obj [("x", x r 333
  3), ("y", n 0)]), ("s", .arr [.obj [("c", .bool true), ("i", .arr [.arr [x r 84844 3, x r 43045 3], .arr [n
  0, n 0], .arr [x r (-13548) 3, x r (-2419) 3], .arr [n 0, n 0], .arr [x r (-14919) 3, x r 12258 3], .arr [x
  r (-807) 3, x r 45484 3], .arr [x r 4032 3, x r 7178 3], .arr [x r (-13547) 3, x r 9516 3], .arr [x r
  (-29677) 3, x r (-31935) 3], .arr [n 0, n 0], .arr [x r 39112 3, x r (-29516) 3], .arr [x r 10564 3, x r
  (-8548) 3]]), ("o", .arr [.arr [x r (-4839) 3, x r (-6935) 3], .arr [n 0, n 0], .arr [x r 13387 3, x r 2339
  3], .arr [n 0, n 0], .arr [x r 22338 3, x r (-18307) 3], .arr [x r 806 3, x r (-45483) 3], .arr [x r (-3952)
  3, x r (-7177) 3], .arr [x r 13549 3, x r (-9597) 3], .arr [x r 31129 3, x r 33467 3], .arr [n 0, n 0], .arr
  [x r (-14355) 3, x r 10806 3], .arr [x r (-18226) 3, x r 14758 3]]), ("v", .arr [.arr [x r (-977) 1, x r
  121714 3], .arr [x r (-125441) 3, x r 97307 3], .arr [x r (-97707) 3, x r 96898 3], .arr [x r (-70825) 3, x
  r 112846 3], .arr [x r (-31548) 3, x r 72806 3], .arr [x r 26573 3, x r (-23498) 3], .arr [x r 1815 3, x r
  (-113658) 3], .arr [x r (-606) 3, x r (-154303) 3], .arr [x r 60039 3, x r (-129544) 3], .arr [x r 125441 3,
  x r (-31401) 3], .arr [x r 68023 3, x r 49163 3], .arr [x r 27782 3, x r 73113 3]])]]), ("t", n 288)], .obj
  [("s", .arr [.obj [("c", .bool true), ("i", .arr [.arr [x r 84844 3, x r 43045 3], .arr [n 0, n 0], .arr [x
  r (-13548) 3, x r (-2419) 3], .arr [n 0, n 0], .arr [x r (-14919) 3, x r 12258 3], .arr [x r (-807) 3, x r
  45484 3], .arr [x r 4032 3, x r 7178 3], .arr [x r (-13547) 3, x r 9516 3], .arr [x r (-29677) 3, x r
  (-31935) 3], .arr [n 0, n 0], .arr [x r 39112 3, x r (-29516) 3], .arr [x r 10564 3, x r (-8548) 3]]), ("o",
  .arr [.arr [x r (-4839) 3, x r (-6935) 3], .arr [n 0, n 0], .arr [x r 13387 3, x r 2339 3], .arr [n 0, n 0],
  .arr [x r 22338 3, x r (-18307) 3], .arr [x r 806 3, x r (-45483) 3], .arr [x r (-3952) 3, x r (-7177) 3],
  .arr [x r 13549 3, x r (-9597) 3], .arr [x r 31129 3, x r 33467 3], .arr [n 0, n 0], .arr [x r (-14355) 3, x
  r 10806 3], .arr [x r (-18226) 3, x r 14758 3]]), ("v", .arr [.arr [x r (-101732) 3, x r 120855 3], .arr [x
  r (-125441) 3, x r 97307 3], .arr [x r (-104878) 3, x r 92146 3], .arr [x r (-73911) 3, x r 110453 3], .arr
  [x r (-31653) 3, x r 69808 3], .arr [x r 26573 3, x r (-23498) 3], .arr [x r 1815 3, x r (-113658) 3], .arr
  [x r (-606) 3, x r (-154303) 3], .arr [x r 60039 3, x r (-129544) 3], .arr [x r 125441 3, x r (-31401) 3],
  .arr [x r 68023 3, x r 49163 3], .arr [x r 27782 3, x r 73113 3]])]]), ("t", n 302)]]

/-- A value in `examples/assets/google_fonts/Tiger.json`. -/
def tiger34 : Json F :=
  .arr [.obj [("i", .obj [("x", x r 667 3), ("y", n 1)]), ("o", .obj [("x", x r 167 3), ("y", x r 167 3)]),
  ("s", .arr [.obj [("c", .bool true), ("i", .arr [.arr [x r 887 3, x r (-2742) 3], .arr [x r 16935 3, x r
  (-11612) 3], .arr [x r (-5484) 3, x r (-7985) 3], .arr [x r (-15565) 3, x r 7178 3], .arr [x r (-4838) 3, x
  r 125 1], .arr [x r 5968 3, x r 19516 3], .arr [x r 75 1, x r (-7339) 3], .arr [x r (-1129) 3, x r (-20403)
  3]]), ("o", .arr [.arr [x r (-121) 2, x r 3629 3], .arr [x r (-1758) 2, x r 11936 3], .arr [x r 6774 3, n
  10], .arr [x r 12499 3, x r (-5807) 3], .arr [x r 3952 3, x r (-10403) 3], .arr [x r (-5968) 3, x r (-19515)
  3], .arr [x r (-4274) 3, x r 4193 3], .arr [x r 1129 3, x r 21531 3]]), ("v", .arr [.arr [x r 18065 3, x r
  13911 3], .arr [x r (-14839) 3, x r 44152 3], .arr [x r (-44516) 3, x r 69556 3], .arr [x r 6532 3, x r
  62781 3], .arr [x r 46047 3, x r 26894 3], .arr [x r 42096 3, x r (-38105) 3], .arr [x r 19354 3, x r
  (-72217) 3], .arr [x r 20241 3, x r (-32701) 3]])]]), ("t", n 48)], .obj [("i", .obj [("x", x r 667 3),
  ("y", n 1)]), ("o", .obj [("x", x r 333 3), ("y", n 0)]), ("s", .arr [.obj [("c", .bool true), ("i", .arr
  [.arr [x r 842 3, x r (-277) 2], .arr [x r 15916 3, x r (-11739) 3], .arr [x r (-5154) 3, x r (-8072) 3],
  .arr [x r (-14628) 3, x r 7256 3], .arr [x r (-4547) 3, x r 12636 3], .arr [x r 5609 3, x r 19729 3], .arr
  [x r 75 1, x r (-7339) 3], .arr [x r (-1061) 3, x r (-20625) 3]]), ("o", .arr [.arr [x r (-1137) 3, x r 3669
  3], .arr [x r (-16522) 3, x r 12066 3], .arr [x r 6366 3, x r 10109 3], .arr [x r 11747 3, x r (-587) 2],
  .arr [x r 3714 3, x r (-10516) 3], .arr [x r (-5609) 3, x r (-19728) 3], .arr [x r (-4274) 3, x r 4193 3],
  .arr [x r 1061 3, x r 21766 3]]), ("v", .arr [.arr [x r 4074 2, x r 17036 3], .arr [x r 10546 3, x r 49998
  3], .arr [x r (-17345) 3, x r 75679 3], .arr [x r 30631 3, x r 6883 2], .arr [x r 66402 3, x r 29586 3],
  .arr [x r 64055 3, x r (-33155) 3], .arr [x r 40837 3, x r (-67681) 3], .arr [x r 42902 3, x r (-26019)
  3]])]]), ("t", n 58)], .obj [("i", .obj [("x", x r 833 3), ("y", x r 833 3)]), ("o", .obj [("x", x r 333 3),
  ("y", n 0)]), ("s", .arr [.obj [("c", .bool true), ("i", .arr [.arr [x r 887 3, x r (-2742) 3], .arr [x r
  16935 3, x r (-11612) 3], .arr [x r (-5484) 3, x r (-7985) 3], .arr [x r (-15565) 3, x r 7178 3], .arr [x r
  (-4838) 3, x r 125 1], .arr [x r 5968 3, x r 19516 3], .arr [x r 75 1, x r (-7339) 3], .arr [x r (-1129) 3,
  x r (-20403) 3]]), ("o", .arr [.arr [x r (-121) 2, x r 3629 3], .arr [x r (-1758) 2, x r 11936 3], .arr [x r
  6774 3, n 10], .arr [x r 12499 3, x r (-5807) 3], .arr [x r 3952 3, x r (-10403) 3], .arr [x r (-5968) 3, x
  r (-19515) 3], .arr [x r (-4274) 3, x r 4193 3], .arr [x r 1129 3, x r 21531 3]]), ("v", .arr [.arr [x r
  (-7793) 3, x r 11193 3], .arr [x r (-40696) 3, x r 41434 3], .arr [x r (-70373) 3, x r 66838 3], .arr [x r
  (-15347) 3, x r 60481 3], .arr [x r 24168 3, x r 24594 3], .arr [x r 20217 3, x r (-40405) 3], .arr [x r
  (-6503) 3, x r (-74935) 3], .arr [x r (-5616) 3, x r (-35419) 3]])]]), ("t", n 70)], .obj [("i", .obj [("x",
  x r 667 3), ("y", n 1)]), ("o", .obj [("x", x r 167 3), ("y", x r 167 3)]), ("s", .arr [.obj [("c", .bool
  true), ("i", .arr [.arr [x r 887 3, x r (-2742) 3], .arr [x r 16935 3, x r (-11612) 3], .arr [x r (-5484) 3,
  x r (-7985) 3], .arr [x r (-15565) 3, x r 7178 3], .arr [x r (-4838) 3, x r 125 1], .arr [x r 5968 3, x r
  19516 3], .arr [x r 75 1, x r (-7339) 3], .arr [x r (-1129) 3, x r (-20403) 3]]), ("o", .arr [.arr [x r
  (-121) 2, x r 3629 3], .arr [x r (-1758) 2, x r 11936 3], .arr [x r 6774 3, n 10], .arr [x r 12499 3, x r
  (-5807) 3], .arr [x r 3952 3, x r (-10403) 3], .arr [x r (-5968) 3, x r (-19515) 3], .arr [x r (-4274) 3, x
  r 4193 3], .arr [x r 1129 3, x r 21531 3]]), ("v", .arr [.arr [x r 18065 3, x r 13911 3], .arr [x r (-14839)
  3, x r 44152 3], .arr [x r (-44516) 3, x r 69556 3], .arr [x r 6532 3, x r 62781 3], .arr [x r 46047 3, x r
  26894 3], .arr [x r 42096 3, x r (-38105) 3], .arr [x r 19354 3, x r (-72217) 3], .arr [x r 20241 3, x r
  (-32701) 3]])]]), ("t", n 78)], .obj [("i", .obj [("x", x r 667 3), ("y", n 1)]), ("o", .obj [("x", x r 333
  3), ("y", n 0)]), ("s", .arr [.obj [("c", .bool true), ("i", .arr [.arr [x r 887 3, x r (-2742) 3], .arr [x
  r 16935 3, x r (-11612) 3], .arr [x r (-5484) 3, x r (-7985) 3], .arr [x r (-15565) 3, x r 7178 3], .arr [x
  r (-4838) 3, x r 125 1], .arr [x r 5968 3, x r 19516 3], .arr [x r 75 1, x r (-7339) 3], .arr [x r (-1129)
  3, x r (-20403) 3]]), ("o", .arr [.arr [x r (-121) 2, x r 3629 3], .arr [x r (-1758) 2, x r 11936 3], .arr
  [x r 6774 3, n 10], .arr [x r 12499 3, x r (-5807) 3], .arr [x r 3952 3, x r (-10403) 3], .arr [x r (-5968)
  3, x r (-19515) 3], .arr [x r (-4274) 3, x r 4193 3], .arr [x r 1129 3, x r 21531 3]]), ("v", .arr [.arr [x
  r 16862 3, x r 9967 3], .arr [x r (-14839) 3, x r 44152 3], .arr [x r (-44516) 3, x r 69556 3], .arr [x r
  6532 3, x r 62781 3], .arr [x r 43796 3, x r 22002 3], .arr [x r 42096 3, x r (-38105) 3], .arr [x r 19354
  3, x r (-72217) 3], .arr [x r 20241 3, x r (-32701) 3]])]]), ("t", n 92)], .obj [("i", .obj [("x", x r 667
  3), ("y", n 1)]), ("o", .obj [("x", x r 333 3), ("y", n 0)]), ("s", .arr [.obj [("c", .bool true), ("i",
  .arr [.arr [x r 887 3, x r (-2742) 3], .arr [x r 16935 3, x r (-11612) 3], .arr [x r (-5484) 3, x r (-7985)
  3], .arr [x r (-15565) 3, x r 7178 3], .arr [x r (-4838) 3, x r 125 1], .arr [x r 5968 3, x r 19516 3], .arr
  [x r 75 1, x r (-7339) 3], .arr [x r (-1129) 3, x r (-20403) 3]]), ("o", .arr [.arr [x r (-121) 2, x r 3629
  3], .arr [x r (-1758) 2, x r 11936 3], .arr [x r 6774 3, n 10], .arr [x r 12499 3, x r (-5807) 3], .arr [x r
  3952 3, x r (-10403) 3], .arr [x r (-5968) 3, x r (-19515) 3], .arr [x r (-4274) 3, x r 4193 3], .arr [x r
  1129 3, x r 21531 3]]), ("v", .arr [.arr [x r 16862 3, x r 9967 3], .arr [x r (-14839) 3, x r 44152 3], .arr
  [x r (-44516) 3, x r 69556 3], .arr [x r 6532 3, x r 62781 3], .arr [x r 43796 3, x r 22002 3], .arr [x r
  42096 3, x r (-38105) 3], .arr [x r 19354 3, x r (-72217) 3], .arr [x r 20241 3, x r (-32701) 3]])]]), ("t",
  n 246)], .obj [("i", .obj [("x", x r 667 3), ("y", n 1)]), ("o", .obj [("x", x r 7 1), ("y", n 0)]), ("s",
  .arr [.obj [("c", .bool true), ("i", .arr [.arr [x r 773 3, x r (-2812) 3], .arr [x r 14346 3, x r (-11934)
  3], .arr [x r (-4646) 3, x r (-8206) 3], .arr [x r (-13185) 3, x r 7377 3], .arr [x r (-4098) 3, x r 12846
  3], .arr [x r 5056 3, x r 20056 3], .arr [x r 75 1, x r (-7339) 3], .arr [x r (-956) 3, x r (-20968) 3]]),
  ("o", .arr [.arr [x r (-1025) 3, x r 373 2], .arr [x r (-14892) 3, x r 12266 3], .arr [x r 5738 3, x r 10277
  3], .arr [x r 10588 3, x r (-5968) 3], .arr [x r 3348 3, x r (-10691) 3], .arr [x r (-5056) 3, x r (-20055)
  3], .arr [x r (-4274) 3, x r 4193 3], .arr [x r 956 3, x r 22127 3]]), ("v", .arr [.arr [x r 77529 3, x r
  27927 3], .arr [x r 49656 3, x r 59005 3], .arr [x r 24516 3, x r 85113 3], .arr [x r 6776 2, x r 7815 2],
  .arr [x r 101234 3, x r 41269 3], .arr [x r 97887 3, x r (-2553) 2], .arr [x r 73937 3, x r (-60693) 3],
  .arr [x r 77816 3, x r (-15724) 3]])]]), ("t", n 260)], .obj [("i", .obj [("x", x r 667 3), ("y", n 1)]),
  ("o", .obj [("x", x r 333 3), ("y", n 0)]), ("s", .arr [.obj [("c", .bool true), ("i", .arr [.arr [x r 887
  3, x r (-2742) 3], .arr [x r 16935 3, x r (-11612) 3], .arr [x r (-5484) 3, x r (-7985) 3], .arr [x r
  (-15565) 3, x r 7178 3], .arr [x r (-4838) 3, x r 125 1], .arr [x r 5968 3, x r 19516 3], .arr [x r 75 1, x
  r (-7339) 3], .arr [x r (-1129) 3, x r (-20403) 3]]), ("o", .arr [.arr [x r (-121) 2, x r 3629 3], .arr [x r
  (-1758) 2, x r 11936 3], .arr [x r 6774 3, n 10], .arr [x r 12499 3, x r (-5807) 3], .arr [x r 3952 3, x r
  (-10403) 3], .arr [x r (-5968) 3, x r (-19515) 3], .arr [x r (-4274) 3, x r 4193 3], .arr [x r 1129 3, x r
  21531 3]]), ("v", .arr [.arr [x r (-7793) 3, x r 11193 3], .arr [x r (-40696) 3, x r 41434 3], .arr [x r
  (-70373) 3, x r 66838 3], .arr [x r (-15347) 3, x r 60481 3], .arr [x r 24168 3, x r 24594 3], .arr [x r
  20217 3, x r (-40405) 3], .arr [x r (-6503) 3, x r (-74935) 3], .arr [x r (-5616) 3, x r (-35419) 3]])]]),
  ("t", n 272)], .obj [("i", .obj [("x", x r 667 3), ("y", n 1)]), ("o", .obj [("x", x r 333 3), ("y", n 0)]),
  ("s", .arr [.obj [("c", .bool true), ("i", .arr [.arr [x r 887 3, x r (-2742) 3], .arr [x r 16935 3, x r
  (-11612) 3], .arr [x r (-5484) 3, x r (-7985) 3], .arr [x r (-15565) 3, x r 7178 3], .arr [x r (-4838) 3, x
  r 125 1], .arr [x r 5968 3, x r 19516 3], .arr [x r 75 1, x r (-7339) 3], .arr [x r (-1129) 3, x r (-20403)
  3]]), ("o", .arr [.arr [x r (-121) 2, x r 3629 3], .arr [x r (-1758) 2, x r 11936 3], .arr [x r 6774 3, n
  10], .arr [x r 12499 3, x r (-5807) 3], .arr [x r 3952 3, x r (-10403) 3], .arr [x r (-5968) 3, x r (-19515)
  3], .arr [x r (-4274) 3, x r 4193 3], .arr [x r 1129 3, x r 21531 3]]), ("v", .arr [.arr [x r 18065 3, x r
  13911 3], .arr [x r (-14839) 3, x r 44152 3], .arr [x r (-44516) 3, x r 69556 3], .arr [x r 6532 3, x r
  62781 3], .arr [x r 46047 3, x r 26894 3], .arr [x r 42096 3, x r (-38105) 3], .arr [x r 19354 3, x r
  (-72217) 3], .arr [x r 20241 3, x r (-32701) 3]])]]), ("t", n 288)], .obj [("s", .arr [.obj [("c", .bool
  true), ("i", .arr [.arr [x r 887 3, x r (-2742) 3], .arr [x r 16935 3, x r (-11612) 3], .arr [x r (-5484) 3,
  x r (-7985) 3], .arr [x r (-15565) 3, x r 7178 3], .arr [x r (-4838) 3, x r 125 1], .arr [x r 5968 3, x r
  19516 3], .arr [x r 75 1, x r (-7339) 3], .arr [x r (-1129) 3, x r (-20403) 3]]), ("o", .arr [.arr [x r
  (-121) 2, x r 3629 3], .arr [x r (-1758) 2, x r 11936 3], .arr [x r 6774 3, n 10], .arr [x r 12499 3, x r
  (-5807) 3], .arr [x r 3952 3, x r (-10403) 3], .arr [x r (-5968) 3, x r (-19515) 3], .arr [x r (-4274) 3, x
  r 4193 3], .arr [x r 1129 3, x r 21531 3]]), ("v", .arr [.arr [x r 18065 3, x r 13911 3], .arr [x r (-14839)
  3, x r 44152 3], .arr [x r (-44516) 3, x r 69556 3], .arr [x r 6532 3, x r 62781 3], .arr [x r 46047 3, x r
  26894 3], .arr [x r 42096 3, x r (-38105) 3], .arr [x r 19354 3, x r (-72217) 3], .arr [x r 20241 3, x r
  (-32701) 3]])]]), ("t", n 302)]]

/-- A value in `examples/assets/google_fonts/Tiger.json`. -/
def tiger35 : Json F :=
  .arr [.obj [("i", .obj [("x", x r 667 3), ("y", n 1)]), ("o", .obj [("x", x r 167 3), ("y", x r 167 3)]),
  ("s", .arr [.obj [("c", .bool true), ("i", .arr [.arr [x r 15968 3, x r 121 2], .arr [x r 968 3, x r (-1129)
  2], .arr [x r 1452 3, x r (-2339) 3], .arr [x r 7177 3, x r (-7904) 3], .arr [x r (-3468) 3, x r (-5645) 3],
  .arr [x r (-4435) 3, x r 27177 3]]), ("o", .arr [.arr [x r (-7177) 3, x r (-564) 3], .arr [x r (-1613) 3, x
  r 19113 3], .arr [x r (-2419) 3, x r 3951 3], .arr [x r (-3629) 3, x r 3951 3], .arr [x r 7581 3, x r 12339
  3], .arr [x r 4033 3, x r (-24839) 3]]), ("v", .arr [.arr [x r 1629 2, x r (-62298) 3], .arr [x r 7984 3, x
  r (-40444) 3], .arr [x r 4355 3, x r 524 3], .arr [x r (-18064) 3, x r 29798 3], .arr [x r (-30403) 3, x r
  50523 3], .arr [x r 29838 3, x r 4637 3]])]]), ("t", n 48)], .obj [("i", .obj [("x", x r 667 3), ("y", n
  1)]), ("o", .obj [("x", x r 333 3), ("y", n 0)]), ("s", .arr [.obj [("c", .bool true), ("i", .arr [.arr [x r
  15005 3, x r 1241 3], .arr [x r 905 3, x r (-11413) 3], .arr [x r 1359 3, x r (-2367) 3], .arr [x r 6745 3,
  x r (-799) 2], .arr [x r (-3259) 3, x r (-5707) 3], .arr [x r (-4161) 3, x r 27474 3]]), ("o", .arr [.arr [x
  r (-6745) 3, x r (-57) 2], .arr [x r (-1516) 3, x r 19321 3], .arr [x r (-2273) 3, x r 3994 3], .arr [x r
  (-3411) 3, x r 3994 3], .arr [x r 7125 3, x r 12473 3], .arr [x r 379 2, x r (-2511) 2]]), ("v", .arr [.arr
  [x r 40532 3, x r (-57578) 3], .arr [x r 32726 3, x r (-35486) 3], .arr [x r 30283 3, x r 575 2], .arr [x r
  9213 3, x r 35343 3], .arr [x r (-2384) 3, x r 56294 3], .arr [x r 54232 3, x r 9908 3]])]]), ("t", n 58)],
  .obj [("i", .obj [("x", x r 833 3), ("y", x r 833 3)]), ("o", .obj [("x", x r 333 3), ("y", n 0)]), ("s",
  .arr [.obj [("c", .bool true), ("i", .arr [.arr [x r 15968 3, x r 121 2], .arr [x r 968 3, x r (-1129) 2],
  .arr [x r 1452 3, x r (-2339) 3], .arr [x r 7177 3, x r (-7904) 3], .arr [x r (-3468) 3, x r (-5645) 3],
  .arr [x r (-4435) 3, x r 27177 3]]), ("o", .arr [.arr [x r (-7177) 3, x r (-564) 3], .arr [x r (-1613) 3, x
  r 19113 3], .arr [x r (-2419) 3, x r 3951 3], .arr [x r (-3629) 3, x r 3951 3], .arr [x r 7581 3, x r 12339
  3], .arr [x r 4033 3, x r (-24839) 3]]), ("v", .arr [.arr [x r (-9568) 3, x r (-65016) 3], .arr [x r
  (-17874) 3, x r (-43162) 3], .arr [x r (-21503) 3, x r (-2194) 3], .arr [x r (-43922) 3, x r 2708 2], .arr
  [x r (-56261) 3, x r 47805 3], .arr [x r 398 2, x r 1919 3]])]]), ("t", n 70)], .obj [("i", .obj [("x", x r
  667 3), ("y", n 1)]), ("o", .obj [("x", x r 167 3), ("y", x r 167 3)]), ("s", .arr [.obj [("c", .bool true),
  ("i", .arr [.arr [x r 15968 3, x r 121 2], .arr [x r 968 3, x r (-1129) 2], .arr [x r 1452 3, x r (-2339)
  3], .arr [x r 7177 3, x r (-7904) 3], .arr [x r (-3468) 3, x r (-5645) 3], .arr [x r (-4435) 3, x r 27177
  3]]), ("o", .arr [.arr [x r (-7177) 3, x r (-564) 3], .arr [x r (-1613) 3, x r 19113 3], .arr [x r (-2419)
  3, x r 3951 3], .arr [x r (-3629) 3, x r 3951 3], .arr [x r 7581 3, x r 12339 3], .arr [x r 4033 3, x r
  (-24839) 3]]), ("v", .arr [.arr [x r 1629 2, x r (-62298) 3], .arr [x r 7984 3, x r (-40444) 3], .arr [x r
  4355 3, x r 524 3], .arr [x r (-18064) 3, x r 29798 3], .arr [x r (-30403) 3, x r 50523 3], .arr [x r 29838
  3, x r 4637 3]])]]), ("t", n 78)], .obj [("i", .obj [("x", x r 667 3), ("y", n 1)]), ("o", .obj [("x", x r
  333 3), ("y", n 0)]), ("s", .arr [.obj [("c", .bool true), ("i", .arr [.arr [x r 15968 3, x r 121 2], .arr
  [x r 968 3, x r (-1129) 2], .arr [x r 1452 3, x r (-2339) 3], .arr [x r 7177 3, x r (-7904) 3], .arr [x r
  (-3468) 3, x r (-5645) 3], .arr [x r (-4435) 3, x r 27177 3]]), ("o", .arr [.arr [x r (-7177) 3, x r (-564)
  3], .arr [x r (-1613) 3, x r 19113 3], .arr [x r (-2419) 3, x r 3951 3], .arr [x r (-3629) 3, x r 3951 3],
  .arr [x r 7581 3, x r 12339 3], .arr [x r 4033 3, x r (-24839) 3]]), ("v", .arr [.arr [x r 1629 2, x r
  (-62298) 3], .arr [x r 7984 3, x r (-40444) 3], .arr [x r 4355 3, x r 524 3], .arr [x r (-18064) 3, x r
  29798 3], .arr [x r (-30403) 3, x r 50523 3], .arr [x r 29838 3, x r 4637 3]])]]), ("t", n 246)], .obj
  [("i", .obj [("x", x r 667 3), ("y", n 1)]), ("o", .obj [("x", x r 7 1), ("y", n 0)]), ("s", .arr [.obj
  [("c", .bool true), ("i", .arr [.arr [x r 13522 3, x r 1289 3], .arr [x r 807 3, x r (-11604) 3], .arr [x r
  1217 3, x r (-2411) 3], .arr [x r 608 2, x r (-8123) 3], .arr [x r (-2938) 3, x r (-5801) 3], .arr [x r
  (-3738) 3, x r 27932 3]]), ("o", .arr [.arr [x r (-608) 2, x r (-58) 2], .arr [x r (-1366) 3, x r 19642 3],
  .arr [x r (-2049) 3, x r 406 2], .arr [x r (-3074) 3, x r 406 2], .arr [x r 6422 3, x r 12681 3], .arr [x r
  3416 3, x r (-25527) 3]]), ("v", .arr [.arr [x r 77882 3, x r (-50307) 3], .arr [x r 70846 3, x r (-27848)
  3], .arr [x r 70231 3, x r 13803 3], .arr [x r 51239 3, x r 43888 3], .arr [x r 40787 3, x r 65187 3], .arr
  [x r 91818 3, x r 1803 2]])]]), ("t", n 260)], .obj [("i", .obj [("x", x r 667 3), ("y", n 1)]), ("o", .obj
  [("x", x r 333 3), ("y", n 0)]), ("s", .arr [.obj [("c", .bool true), ("i", .arr [.arr [x r 15968 3, x r 121
  2], .arr [x r 968 3, x r (-1129) 2], .arr [x r 1452 3, x r (-2339) 3], .arr [x r 7177 3, x r (-7904) 3],
  .arr [x r (-3468) 3, x r (-5645) 3], .arr [x r (-4435) 3, x r 27177 3]]), ("o", .arr [.arr [x r (-7177) 3, x
  r (-564) 3], .arr [x r (-1613) 3, x r 19113 3], .arr [x r (-2419) 3, x r 3951 3], .arr [x r (-3629) 3, x r
  3951 3], .arr [x r 7581 3, x r 12339 3], .arr [x r 4033 3, x r (-24839) 3]]), ("v", .arr [.arr [x r (-9568)
  3, x r (-65016) 3], .arr [x r (-17874) 3, x r (-43162) 3], .arr [x r (-21503) 3, x r (-2194) 3], .arr [x r
  (-43922) 3, x r 2708 2], .arr [x r (-56261) 3, x r 47805 3], .arr [x r 398 2, x r 1919 3]])]]), ("t", n
  272)], .obj [("i", .obj [("x", x r 667 3), ("y", n 1)]), ("o", .obj [("x", x r 333 3), ("y", n 0)]), ("s",
  .arr [.obj [("c", .bool true), ("i", .arr [.arr [x r 15968 3, x r 121 2], .arr [x r 968 3, x r (-1129) 2],
  .arr [x r 1452 3, x r (-2339) 3], .arr [x r 7177 3, x r (-7904) 3], .arr [x r (-3468) 3, x r (-5645) 3],
  .arr [x r (-4435) 3, x r 27177 3]]), ("o", .arr [.arr [x r (-7177) 3, x r (-564) 3], .arr [x r (-1613) 3, x
  r 19113 3], .arr [x r (-2419) 3, x r 3951 3], .arr [x r (-3629) 3, x r 3951 3], .arr [x r 7581 3, x r 12339
  3], .arr [x r 4033 3, x r (-24839) 3]]), ("v", .arr [.arr [x r 1629 2, x r (-62298) 3], .arr [x r 7984 3, x
  r (-40444) 3], .arr [x r 4355 3, x r 524 3], .arr [x r (-18064) 3, x r 29798 3], .arr [x r (-30403) 3, x r
  50523 3], .arr [x r 29838 3, x r 4637 3]])]]), ("t", n 288)], .obj [("s", .arr [.obj [("c", .bool true),
  ("i", .arr [.arr [x r 15968 3, x r 121 2], .arr [x r 968 3, x r (-1129) 2], .arr [x r 1452 3, x r (-2339)
  3], .arr [x r 7177 3, x r (-7904) 3], .arr [x r (-3468) 3, x r (-5645) 3], .arr [x r (-4435) 3, x r 27177
  3]]), ("o", .arr [.arr [x r (-7177) 3, x r (-564) 3], .arr [x r (-1613) 3, x r 19113 3], .arr [x r (-2419)
  3, x r 3951 3], .arr [x r (-3629) 3, x r 3951 3], .arr [x r 7581 3, x r 12339 3], .arr [x r 4033 3, x r
  (-24839) 3]]), ("v", .arr [.arr [x r 1629 2, x r (-62298) 3], .arr [x r 7984 3, x r (-40444) 3], .arr [x r
  4355 3, x r 524 3], .arr [x r (-18064) 3, x r 29798 3], .arr [x r (-30403) 3, x r 50523 3], .arr [x r 29838
  3, x r 4637 3]])]]), ("t", n 302)]]

/-- A value in `examples/assets/google_fonts/Tiger.json`. -/
def tiger36 : Json F :=
  .obj [("c", .bool true), ("i", .arr [.arr [x r (-11935) 3, x r 1613 3], .arr [x r 242 2, x r 1121 2], .arr
  [n 0, n 0], .arr [x r (-6613) 3, x r (-2822) 3], .arr [x r (-2581) 3, x r (-2984) 3], .arr [x r (-13951) 3,
  x r (-1613) 3], .arr [x r 806 3, x r 13549 3], .arr [x r (-2016) 3, x r 3629 3], .arr [x r (-887) 3, x r
  2581 3], .arr [x r (-9194) 3, x r 10403 3], .arr [x r (-17419) 3, x r (-241) 3], .arr [x r 2741 3, x r 2097
  3], .arr [x r 2758 2, x r (-2016) 2], .arr [n 0, n 0], .arr [x r 28145 3, x r (-2097) 3], .arr [x r 1008 2,
  x r (-4919) 3], .arr [n 0, n 0], .arr [m (-5), x r 1452 3], .arr [x r (-6371) 3, x r (-15162) 3]]), ("o",
  .arr [.arr [x r 15564 3, x r (-2097) 3], .arr [x r (-2419) 3, x r (-11209) 3], .arr [n 0, n 0], .arr [x r
  2661 3, x r 1129 3], .arr [x r 14355 3, x r 16371 3], .arr [x r 13952 3, x r 1613 3], .arr [x r (-807) 3, x
  r (-13548) 3], .arr [x r 2017 3, x r (-3629) 3], .arr [x r 2581 3, x r (-7661) 3], .arr [x r 9193 3, x r
  (-10403) 3], .arr [x r 12177 3, x r 162 3], .arr [x r (-8306) 3, x r (-6452) 3], .arr [x r (-23226) 3, x r
  17016 3], .arr [n 0, n 0], .arr [x r (-20886) 3, x r 1532 3], .arr [x r (-19919) 3, x r 9677 3], .arr [n 0,
  n 0], .arr [x r 12258 3, x r (-3629) 3], .arr [x r 379 2, x r 9274 3]]), ("v", .arr [.arr [x r (-49798) 3, x
  r 63103 3], .arr [x r (-39637) 3, x r 33587 3], .arr [x r (-46007) 3, x r 14878 3], .arr [x r (-26169) 3, x
  r 15443 3], .arr [x r (-18508) 3, x r 22055 3], .arr [x r 4314 3, x r 68829 3], .arr [x r 17783 3, x r 35201
  3], .arr [x r 16975 3, x r 1125 2], .arr [x r 3012 2, x r 762 2], .arr [x r 47701 3, x r (-30686) 3], .arr
  [x r 88992 3, x r (-5125) 2], .arr [x r 112297 3, x r (-49476) 3], .arr [x r 35685 3, x r (-50283) 3], .arr
  [x r 8589 3, x r (-10041) 3], .arr [x r (-36089) 3, x r (-9154) 3], .arr [x r (-85604) 3, x r 3991 3], .arr
  [x r (-115038) 3, x r 25523 3], .arr [x r (-94394) 3, x r 17136 3], .arr [x r (-68346) 3, x r 34475 3]])]

/-- A value in `examples/assets/google_fonts/Tiger.json`. -/
def tiger37 : Json F :=
  .obj [("c", .bool true), ("i", .arr [.arr [x r (-10559) 3, x r 436 2], .arr [x r 4926 3, x r 9698 3], .arr
  [n 0, n 0], .arr [x r (-6834) 3, x r (-1618) 3], .arr [x r (-2952) 3, x r (-2289) 3], .arr [x r (-10852) 3,
  x r 1169 3], .arr [x r 2999 3, x r 10022 3], .arr [x r (-1393) 3, x r 3022 3], .arr [x r (-1838) 3, x r 3709
  3], .arr [x r (-9673) 3, x r 9924 3], .arr [x r (-17355) 3, x r (-1086) 3], .arr [x r 2631 3, x r 2224 3],
  .arr [x r 28472 3, x r (-18768) 3], .arr [n 0, n 0], .arr [x r 28276 3, x r (-1096) 3], .arr [x r 18766 3, x
  r (-8826) 3], .arr [n 0, n 0], .arr [m (-5), x r 1452 3], .arr [x r (-7976) 3, x r (-14102) 3]]), ("o", .arr
  [.arr [x r 1377 2, x r (-5681) 3], .arr [x r (-4925) 3, x r (-9697) 3], .arr [n 0, n 0], .arr [x r 2749 3, x
  r 647 3], .arr [x r 16381 3, x r 12547 3], .arr [x r 10416 3, x r (-777) 3], .arr [x r (-3391) 3, x r
  (-10303) 3], .arr [x r 1394 3, x r (-3022) 3], .arr [x r 3215 3, x r (-7366) 3], .arr [x r 9672 3, x r
  (-9923) 3], .arr [x r 12132 3, x r 755 3], .arr [x r (-7966) 3, x r (-6837) 3], .arr [x r (-23985) 3, x r
  15833 3], .arr [n 0, n 0], .arr [x r (-20907) 3, x r 8 1], .arr [x r (-19992) 3, x r 9523 3], .arr [n 0, n
  0], .arr [x r 27212 3, x r (-6008) 3], .arr [x r 641 2, x r 10531 3]]), ("v", .arr [.arr [x r (-12205) 3, x
  r 64824 3], .arr [x r (-11202) 3, x r 33936 3], .arr [x r (-21562) 3, x r 18313 3], .arr [x r (-6378) 3, x r
  17549 3], .arr [x r 3816 3, x r 22386 3], .arr [x r 37174 3, x r 60257 3], .arr [x r 44037 3, x r 34742 3],
  .arr [x r 39229 3, x r 16531 3], .arr [x r 4968 2, x r 8713 3], .arr [x r 68788 3, x r (-24443) 3], .arr [x
  r 110955 3, x r (-42933) 3], .arr [x r 134104 3, x r (-40028) 3], .arr [x r 57763 3, x r (-44566) 3], .arr
  [x r 28787 3, x r (-5766) 3], .arr [x r (-18569) 3, x r (-6371) 3], .arr [x r (-80933) 3, x r 6975 3], .arr
  [x r (-111159) 3, x r 29212 3], .arr [x r (-90514) 3, x r 20825 3], .arr [x r (-36091) 3, x r 40755 3]])]

/-- A value in `examples/assets/google_fonts/Tiger.json`. -/
def tiger38 : Json F :=
  .obj [("c", .bool true), ("i", .arr [.arr [x r (-12027) 3, x r (-634) 3], .arr [x r 297 3, x r 11464 3],
  .arr [n 0, n 0], .arr [x r (-6613) 3, x r (-2822) 3], .arr [x r (-2581) 3, x r (-2984) 3], .arr [x r
  (-13951) 3, x r (-1613) 3], .arr [x r 806 3, x r 13549 3], .arr [x r (-2016) 3, x r 3629 3], .arr [x r
  (-885) 3, x r 2582 3], .arr [x r (-9248) 3, x r 10355 3], .arr [x r (-17418) 3, x r (-323) 3], .arr [x r 273
  2, x r 2111 3], .arr [x r 27664 3, x r (-20045) 3], .arr [n 0, n 0], .arr [x r 28145 3, x r (-2097) 3], .arr
  [x r 1008 2, x r (-4919) 3], .arr [n 0, n 0], .arr [m (-5), x r 1452 3], .arr [x r (-3447) 3, x r (-16081)
  3]]), ("o", .arr [.arr [x r 15683 3, x r 827 3], .arr [x r (-297) 3, x r (-11463) 3], .arr [n 0, n 0], .arr
  [x r 2661 3, x r 1129 3], .arr [x r 375 2, x r 14156 3], .arr [x r 13952 3, x r 1613 3], .arr [x r (-807) 3,
  x r (-13548) 3], .arr [x r 2017 3, x r (-3629) 3], .arr [x r 2621 3, x r (-7647) 3], .arr [x r 9248 3, x r
  (-10355) 3], .arr [x r 12176 3, x r 226 3], .arr [x r (-8272) 3, x r (-6495) 3], .arr [x r (-23315) 3, x r
  16894 3], .arr [n 0, n 0], .arr [x r (-20886) 3, x r 1532 3], .arr [x r (-19919) 3, x r 9677 3], .arr [n 0,
  n 0], .arr [x r 12258 3, x r (-3629) 3], .arr [x r 2004 3, x r 9816 3]]), ("v", .arr [.arr [x r (-73438) 3,
  x r 59955 3], .arr [x r (-48399) 3, x r 35709 3], .arr [x r (-46007) 3, x r 14878 3], .arr [x r (-26169) 3,
  x r 15443 3], .arr [x r (-20497) 3, x r 21846 3], .arr [x r (-15576) 3, x r 66739 3], .arr [x r 7837 3, x r
  34155 3], .arr [x r 16975 3, x r 1125 2], .arr [x r 25049 3, x r 6846 3], .arr [x r 42831 3, x r (-31367)
  3], .arr [x r 84228 3, x r (-51715) 3], .arr [x r 107524 3, x r (-49818) 3], .arr [x r 30918 3, x r (-51027)
  3], .arr [x r 361 2, x r (-10928) 3], .arr [x r (-36089) 3, x r (-9154) 3], .arr [x r (-85604) 3, x r 3991
  3], .arr [x r (-115038) 3, x r 25524 3], .arr [x r (-94394) 3, x r 17136 3], .arr [x r (-76774) 3, x r 31255
  3]])]

/-- A value in `examples/assets/google_fonts/Tiger.json`. -/
def tiger39 : Json F :=
  .obj [("c", .bool true), ("i", .arr [.arr [x r (-11935) 3, x r 1613 3], .arr [x r 242 2, x r 1121 2], .arr
  [n 0, n 0], .arr [x r (-6613) 3, x r (-2822) 3], .arr [x r (-2581) 3, x r (-2984) 3], .arr [x r (-13951) 3,
  x r (-1613) 3], .arr [x r 806 3, x r 13549 3], .arr [x r (-2016) 3, x r 3629 3], .arr [x r (-887) 3, x r
  2581 3], .arr [x r (-9194) 3, x r 10403 3], .arr [x r (-17419) 3, x r (-241) 3], .arr [x r 2741 3, x r 2097
  3], .arr [x r 2758 2, x r (-2016) 2], .arr [n 0, n 0], .arr [x r 28145 3, x r (-2097) 3], .arr [x r 1008 2,
  x r (-4919) 3], .arr [n 0, n 0], .arr [m (-5), x r 1452 3], .arr [x r (-6371) 3, x r (-15162) 3]]), ("o",
  .arr [.arr [x r 15564 3, x r (-2097) 3], .arr [x r (-2419) 3, x r (-11209) 3], .arr [n 0, n 0], .arr [x r
  2661 3, x r 1129 3], .arr [x r 14355 3, x r 16371 3], .arr [x r 13952 3, x r 1613 3], .arr [x r (-807) 3, x
  r (-13548) 3], .arr [x r 2017 3, x r (-3629) 3], .arr [x r 2581 3, x r (-7661) 3], .arr [x r 9193 3, x r
  (-10403) 3], .arr [x r 12177 3, x r 162 3], .arr [x r (-8306) 3, x r (-6452) 3], .arr [x r (-23226) 3, x r
  17016 3], .arr [n 0, n 0], .arr [x r (-20886) 3, x r 1532 3], .arr [x r (-19919) 3, x r 9677 3], .arr [n 0,
  n 0], .arr [x r 12258 3, x r (-3629) 3], .arr [x r 379 2, x r 9274 3]]), ("v", .arr [.arr [x r (-49798) 3, x
  r 63103 3], .arr [x r (-39637) 3, x r 33587 3], .arr [x r (-46007) 3, x r 14878 3], .arr [x r (-26169) 3, x
  r 15443 3], .arr [x r (-18508) 3, x r 22055 3], .arr [x r 4314 3, x r 68829 3], .arr [x r 17783 3, x r 35201
  3], .arr [x r 16975 3, x r 1125 2], .arr [x r 3012 2, x r 762 2], .arr [x r 47701 3, x r (-30686) 3], .arr
  [x r 88992 3, x r (-5125) 2], .arr [x r 112297 3, x r (-49476) 3], .arr [x r 35685 3, x r (-50283) 3], .arr
  [x r 8589 3, x r (-10041) 3], .arr [x r (-36089) 3, x r (-9154) 3], .arr [x r (-85604) 3, x r 3991 3], .arr
  [x r (-115038) 3, x r 25523 3], .arr [x r (-94394) 3, x r 17136 3], .arr [x r (-68346) 3, x r 34475 3]])]

/-- A value in `examples/assets/google_fonts/Tiger.json`. -/
def tiger40 : Json F :=
  .obj [("c", .bool true), ("i", .arr [.arr [x r (-11935) 3, x r 1613 3], .arr [x r 242 2, x r 1121 2], .arr
  [n 0, n 0], .arr [x r (-6613) 3, x r (-2822) 3], .arr [x r (-2581) 3, x r (-2984) 3], .arr [x r (-13951) 3,
  x r (-1613) 3], .arr [x r 806 3, x r 13549 3], .arr [x r (-2016) 3, x r 3629 3], .arr [x r (-887) 3, x r
  2581 3], .arr [x r (-9194) 3, x r 10403 3], .arr [x r (-17419) 3, x r (-241) 3], .arr [x r 2741 3, x r 2097
  3], .arr [x r 2758 2, x r (-2016) 2], .arr [n 0, n 0], .arr [x r 28145 3, x r (-2097) 3], .arr [x r 1008 2,
  x r (-4919) 3], .arr [n 0, n 0], .arr [m (-5), x r 1452 3], .arr [x r (-6371) 3, x r (-15162) 3]]), ("o",
  .arr [.arr [x r 15564 3, x r (-2097) 3], .arr [x r (-2419) 3, x r (-11209) 3], .arr [n 0, n 0], .arr [x r
  2661 3, x r 1129 3], .arr [x r 14355 3, x r 16371 3], .arr [x r 13952 3, x r 1613 3], .arr [x r (-807) 3, x
  r (-13548) 3], .arr [x r 2017 3, x r (-3629) 3], .arr [x r 2581 3, x r (-7661) 3], .arr [x r 9193 3, x r
  (-10403) 3], .arr [x r 12177 3, x r 162 3], .arr [x r (-8306) 3, x r (-6452) 3], .arr [x r (-23226) 3, x r
  17016 3], .arr [n 0, n 0], .arr [x r (-20886) 3, x r 1532 3], .arr [x r (-19919) 3, x r 9677 3], .arr [n 0,
  n 0], .arr [x r 12258 3, x r (-3629) 3], .arr [x r 379 2, x r 9274 3]]), ("v", .arr [.arr [x r (-49798) 3, x
  r 63103 3], .arr [x r (-39637) 3, x r 33587 3], .arr [x r (-46007) 3, x r 14878 3], .arr [x r (-26169) 3, x
  r 15443 3], .arr [x r (-18508) 3, x r 22055 3], .arr [x r 4314 3, x r 68829 3], .arr [x r 17783 3, x r 35201
  3], .arr [x r 16975 3, x r 1125 2], .arr [x r 3012 2, x r 762 2], .arr [x r 47701 3, x r (-30686) 3], .arr
  [x r 88992 3, x r (-5125) 2], .arr [x r 112297 3, x r (-49476) 3], .arr [x r 35685 3, x r (-50283) 3], .arr
  [x r 8589 3, x r (-10041) 3], .arr [x r (-36089) 3, x r (-9154) 3], .arr [x r (-85604) 3, x r 3991 3], .arr
  [x r (-115038) 3, x r 25523 3], .arr [x r (-94394) 3, x r 17136 3], .arr [x r (-68346) 3, x r 34475 3]])]

/-- A value in `examples/assets/google_fonts/Tiger.json`. -/
def tiger41 : Json F :=
  .obj [("c", .bool true), ("i", .arr [.arr [x r (-8439) 3, x r 8592 3], .arr [x r 8788 3, x r 7369 3], .arr
  [n 0, n 0], .arr [x r (-7175) 3, x r 237 3], .arr [x r (-3522) 3, x r (-1217) 3], .arr [x r (-6078) 3, x r
  5455 3], .arr [x r 6379 3, x r 4588 3], .arr [x r (-434) 3, x r 2086 3], .arr [x r (-3304) 3, x r 5447 3],
  .arr [x r (-10411) 3, x r 9185 3], .arr [x r (-17256) 3, x r (-2387) 3], .arr [x r 246 2, x r 242 2], .arr
  [x r 29846 3, x r (-16622) 3], .arr [n 0, n 0], .arr [x r 28477 3, x r 447 3], .arr [x r 32149 3, x r
  (-14846) 3], .arr [n 0, n 0], .arr [m (-5), x r 1452 3], .arr [x r (-10448) 3, x r (-12468) 3]]), ("o", .arr
  [.arr [x r 11005 3, x r (-11204) 3], .arr [x r (-8787) 3, x r (-7368) 3], .arr [n 0, n 0], .arr [x r 2885 3,
  x r (-95) 3], .arr [x r 19503 3, x r 6656 3], .arr [x r 4969 3, x r (-446) 2], .arr [x r (-7372) 3, x r
  (-5302) 3], .arr [x r 434 3, x r (-2086) 3], .arr [x r 4192 3, x r (-6912) 3], .arr [x r 1041 2, x r (-9185)
  3], .arr [x r 12063 3, x r 1668 3], .arr [x r (-7443) 3, x r (-7431) 3], .arr [x r (-25154) 3, x r 14009 3],
  .arr [n 0, n 0], .arr [x r (-2094) 2, x r (-329) 3], .arr [x r (-20105) 3, x r 9285 3], .arr [n 0, n 0],
  .arr [x r 50253 3, x r (-9673) 3], .arr [x r 10448 3, x r 12468 3]]), ("v", .arr [.arr [x r 45715 3, x r
  67475 3], .arr [x r 32607 3, x r 34472 3], .arr [x r 161 1, x r 23605 3], .arr [x r 24115 3, x r 20795 3],
  .arr [x r 38211 3, x r 22896 3], .arr [x r 87802 3, x r 47049 3], .arr [x r 84487 3, x r 34035 3], .arr [x r
  73515 3, x r 24667 3], .arr [x r 79816 3, x r 10395 3], .arr [x r 101276 3, x r (-14824) 3], .arr [x r
  144794 3, x r (-30119) 3], .arr [x r 167701 3, x r (-25472) 3], .arr [x r 91779 3, x r (-35758) 3], .arr [x
  r 59908 3, x r 819 3], .arr [x r 8423 3, x r (-2083) 3], .arr [x r (-73738) 3, x r 11572 3], .arr [x r
  (-105182) 3, x r 34896 3], .arr [x r (-84537) 3, x r 26509 3], .arr [x r 13606 3, x r 50431 3]])]

/-- A value in `examples/assets/google_fonts/Tiger.json`. -/
def tiger42 : Json F :=
  .obj [("c", .bool true), ("i", .arr [.arr [x r (-12027) 3, x r (-634) 3], .arr [x r 297 3, x r 11464 3],
  .arr [n 0, n 0], .arr [x r (-6613) 3, x r (-2822) 3], .arr [x r (-2581) 3, x r (-2984) 3], .arr [x r
  (-13951) 3, x r (-1613) 3], .arr [x r 806 3, x r 13549 3], .arr [x r (-2016) 3, x r 3629 3], .arr [x r
  (-885) 3, x r 2582 3], .arr [x r (-9248) 3, x r 10355 3], .arr [x r (-17418) 3, x r (-323) 3], .arr [x r 273
  2, x r 2111 3], .arr [x r 27664 3, x r (-20045) 3], .arr [n 0, n 0], .arr [x r 28145 3, x r (-2097) 3], .arr
  [x r 1008 2, x r (-4919) 3], .arr [n 0, n 0], .arr [m (-5), x r 1452 3], .arr [x r (-3447) 3, x r (-16081)
  3]]), ("o", .arr [.arr [x r 15683 3, x r 827 3], .arr [x r (-297) 3, x r (-11463) 3], .arr [n 0, n 0], .arr
  [x r 2661 3, x r 1129 3], .arr [x r 375 2, x r 14156 3], .arr [x r 13952 3, x r 1613 3], .arr [x r (-807) 3,
  x r (-13548) 3], .arr [x r 2017 3, x r (-3629) 3], .arr [x r 2621 3, x r (-7647) 3], .arr [x r 9248 3, x r
  (-10355) 3], .arr [x r 12176 3, x r 226 3], .arr [x r (-8272) 3, x r (-6495) 3], .arr [x r (-23315) 3, x r
  16894 3], .arr [n 0, n 0], .arr [x r (-20886) 3, x r 1532 3], .arr [x r (-19919) 3, x r 9677 3], .arr [n 0,
  n 0], .arr [x r 12258 3, x r (-3629) 3], .arr [x r 2004 3, x r 9816 3]]), ("v", .arr [.arr [x r (-73438) 3,
  x r 59955 3], .arr [x r (-48399) 3, x r 35709 3], .arr [x r (-46007) 3, x r 14878 3], .arr [x r (-26169) 3,
  x r 15443 3], .arr [x r (-20497) 3, x r 21846 3], .arr [x r (-15576) 3, x r 66739 3], .arr [x r 7837 3, x r
  34155 3], .arr [x r 16975 3, x r 1125 2], .arr [x r 25049 3, x r 6846 3], .arr [x r 42831 3, x r (-31367)
  3], .arr [x r 84228 3, x r (-51715) 3], .arr [x r 107524 3, x r (-49818) 3], .arr [x r 30918 3, x r (-51027)
  3], .arr [x r 361 2, x r (-10928) 3], .arr [x r (-36089) 3, x r (-9154) 3], .arr [x r (-85604) 3, x r 3991
  3], .arr [x r (-115038) 3, x r 25524 3], .arr [x r (-94394) 3, x r 17136 3], .arr [x r (-76774) 3, x r 31255
  3]])]

/-- A value in `examples/assets/google_fonts/Tiger.json`. -/
def tiger43 : Json F :=
  .obj [("c", .bool true), ("i", .arr [.arr [x r (-11935) 3, x r 1613 3], .arr [x r 242 2, x r 1121 2], .arr
  [n 0, n 0], .arr [x r (-6613) 3, x r (-2822) 3], .arr [x r (-2581) 3, x r (-2984) 3], .arr [x r (-13951) 3,
  x r (-1613) 3], .arr [x r 806 3, x r 13549 3], .arr [x r (-2016) 3, x r 3629 3], .arr [x r (-887) 3, x r
  2581 3], .arr [x r (-9194) 3, x r 10403 3], .arr [x r (-17419) 3, x r (-241) 3], .arr [x r 2741 3, x r 2097
  3], .arr [x r 2758 2, x r (-2016) 2], .arr [n 0, n 0], .arr [x r 28145 3, x r (-2097) 3], .arr [x r 1008 2,
  x r (-4919) 3], .arr [n 0, n 0], .arr [m (-5), x r 1452 3], .arr [x r (-6371) 3, x r (-15162) 3]]), ("o",
  .arr [.arr [x r 15564 3, x r (-2097) 3], .arr [x r (-2419) 3, x r (-11209) 3], .arr [n 0, n 0], .arr [x r
  2661 3, x r 1129 3], .arr [x r 14355 3, x r 16371 3], .arr [x r 13952 3, x r 1613 3], .arr [x r (-807) 3, x
  r (-13548) 3], .arr [x r 2017 3, x r (-3629) 3], .arr [x r 2581 3, x r (-7661) 3], .arr [x r 9193 3, x r
  (-10403) 3], .arr [x r 12177 3, x r 162 3], .arr [x r (-8306) 3, x r (-6452) 3], .arr [x r (-23226) 3, x r
  17016 3], .arr [n 0, n 0], .arr [x r (-20886) 3, x r 1532 3], .arr [x r (-19919) 3, x r 9677 3], .arr [n 0,
  n 0], .arr [x r 12258 3, x r (-3629) 3], .arr [x r 379 2, x r 9274 3]]), ("v", .arr [.arr [x r (-49798) 3, x
  r 63103 3], .arr [x r (-39637) 3, x r 33587 3], .arr [x r (-46007) 3, x r 14878 3], .arr [x r (-26169) 3, x
  r 15443 3], .arr [x r (-18508) 3, x r 22055 3], .arr [x r 4314 3, x r 68829 3], .arr [x r 17783 3, x r 35201
  3], .arr [x r 16975 3, x r 1125 2], .arr [x r 3012 2, x r 762 2], .arr [x r 47701 3, x r (-30686) 3], .arr
  [x r 88992 3, x r (-5125) 2], .arr [x r 112297 3, x r (-49476) 3], .arr [x r 35685 3, x r (-50283) 3], .arr
  [x r 8589 3, x r (-10041) 3], .arr [x r (-36089) 3, x r (-9154) 3], .arr [x r (-85604) 3, x r 3991 3], .arr
  [x r (-115038) 3, x r 25523 3], .arr [x r (-94394) 3, x r 17136 3], .arr [x r (-68346) 3, x r 34475 3]])]

/-- A value in `examples/assets/google_fonts/Tiger.json`. -/
def tiger44 : Json F :=
  .obj [("c", .bool true), ("i", .arr [.arr [x r (-11935) 3, x r 1613 3], .arr [x r 242 2, x r 1121 2], .arr
  [n 0, n 0], .arr [x r (-6613) 3, x r (-2822) 3], .arr [x r (-2581) 3, x r (-2984) 3], .arr [x r (-13951) 3,
  x r (-1613) 3], .arr [x r 806 3, x r 13549 3], .arr [x r (-2016) 3, x r 3629 3], .arr [x r (-887) 3, x r
  2581 3], .arr [x r (-9194) 3, x r 10403 3], .arr [x r (-17419) 3, x r (-241) 3], .arr [x r 2741 3, x r 2097
  3], .arr [x r 2758 2, x r (-2016) 2], .arr [n 0, n 0], .arr [x r 28145 3, x r (-2097) 3], .arr [x r 1008 2,
  x r (-4919) 3], .arr [n 0, n 0], .arr [m (-5), x r 1452 3], .arr [x r (-6371) 3, x r (-15162) 3]]), ("o",
  .arr [.arr [x r 15564 3, x r (-2097) 3], .arr [x r (-2419) 3, x r (-11209) 3], .arr [n 0, n 0], .arr [x r
  2661 3, x r 1129 3], .arr [x r 14355 3, x r 16371 3], .arr [x r 13952 3, x r 1613 3], .arr [x r (-807) 3, x
  r (-13548) 3], .arr [x r 2017 3, x r (-3629) 3], .arr [x r 2581 3, x r (-7661) 3], .arr [x r 9193 3, x r
  (-10403) 3], .arr [x r 12177 3, x r 162 3], .arr [x r (-8306) 3, x r (-6452) 3], .arr [x r (-23226) 3, x r
  17016 3], .arr [n 0, n 0], .arr [x r (-20886) 3, x r 1532 3], .arr [x r (-19919) 3, x r 9677 3], .arr [n 0,
  n 0], .arr [x r 12258 3, x r (-3629) 3], .arr [x r 379 2, x r 9274 3]]), ("v", .arr [.arr [x r (-49798) 3, x
  r 63103 3], .arr [x r (-39637) 3, x r 33587 3], .arr [x r (-46007) 3, x r 14878 3], .arr [x r (-26169) 3, x
  r 15443 3], .arr [x r (-18508) 3, x r 22055 3], .arr [x r 4314 3, x r 68829 3], .arr [x r 17783 3, x r 35201
  3], .arr [x r 16975 3, x r 1125 2], .arr [x r 3012 2, x r 762 2], .arr [x r 47701 3, x r (-30686) 3], .arr
  [x r 88992 3, x r (-5125) 2], .arr [x r 112297 3, x r (-49476) 3], .arr [x r 35685 3, x r (-50283) 3], .arr
  [x r 8589 3, x r (-10041) 3], .arr [x r (-36089) 3, x r (-9154) 3], .arr [x r (-85604) 3, x r 3991 3], .arr
  [x r (-115038) 3, x r 25523 3], .arr [x r (-94394) 3, x r 17136 3], .arr [x r (-68346) 3, x r 34475 3]])]

/-- A value in `examples/assets/google_fonts/Tiger.json`. -/
def tiger45 : Json F :=
  .arr [.obj [("hd", .bool false), ("ind", n 0), ("ix", n 1), ("ks", .obj [("a", n 1), ("ix", n 2), ("k", .arr
  [.obj [("i", .obj [("x", x r 667 3), ("y", n 1)]), ("o", .obj [("x", x r 167 3), ("y", x r 167 3)]), ("s",
  .arr [tiger36 r]), ("t", n 48)], .obj [("i", .obj [("x", x r 667 3), ("y", n 1)]), ("o", .obj [("x", x r 333
  3), ("y", n 0)]), ("s", .arr [tiger37 r]), ("t", n 58)], .obj [("i", .obj [("x", x r 833 3), ("y", x r 833
  3)]), ("o", .obj [("x", x r 333 3), ("y", n 0)]), ("s", .arr [tiger38 r]), ("t", n 70)], .obj [("i", .obj
  [("x", x r 667 3), ("y", n 1)]), ("o", .obj [("x", x r 167 3), ("y", x r 167 3)]), ("s", .arr [tiger39 r]),
  ("t", n 78)], .obj [("i", .obj [("x", x r 667 3), ("y", n 1)]), ("o", .obj [("x", x r 333 3), ("y", n 0)]),
  ("s", .arr [tiger40 r]), ("t", n 246)], .obj [("i", .obj [("x", x r 667 3), ("y", n 1)]), ("o", .obj [("x",
  x r 7 1), ("y", n 0)]), ("s", .arr [tiger41 r]), ("t", n 260)], .obj [("i", .obj [("x", x r 667 3), ("y", n
  1)]), ("o", .obj [("x", x r 333 3), ("y", n 0)]), ("s", .arr [tiger42 r]), ("t", n 272)], .obj [("i", .obj
  [("x", x r 667 3), ("y", n 1)]), ("o", .obj [("x", x r 333 3), ("y", n 0)]), ("s", .arr [tiger43 r]), ("t",
  n 288)], .obj [("s", .arr [tiger44 r]), ("t", n 302)]])]), ("mn", .str "ADBE Vector Shape - Group"), ("nm",
  .str "Path 1"), ("ty", .str "sh")], .obj [("bm", n 0), ("c", .obj [("a", n 0), ("ix", n 4), ("k", .arr [x r
  2 1, x r 19199999641 11, x r 184000007779 12, n 1])]), ("hd", .bool false), ("mn", .str
  "ADBE Vector Graphic - Fill"), ("nm", .str "Fill 1"), ("o", .obj [("a", n 0), ("ix", n 5), ("k", n 100)]),
  ("r", n 1), ("ty", .str "fl")], .obj [("a", .obj [("a", n 0), ("ix", n 1), ("k", .arr [n 0, n 0])]), ("nm",
  .str "Transform"), ("o", .obj [("a", n 0), ("ix", n 7), ("k", n 100)]), ("p", .obj [("a", n 0), ("ix", n 2),
  ("k", .arr [x r 228351 3, x r 73273 3])]), ("r", .obj [("a", n 0), ("ix", n 6), ("k", n 0)]), ("s", .obj
  [("a", n 0), ("ix", n 3), ("k", .arr [n 100, n 100])]), ("sa", .obj [("a", n 0), ("ix", n 5), ("k", n 0)]),
  ("sk", .obj [("a", n 0), ("ix", n 4), ("k", n 0)]), ("ty", .str "tr")]]

/-- A value in `examples/assets/google_fonts/Tiger.json`. -/
def tiger46 : Json F :=
  .arr [.obj [("i", .obj [("x", x r 667 3), ("y", n 1)]), ("o", .obj [("x", x r 167 3), ("y", x r 167 3)]),
  ("s", .arr [.obj [("c", .bool true), ("i", .arr [.arr [x r (-1613) 3, x r (-17822) 3], .arr [x r 12177 3, x
  r (-242) 2], .arr [x r 3225 3, x r 20081 3], .arr [x r (-12177) 3, x r 2419 3]]), ("o", .arr [.arr [x r 1371
  3, x r 15242 3], .arr [x r (-12177) 3, x r 25 1], .arr [x r (-3065) 3, x r (-18951) 3], .arr [x r 12177 3, x
  r (-2419) 3]]), ("v", .arr [.arr [x r 22984 3, x r (-4194) 3], .arr [x r 6451 3, x r 27419 3], .arr [x r
  (-2129) 2, x r 4193 3], .arr [x r (-3307) 3, x r (-275) 1]])]]), ("t", n 48)], .obj [("i", .obj [("x", x r
  667 3), ("y", n 1)]), ("o", .obj [("x", x r 333 3), ("y", n 0)]), ("s", .arr [.obj [("c", .bool true), ("i",
  .arr [.arr [x r 762 3, x r (-17632) 3], .arr [x r 12221 3, x r (-77) 2], .arr [x r 53 2, x r 20054 3], .arr
  [x r (-12221) 3, x r 769 3]]), ("o", .arr [.arr [x r (-657) 3, x r 15079 3], .arr [x r (-12231) 3, x r 848
  3], .arr [x r (-513) 3, x r (-18927) 3], .arr [x r 12221 3, x r (-769) 3]]), ("v", .arr [.arr [x r 43628 3,
  x r 7849 3], .arr [x r 23325 3, x r 36586 3], .arr [x r (-75) 2, x r 10247 3], .arr [x r 20982 3, x r
  (-18378) 3]])]]), ("t", n 58)], .obj [("i", .obj [("x", x r 833 3), ("y", x r 833 3)]), ("o", .obj [("x", x
  r 333 3), ("y", n 0)]), ("s", .arr [.obj [("c", .bool true), ("i", .arr [.arr [x r (-1613) 3, x r (-17822)
  3], .arr [x r 12177 3, x r (-242) 2], .arr [x r 3225 3, x r 20081 3], .arr [x r (-12177) 3, x r 2419 3]]),
  ("o", .arr [.arr [x r 1371 3, x r 15242 3], .arr [x r (-12177) 3, x r 25 1], .arr [x r (-3065) 3, x r
  (-18951) 3], .arr [x r 12177 3, x r (-2419) 3]]), ("v", .arr [.arr [x r 3093 3, x r (-6285) 3], .arr [x r
  (-13439) 3, x r 25328 3], .arr [x r (-4118) 2, x r 2102 3], .arr [x r (-23197) 3, x r (-29591) 3]])]]),
  ("t", n 70)], .obj [("i", .obj [("x", x r 667 3), ("y", n 1)]), ("o", .obj [("x", x r 167 3), ("y", x r 167
  3)]), ("s", .arr [.obj [("c", .bool true), ("i", .arr [.arr [x r (-1613) 3, x r (-17822) 3], .arr [x r 12177
  3, x r (-242) 2], .arr [x r 3225 3, x r 20081 3], .arr [x r (-12177) 3, x r 2419 3]]), ("o", .arr [.arr [x r
  1371 3, x r 15242 3], .arr [x r (-12177) 3, x r 25 1], .arr [x r (-3065) 3, x r (-18951) 3], .arr [x r 12177
  3, x r (-2419) 3]]), ("v", .arr [.arr [x r 22984 3, x r (-4194) 3], .arr [x r 6451 3, x r 27419 3], .arr [x
  r (-2129) 2, x r 4193 3], .arr [x r (-3307) 3, x r (-275) 1]])]]), ("t", n 78)], .obj [("i", .obj [("x", x r
  667 3), ("y", n 1)]), ("o", .obj [("x", x r 333 3), ("y", n 0)]), ("s", .arr [.obj [("c", .bool true), ("i",
  .arr [.arr [x r (-1613) 3, x r (-17822) 3], .arr [x r 12177 3, x r (-242) 2], .arr [x r 3225 3, x r 20081
  3], .arr [x r (-12177) 3, x r 2419 3]]), ("o", .arr [.arr [x r 1371 3, x r 15242 3], .arr [x r (-12177) 3, x
  r 25 1], .arr [x r (-3065) 3, x r (-18951) 3], .arr [x r 12177 3, x r (-2419) 3]]), ("v", .arr [.arr [x r
  22984 3, x r (-4194) 3], .arr [x r 6451 3, x r 27419 3], .arr [x r (-2129) 2, x r 4193 3], .arr [x r (-3307)
  3, x r (-275) 1]])]]), ("t", n 246)], .obj [("i", .obj [("x", x r 667 3), ("y", n 1)]), ("o", .obj [("x", x
  r 7 1), ("y", n 0)]), ("s", .arr [.obj [("c", .bool true), ("i", .arr [.arr [x r 4421 3, x r (-1734) 2],
  .arr [x r 12288 3, x r 1772 3], .arr [x r (-3621) 3, x r 20013 3], .arr [x r (-12288) 3, x r (-1772) 3]]),
  ("o", .arr [.arr [x r (-3781) 3, x r 14829 3], .arr [x r (-12315) 3, x r (-1696) 3], .arr [x r 3418 3, x r
  (-1889) 2], .arr [x r 12288 3, x r 1772 3]]), ("v", .arr [.arr [x r 75436 3, x r 26404 3], .arr [x r 49324
  3, x r 50711 3], .arr [x r 30896 3, x r 19575 3], .arr [x r 58404 3, x r (-4324) 3]])]]), ("t", n 260)],
  .obj [("i", .obj [("x", x r 667 3), ("y", n 1)]), ("o", .obj [("x", x r 333 3), ("y", n 0)]), ("s", .arr
  [.obj [("c", .bool true), ("i", .arr [.arr [x r (-1613) 3, x r (-17822) 3], .arr [x r 12177 3, x r (-242)
  2], .arr [x r 3225 3, x r 20081 3], .arr [x r (-12177) 3, x r 2419 3]]), ("o", .arr [.arr [x r 1371 3, x r
  15242 3], .arr [x r (-12177) 3, x r 25 1], .arr [x r (-3065) 3, x r (-18951) 3], .arr [x r 12177 3, x r
  (-2419) 3]]), ("v", .arr [.arr [x r 3093 3, x r (-6285) 3], .arr [x r (-13439) 3, x r 25328 3], .arr [x r
  (-4118) 2, x r 2102 3], .arr [x r (-23197) 3, x r (-29591) 3]])]]), ("t", n 272)], .obj [("i", .obj [("x", x
  r 667 3), ("y", n 1)]), ("o", .obj [("x", x r 333 3), ("y", n 0)]), ("s", .arr [.obj [("c", .bool true),
  ("i", .arr [.arr [x r (-1613) 3, x r (-17822) 3], .arr [x r 12177 3, x r (-242) 2], .arr [x r 3225 3, x r
  20081 3], .arr [x r (-12177) 3, x r 2419 3]]), ("o", .arr [.arr [x r 1371 3, x r 15242 3], .arr [x r
  (-12177) 3, x r 25 1], .arr [x r (-3065) 3, x r (-18951) 3], .arr [x r 12177 3, x r (-2419) 3]]), ("v", .arr
  [.arr [x r 22984 3, x r (-4194) 3], .arr [x r 6451 3, x r 27419 3], .arr [x r (-2129) 2, x r 4193 3], .arr
  [x r (-3307) 3, x r (-275) 1]])]]), ("t", n 288)], .obj [("s", .arr [.obj [("c", .bool true), ("i", .arr
  [.arr [x r (-1613) 3, x r (-17822) 3], .arr [x r 12177 3, x r (-242) 2], .arr [x r 3225 3, x r 20081 3],
  .arr [x r (-12177) 3, x r 2419 3]]), ("o", .arr [.arr [x r 1371 3, x r 15242 3], .arr [x r (-12177) 3, x r
  25 1], .arr [x r (-3065) 3, x r (-18951) 3], .arr [x r 12177 3, x r (-2419) 3]]), ("v", .arr [.arr [x r
  22984 3, x r (-4194) 3], .arr [x r 6451 3, x r 27419 3], .arr [x r (-2129) 2, x r 4193 3], .arr [x r (-3307)
  3, x r (-275) 1]])]]), ("t", n 302)]]

/-- A value in `examples/assets/google_fonts/Tiger.json`. -/
def tiger47 : Json F :=
  .arr [.obj [("i", .obj [("x", x r 667 3), ("y", n 1)]), ("o", .obj [("x", x r 167 3), ("y", x r 167 3)]),
  ("s", .arr [.obj [("c", .bool true), ("i", .arr [.arr [x r (-11371) 3, x r (-17983) 3], .arr [n 0, x r
  (-1855) 3], .arr [x r (-3548) 3, x r (-2984) 3], .arr [x r (-8387) 3, x r (-121) 2], .arr [x r (-4759) 3, x
  r (-4194) 3], .arr [x r 2387 2, x r (-5403) 3], .arr [x r 5322 3, x r 17984 3], .arr [x r (-1379) 2, x r
  18548 3]]), ("o", .arr [.arr [n 0, n 0], .arr [n 0, x r 1774 3], .arr [x r 3629 3, x r 2984 3], .arr [x r
  8387 3, x r 121 2], .arr [x r 2661 3, x r 2258 3], .arr [x r (-23871) 3, x r 5403 3], .arr [x r (-5403) 3, x
  r (-17984) 3], .arr [x r 9677 3, x r (-13226) 3]]), ("v", .arr [.arr [x r 36249 3, x r (-24556) 3], .arr [x
  r (-13428) 3, x r (-6572) 3], .arr [x r (-10443) 3, x r 22137 3], .arr [x r 11089 3, x r 31734 3], .arr [x r
  34395 3, x r 36492 3], .arr [x r 15283 3, x r 60443 3], .arr [x r (-33749) 3, x r 22137 3], .arr [x r
  (-25363) 3, x r (-5262) 2]])]]), ("t", n 48)], .obj [("i", .obj [("x", x r 667 3), ("y", n 1)]), ("o", .obj
  [("x", x r 333 3), ("y", n 0)]), ("s", .arr [.obj [("c", .bool true), ("i", .arr [.arr [x r (-11371) 3, x r
  (-17983) 3], .arr [n 0, x r (-1855) 3], .arr [x r (-3548) 3, x r (-2984) 3], .arr [x r (-8387) 3, x r (-121)
  2], .arr [x r (-3942) 3, x r (-3767) 3], .arr [x r 2387 2, x r (-5403) 3], .arr [x r 5322 3, x r 17984 3],
  .arr [x r (-1379) 2, x r 18548 3]]), ("o", .arr [.arr [n 0, n 0], .arr [n 0, x r 1774 3], .arr [x r 3629 3,
  x r 2984 3], .arr [x r 8387 3, x r 121 2], .arr [x r 3648 3, x r 3728 3], .arr [x r (-23871) 3, x r 5403 3],
  .arr [x r (-5403) 3, x r (-17984) 3], .arr [x r 9677 3, x r (-13226) 3]]), ("v", .arr [.arr [x r 58801 3, x
  r (-13334) 3], .arr [x r 9479 3, x r 6146 3], .arr [x r 1255 2, x r 34458 3], .arr [x r 33993 3, x r 43352
  3], .arr [x r 5796 2, x r 47888 3], .arr [x r 38496 3, x r 72544 3], .arr [x r (-10845) 3, x r 33755 3],
  .arr [x r (-4216) 3, x r (-39679) 3]])]]), ("t", n 58)], .obj [("i", .obj [("x", x r 833 3), ("y", x r 833
  3)]), ("o", .obj [("x", x r 333 3), ("y", n 0)]), ("s", .arr [.obj [("c", .bool true), ("i", .arr [.arr [x r
  (-11371) 3, x r (-17983) 3], .arr [n 0, x r (-1855) 3], .arr [x r (-3548) 3, x r (-2984) 3], .arr [x r
  (-8387) 3, x r (-121) 2], .arr [x r (-4759) 3, x r (-4194) 3], .arr [x r 2387 2, x r (-5403) 3], .arr [x r
  5322 3, x r 17984 3], .arr [x r (-1379) 2, x r 18548 3]]), ("o", .arr [.arr [n 0, n 0], .arr [n 0, x r 1774
  3], .arr [x r 3629 3, x r 2984 3], .arr [x r 8387 3, x r 121 2], .arr [x r 2661 3, x r 2258 3], .arr [x r
  (-23871) 3, x r 5403 3], .arr [x r (-5403) 3, x r (-17984) 3], .arr [x r 9677 3, x r (-13226) 3]]), ("v",
  .arr [.arr [x r 19788 3, x r (-25783) 3], .arr [x r (-18793) 3, x r (-8141) 3], .arr [x r (-15809) 3, x r
  20568 3], .arr [x r 1143 3, x r 30689 3], .arr [x r 2445 2, x r 35447 3], .arr [x r 5337 3, x r 59398 3],
  .arr [x r (-33749) 3, x r 22137 3], .arr [x r (-25363) 3, x r (-5262) 2]])]]), ("t", n 70)], .obj [("i",
  .obj [("x", x r 667 3), ("y", n 1)]), ("o", .obj [("x", x r 167 3), ("y", x r 167 3)]), ("s", .arr [.obj
  [("c", .bool true), ("i", .arr [.arr [x r (-11371) 3, x r (-17983) 3], .arr [n 0, x r (-1855) 3], .arr [x r
  (-3548) 3, x r (-2984) 3], .arr [x r (-8387) 3, x r (-121) 2], .arr [x r (-4759) 3, x r (-4194) 3], .arr [x
  r 2387 2, x r (-5403) 3], .arr [x r 5322 3, x r 17984 3], .arr [x r (-1379) 2, x r 18548 3]]), ("o", .arr
  [.arr [n 0, n 0], .arr [n 0, x r 1774 3], .arr [x r 3629 3, x r 2984 3], .arr [x r 8387 3, x r 121 2], .arr
  [x r 2661 3, x r 2258 3], .arr [x r (-23871) 3, x r 5403 3], .arr [x r (-5403) 3, x r (-17984) 3], .arr [x r
  9677 3, x r (-13226) 3]]), ("v", .arr [.arr [x r 36249 3, x r (-24556) 3], .arr [x r (-13428) 3, x r (-6572)
  3], .arr [x r (-10443) 3, x r 22137 3], .arr [x r 11089 3, x r 31734 3], .arr [x r 34395 3, x r 36492 3],
  .arr [x r 15283 3, x r 60443 3], .arr [x r (-33749) 3, x r 22137 3], .arr [x r (-25363) 3, x r (-5262)
  2]])]]), ("t", n 78)], .obj [("i", .obj [("x", x r 667 3), ("y", n 1)]), ("o", .obj [("x", x r 333 3), ("y",
  n 0)]), ("s", .arr [.obj [("c", .bool true), ("i", .arr [.arr [x r (-11371) 3, x r (-17983) 3], .arr [n 0, x
  r (-1855) 3], .arr [x r (-3548) 3, x r (-2984) 3], .arr [x r (-8387) 3, x r (-121) 2], .arr [x r (-4759) 3,
  x r (-4194) 3], .arr [x r 2387 2, x r (-5403) 3], .arr [x r 5322 3, x r 17984 3], .arr [x r (-1379) 2, x r
  18548 3]]), ("o", .arr [.arr [n 0, n 0], .arr [n 0, x r 1774 3], .arr [x r 3629 3, x r 2984 3], .arr [x r
  8387 3, x r 121 2], .arr [x r 2661 3, x r 2258 3], .arr [x r (-23871) 3, x r 5403 3], .arr [x r (-5403) 3, x
  r (-17984) 3], .arr [x r 9677 3, x r (-13226) 3]]), ("v", .arr [.arr [x r 36249 3, x r (-24556) 3], .arr [x
  r (-13428) 3, x r (-6572) 3], .arr [x r (-10443) 3, x r 22137 3], .arr [x r 11089 3, x r 31734 3], .arr [x r
  34395 3, x r 36492 3], .arr [x r 15283 3, x r 60443 3], .arr [x r (-33749) 3, x r 22137 3], .arr [x r
  (-25363) 3, x r (-5262) 2]])]]), ("t", n 246)], .obj [("i", .obj [("x", x r 667 3), ("y", n 1)]), ("o", .obj
  [("x", x r 7 1), ("y", n 0)]), ("s", .arr [.obj [("c", .bool true), ("i", .arr [.arr [x r (-11371) 3, x r
  (-17983) 3], .arr [n 0, x r (-1855) 3], .arr [x r (-3548) 3, x r (-2984) 3], .arr [x r (-8387) 3, x r (-121)
  2], .arr [x r (-2682) 3, x r (-311) 2], .arr [x r 2387 2, x r (-5403) 3], .arr [x r 5322 3, x r 17984 3],
  .arr [x r (-1379) 2, x r 18548 3]]), ("o", .arr [.arr [n 0, n 0], .arr [n 0, x r 1774 3], .arr [x r 3629 3,
  x r 2984 3], .arr [x r 8387 3, x r 121 2], .arr [x r 5169 3, x r 5993 3], .arr [x r (-23871) 3, x r 5403 3],
  .arr [x r (-5403) 3, x r (-17984) 3], .arr [x r 9677 3, x r (-13226) 3]]), ("v", .arr [.arr [x r 93547 3, x
  r 3957 3], .arr [x r 44772 3, x r 2574 2], .arr [x r 47978 3, x r 53443 3], .arr [x r 69283 3, x r 61251 3],
  .arr [x r 94266 3, x r 65447 3], .arr [x r 74262 3, x r 91188 3], .arr [x r 24445 3, x r 51654 3], .arr [x r
  28366 3, x r (-1974) 2]])]]), ("t", n 260)], .obj [("i", .obj [("x", x r 667 3), ("y", n 1)]), ("o", .obj
  [("x", x r 333 3), ("y", n 0)]), ("s", .arr [.obj [("c", .bool true), ("i", .arr [.arr [x r (-11371) 3, x r
  (-17983) 3], .arr [n 0, x r (-1855) 3], .arr [x r (-3548) 3, x r (-2984) 3], .arr [x r (-8387) 3, x r (-121)
  2], .arr [x r (-4759) 3, x r (-4194) 3], .arr [x r 2387 2, x r (-5403) 3], .arr [x r 5322 3, x r 17984 3],
  .arr [x r (-1379) 2, x r 18548 3]]), ("o", .arr [.arr [n 0, n 0], .arr [n 0, x r 1774 3], .arr [x r 3629 3,
  x r 2984 3], .arr [x r 8387 3, x r 121 2], .arr [x r 2661 3, x r 2258 3], .arr [x r (-23871) 3, x r 5403 3],
  .arr [x r (-5403) 3, x r (-17984) 3], .arr [x r 9677 3, x r (-13226) 3]]), ("v", .arr [.arr [x r 19788 3, x
  r (-25783) 3], .arr [x r (-18793) 3, x r (-8141) 3], .arr [x r (-15809) 3, x r 20568 3], .arr [x r 1143 3, x
  r 30689 3], .arr [x r 2445 2, x r 35447 3], .arr [x r 5337 3, x r 59398 3], .arr [x r (-33749) 3, x r 22137
  3], .arr [x r (-25363) 3, x r (-5262) 2]])]]), ("t", n 272)], .obj [("i", .obj [("x", x r 667 3), ("y", n
  1)]), ("o", .obj [("x", x r 333 3), ("y", n 0)]), ("s", .arr [.obj [("c", .bool true), ("i", .arr [.arr [x r
  (-11371) 3, x r (-17983) 3], .arr [n 0, x r (-1855) 3], .arr [x r (-3548) 3, x r (-2984) 3], .arr [x r
  (-8387) 3, x r (-121) 2], .arr [x r (-4759) 3, x r (-4194) 3], .arr [x r 2387 2, x r (-5403) 3], .arr [x r
  5322 3, x r 17984 3], .arr [x r (-1379) 2, x r 18548 3]]), ("o", .arr [.arr [n 0, n 0], .arr [n 0, x r 1774
  3], .arr [x r 3629 3, x r 2984 3], .arr [x r 8387 3, x r 121 2], .arr [x r 2661 3, x r 2258 3], .arr [x r
  (-23871) 3, x r 5403 3], .arr [x r (-5403) 3, x r (-17984) 3], .arr [x r 9677 3, x r (-13226) 3]]), ("v",
  .arr [.arr [x r 36249 3, x r (-24556) 3], .arr [x r (-13428) 3, x r (-6572) 3], .arr [x r (-10443) 3, x r
  22137 3], .arr [x r 11089 3, x r 31734 3], .arr [x r 34395 3, x r 36492 3], .arr [x r 15283 3, x r 60443 3],
  .arr [x r (-33749) 3, x r 22137 3], .arr [x r (-25363) 3, x r (-5262) 2]])]]), ("t", n 288)], .obj [("s",
  .arr [.obj [("c", .bool true), ("i", .arr [.arr [x r (-11371) 3, x r (-17983) 3], .arr [n 0, x r (-1855) 3],
  .arr [x r (-3548) 3, x r (-2984) 3], .arr [x r (-8387) 3, x r (-121) 2], .arr [x r (-4759) 3, x r (-4194)
  3], .arr [x r 2387 2, x r (-5403) 3], .arr [x r 5322 3, x r 17984 3], .arr [x r (-1379) 2, x r 18548 3]]),
  ("o", .arr [.arr [n 0, n 0], .arr [n 0, x r 1774 3], .arr [x r 3629 3, x r 2984 3], .arr [x r 8387 3, x r
  121 2], .arr [x r 2661 3, x r 2258 3], .arr [x r (-23871) 3, x r 5403 3], .arr [x r (-5403) 3, x r (-17984)
  3], .arr [x r 9677 3, x r (-13226) 3]]), ("v", .arr [.arr [x r 36249 3, x r (-24556) 3], .arr [x r (-13428)
  3, x r (-6572) 3], .arr [x r (-10443) 3, x r 22137 3], .arr [x r 11089 3, x r 31734 3], .arr [x r 34395 3, x
  r 36492 3], .arr [x r 15283 3, x r 60443 3], .arr [x r (-33749) 3, x r 22137 3], .arr [x r (-25363) 3, x r
  (-5262) 2]])]]), ("t", n 302)]]

/-- A value in `examples/assets/google_fonts/Tiger.json`. -/
def tiger48 : Json F :=
  .arr [.obj [("i", .obj [("x", x r 667 3), ("y", n 1)]), ("o", .obj [("x", x r 167 3), ("y", x r 167 3)]),
  ("s", .arr [.obj [("c", .bool true), ("i", .arr [.arr [n 0, n 0], .arr [x r 16774 3, x r (-11129) 3], .arr
  [x r 484 3, x r (-14435) 3], .arr [x r (-45726) 3, x r (-15323) 3], .arr [n 0, n 0], .arr [x r 1258 2, x r
  1492 2], .arr [x r 4194 3, x r 7742 3], .arr [x r 6613 3, x r 15565 3]]), ("o", .arr [.arr [n 0, n 0], .arr
  [m (-10), x r 6612 3], .arr [x r (-1532) 3, x r 49031 3], .arr [x r 53628 3, x r 17902 3], .arr [n 0, n 0],
  .arr [x r (-12581) 3, x r (-14919) 3], .arr [x r (-4194) 3, x r (-7742) 3], .arr [x r (-6613) 3, x r
  (-15725) 3]]), ("v", .arr [.arr [x r (-16129) 3, x r (-93346) 3], .arr [x r (-65483) 3, x r (-73264) 3],
  .arr [x r (-78064) 3, x r (-39152) 3], .arr [x r (-4193) 3, x r 75443 3], .arr [x r 79596 3, x r 80201 3],
  .arr [x r 44919 3, x r 31169 3], .arr [x r 17419 3, x r (-1734) 3], .arr [x r 1855 3, x r (-60039) 3]])]]),
  ("t", n 48)], .obj [("i", .obj [("x", x r 667 3), ("y", n 1)]), ("o", .obj [("x", x r 333 3), ("y", n 0)]),
  ("s", .arr [.obj [("c", .bool true), ("i", .arr [.arr [n 0, n 0], .arr [x r 16774 3, x r (-11129) 3], .arr
  [x r 484 3, x r (-14435) 3], .arr [x r (-45726) 3, x r (-15323) 3], .arr [n 0, n 0], .arr [x r 1258 2, x r
  1492 2], .arr [x r 4194 3, x r 7742 3], .arr [x r 6613 3, x r 15565 3]]), ("o", .arr [.arr [n 0, n 0], .arr
  [m (-10), x r 6612 3], .arr [x r (-1532) 3, x r 49031 3], .arr [x r 53628 3, x r 17902 3], .arr [n 0, n 0],
  .arr [x r (-12581) 3, x r (-14919) 3], .arr [x r (-4194) 3, x r (-7742) 3], .arr [x r (-6613) 3, x r
  (-15725) 3]]), ("v", .arr [.arr [x r (-12245) 3, x r (-87016) 3], .arr [x r (-58602) 3, x r (-64565) 3],
  .arr [x r (-71712) 3, x r (-31156) 3], .arr [x r 4222 3, x r 8084 2], .arr [x r 106096 3, x r 85255 3], .arr
  [x r 68868 3, x r 36491 3], .arr [x r 40665 3, x r 4559 3], .arr [x r 24135 3, x r (-52689) 3]])]]), ("t", n
  58)], .obj [("i", .obj [("x", x r 833 3), ("y", x r 833 3)]), ("o", .obj [("x", x r 333 3), ("y", n 0)]),
  ("s", .arr [.obj [("c", .bool true), ("i", .arr [.arr [n 0, n 0], .arr [x r 16774 3, x r (-11129) 3], .arr
  [x r 484 3, x r (-14435) 3], .arr [x r (-45726) 3, x r (-15323) 3], .arr [n 0, n 0], .arr [x r 2191 2, x r
  18795 3], .arr [x r 4194 3, x r 7742 3], .arr [x r 3798 3, x r 17602 3]]), ("o", .arr [.arr [n 0, n 0], .arr
  [m (-10), x r 6612 3], .arr [x r (-1532) 3, x r 49031 3], .arr [x r 53628 3, x r 17902 3], .arr [n 0, n 0],
  .arr [x r (-14812) 3, x r (-12706) 3], .arr [x r (-4194) 3, x r (-7742) 3], .arr [x r (-6613) 3, x r
  (-15725) 3]]), ("v", .arr [.arr [x r (-16129) 3, x r (-93346) 3], .arr [x r (-75428) 3, x r (-7431) 2], .arr
  [x r (-87529) 3, x r (-39982) 3], .arr [x r (-1214) 2, x r 74518 3], .arr [x r 79596 3, x r 80201 3], .arr
  [x r 21915 3, x r 34784 3], .arr [x r (-4958) 3, x r (-4085) 3], .arr [x r (-16255) 3, x r (-59932) 3]])]]),
  ("t", n 70)], .obj [("i", .obj [("x", x r 667 3), ("y", n 1)]), ("o", .obj [("x", x r 167 3), ("y", x r 167
  3)]), ("s", .arr [.obj [("c", .bool true), ("i", .arr [.arr [n 0, n 0], .arr [x r 16774 3, x r (-11129) 3],
  .arr [x r 484 3, x r (-14435) 3], .arr [x r (-45726) 3, x r (-15323) 3], .arr [n 0, n 0], .arr [x r 1258 2,
  x r 1492 2], .arr [x r 4194 3, x r 7742 3], .arr [x r 6613 3, x r 15565 3]]), ("o", .arr [.arr [n 0, n 0],
  .arr [m (-10), x r 6612 3], .arr [x r (-1532) 3, x r 49031 3], .arr [x r 53628 3, x r 17902 3], .arr [n 0, n
  0], .arr [x r (-12581) 3, x r (-14919) 3], .arr [x r (-4194) 3, x r (-7742) 3], .arr [x r (-6613) 3, x r
  (-15725) 3]]), ("v", .arr [.arr [x r (-16129) 3, x r (-93346) 3], .arr [x r (-65483) 3, x r (-73264) 3],
  .arr [x r (-78064) 3, x r (-39152) 3], .arr [x r (-4193) 3, x r 75443 3], .arr [x r 79596 3, x r 80201 3],
  .arr [x r 44919 3, x r 31169 3], .arr [x r 17419 3, x r (-1734) 3], .arr [x r 1855 3, x r (-60039) 3]])]]),
  ("t", n 78)], .obj [("i", .obj [("x", x r 667 3), ("y", n 1)]), ("o", .obj [("x", x r 333 3), ("y", n 0)]),
  ("s", .arr [.obj [("c", .bool true), ("i", .arr [.arr [n 0, n 0], .arr [x r 16774 3, x r (-11129) 3], .arr
  [x r 484 3, x r (-14435) 3], .arr [x r (-45726) 3, x r (-15323) 3], .arr [n 0, n 0], .arr [x r 1258 2, x r
  1492 2], .arr [x r 4194 3, x r 7742 3], .arr [x r 6613 3, x r 15565 3]]), ("o", .arr [.arr [n 0, n 0], .arr
  [m (-10), x r 6612 3], .arr [x r (-1532) 3, x r 49031 3], .arr [x r 53628 3, x r 17902 3], .arr [n 0, n 0],
  .arr [x r (-12581) 3, x r (-14919) 3], .arr [x r (-4194) 3, x r (-7742) 3], .arr [x r (-6613) 3, x r
  (-15725) 3]]), ("v", .arr [.arr [x r (-16129) 3, x r (-93346) 3], .arr [x r (-65483) 3, x r (-73264) 3],
  .arr [x r (-78064) 3, x r (-39152) 3], .arr [x r (-4193) 3, x r 75443 3], .arr [x r 79596 3, x r 80201 3],
  .arr [x r 44919 3, x r 31169 3], .arr [x r 17419 3, x r (-1734) 3], .arr [x r 1855 3, x r (-60039) 3]])]]),
  ("t", n 246)], .obj [("i", .obj [("x", x r 667 3), ("y", n 1)]), ("o", .obj [("x", x r 7 1), ("y", n 0)]),
  ("s", .arr [.obj [("c", .bool true), ("i", .arr [.arr [n 0, n 0], .arr [x r 16774 3, x r (-11129) 3], .arr
  [x r 484 3, x r (-14435) 3], .arr [x r (-45726) 3, x r (-15323) 3], .arr [n 0, n 0], .arr [x r 1258 2, x r
  1492 2], .arr [x r 4194 3, x r 7742 3], .arr [x r 6613 3, x r 15565 3]]), ("o", .arr [.arr [n 0, n 0], .arr
  [m (-10), x r 6612 3], .arr [x r (-1532) 3, x r 49031 3], .arr [x r 53628 3, x r 17902 3], .arr [n 0, n 0],
  .arr [x r (-12581) 3, x r (-14919) 3], .arr [x r (-4194) 3, x r (-7742) 3], .arr [x r (-6613) 3, x r
  (-15725) 3]]), ("v", .arr [.arr [x r (-626) 2, x r (-77265) 3], .arr [m (-48), x r (-51161) 3], .arr [x r
  (-61926) 3, x r (-18835) 3], .arr [x r 17188 3, x r 89155 3], .arr [x r 146926 3, x r 93041 3], .arr [x r
  105766 3, x r 44693 3], .arr [x r 76482 3, x r 14254 3], .arr [x r 58463 3, x r (-41364) 3]])]]), ("t", n
  260)], .obj [("i", .obj [("x", x r 667 3), ("y", n 1)]), ("o", .obj [("x", x r 333 3), ("y", n 0)]), ("s",
  .arr [.obj [("c", .bool true), ("i", .arr [.arr [n 0, n 0], .arr [x r 16774 3, x r (-11129) 3], .arr [x r
  484 3, x r (-14435) 3], .arr [x r (-45726) 3, x r (-15323) 3], .arr [n 0, n 0], .arr [x r 2191 2, x r 18795
  3], .arr [x r 4194 3, x r 7742 3], .arr [x r 3798 3, x r 17602 3]]), ("o", .arr [.arr [n 0, n 0], .arr [m
  (-10), x r 6612 3], .arr [x r (-1532) 3, x r 49031 3], .arr [x r 53628 3, x r 17902 3], .arr [n 0, n 0],
  .arr [x r (-14812) 3, x r (-12706) 3], .arr [x r (-4194) 3, x r (-7742) 3], .arr [x r (-6613) 3, x r
  (-15725) 3]]), ("v", .arr [.arr [x r (-16129) 3, x r (-93346) 3], .arr [x r (-75428) 3, x r (-7431) 2], .arr
  [x r (-87529) 3, x r (-39982) 3], .arr [x r (-1214) 2, x r 74518 3], .arr [x r 79596 3, x r 80201 3], .arr
  [x r 21915 3, x r 34784 3], .arr [x r (-4958) 3, x r (-4085) 3], .arr [x r (-16255) 3, x r (-59932) 3]])]]),
  ("t", n 272)], .obj [("i", .obj [("x", x r 667 3), ("y", n 1)]), ("o", .obj [("x", x r 333 3), ("y", n 0)]),
  ("s", .arr [.obj [("c", .bool true), ("i", .arr [.arr [n 0, n 0], .arr [x r 16774 3, x r (-11129) 3], .arr
  [x r 484 3, x r (-14435) 3], .arr [x r (-45726) 3, x r (-15323) 3], .arr [n 0, n 0], .arr [x r 1258 2, x r
  1492 2], .arr [x r 4194 3, x r 7742 3], .arr [x r 6613 3, x r 15565 3]]), ("o", .arr [.arr [n 0, n 0], .arr
  [m (-10), x r 6612 3], .arr [x r (-1532) 3, x r 49031 3], .arr [x r 53628 3, x r 17902 3], .arr [n 0, n 0],
  .arr [x r (-12581) 3, x r (-14919) 3], .arr [x r (-4194) 3, x r (-7742) 3], .arr [x r (-6613) 3, x r
  (-15725) 3]]), ("v", .arr [.arr [x r (-16129) 3, x r (-93346) 3], .arr [x r (-65483) 3, x r (-73264) 3],
  .arr [x r (-78064) 3, x r (-39152) 3], .arr [x r (-4193) 3, x r 75443 3], .arr [x r 79596 3, x r 80201 3],
  .arr [x r 44919 3, x r 31169 3], .arr [x r 17419 3, x r (-1734) 3], .arr [x r 1855 3, x r (-60039) 3]])]]),
  ("t", n 288)], .obj [("s", .arr [.obj [("c", .bool true), ("i", .arr [.arr [n 0, n 0], .arr [x r 16774 3, x
  r (-11129) 3], .arr [x r 484 3, x r (-14435) 3], .arr [x r (-45726) 3, x r (-15323) 3], .arr [n 0, n 0],
  .arr [x r 1258 2, x r 1492 2], .arr [x r 4194 3, x r 7742 3], .arr [x r 6613 3, x r 15565 3]]), ("o", .arr
  [.arr [n 0, n 0], .arr [m (-10), x r 6612 3], .arr [x r (-1532) 3, x r 49031 3], .arr [x r 53628 3, x r
  17902 3], .arr [n 0, n 0], .arr [x r (-12581) 3, x r (-14919) 3], .arr [x r (-4194) 3, x r (-7742) 3], .arr
  [x r (-6613) 3, x r (-15725) 3]]), ("v", .arr [.arr [x r (-16129) 3, x r (-93346) 3], .arr [x r (-65483) 3,
  x r (-73264) 3], .arr [x r (-78064) 3, x r (-39152) 3], .arr [x r (-4193) 3, x r 75443 3], .arr [x r 79596
  3, x r 80201 3], .arr [x r 44919 3, x r 31169 3], .arr [x r 17419 3, x r (-1734) 3], .arr [x r 1855 3, x r
  (-60039) 3]])]]), ("t", n 302)]]

/-- A value in `examples/assets/google_fonts/Tiger.json`. -/
def tiger49 : Json F :=
  .arr [.obj [("i", .obj [("x", x r 667 3), ("y", n 1)]), ("o", .obj [("x", x r 167 3), ("y", x r 167 3)]),
  ("s", .arr [.obj [("c", .bool true), ("i", .arr [.arr [n 0, n 0], .arr [x r 2871 2, x r 15565 3], .arr [n 0,
  n 0], .arr [x r (-1258) 2, x r (-7742) 3]]), ("o", .arr [.arr [n 0, n 0], .arr [x r (-28709) 3, x r (-15564)
  3], .arr [n 0, n 0], .arr [x r 125 1, x r 7822 3]]), ("v", .arr [.arr [x r 17339 3, x r 38306 3], .arr [x r
  8386 3, x r (-22742) 3], .arr [x r (-37096) 3, x r 4758 3], .arr [x r (-11935) 3, x r 20887 3]])]]), ("t", n
  48)], .obj [("i", .obj [("x", x r 667 3), ("y", n 1)]), ("o", .obj [("x", x r 333 3), ("y", n 0)]), ("s",
  .arr [.obj [("c", .bool true), ("i", .arr [.arr [n 0, n 0], .arr [x r 27865 3, x r 16917 3], .arr [n 0, n
  0], .arr [x r (-12165) 3, x r (-8332) 3]]), ("o", .arr [.arr [n 0, n 0], .arr [x r (-27864) 3, x r (-16916)
  3], .arr [n 0, n 0], .arr [x r 12081 3, x r 8407 3]]), ("v", .arr [.arr [x r 38481 3, x r 48603 3], .arr [x
  r 32531 3, x r (-12696) 3], .arr [x r (-14155) 3, x r 12504 3], .arr [x r 10144 3, x r 2981 2]])]]), ("t", n
  58)], .obj [("i", .obj [("x", x r 833 3), ("y", x r 833 3)]), ("o", .obj [("x", x r 333 3), ("y", n 0)]),
  ("s", .arr [.obj [("c", .bool true), ("i", .arr [.arr [n 0, n 0], .arr [x r 28628 3, x r 15715 3], .arr [n
  0, n 0], .arr [x r (-12539) 3, x r (-7808) 3]]), ("o", .arr [.arr [n 0, n 0], .arr [x r (-28627) 3, x r
  (-15715) 3], .arr [n 0, n 0], .arr [x r 12459 3, x r 7888 3]]), ("v", .arr [.arr [x r 12068 3, x r 37991 3],
  .arr [x r 3437 3, x r (-23103) 3], .arr [x r (-4219) 2, x r 4158 3], .arr [x r (-17114) 3, x r 20419
  3]])]]), ("t", n 70)], .obj [("i", .obj [("x", x r 667 3), ("y", n 1)]), ("o", .obj [("x", x r 167 3), ("y",
  x r 167 3)]), ("s", .arr [.obj [("c", .bool true), ("i", .arr [.arr [n 0, n 0], .arr [x r 2871 2, x r 15565
  3], .arr [n 0, n 0], .arr [x r (-1258) 2, x r (-7742) 3]]), ("o", .arr [.arr [n 0, n 0], .arr [x r (-28709)
  3, x r (-15564) 3], .arr [n 0, n 0], .arr [x r 125 1, x r 7822 3]]), ("v", .arr [.arr [x r 17339 3, x r
  38306 3], .arr [x r 8386 3, x r (-22742) 3], .arr [x r (-37096) 3, x r 4758 3], .arr [x r (-11935) 3, x r
  20887 3]])]]), ("t", n 78)], .obj [("i", .obj [("x", x r 667 3), ("y", n 1)]), ("o", .obj [("x", x r 333 3),
  ("y", n 0)]), ("s", .arr [.obj [("c", .bool true), ("i", .arr [.arr [n 0, n 0], .arr [x r 2871 2, x r 15565
  3], .arr [n 0, n 0], .arr [x r (-1258) 2, x r (-7742) 3]]), ("o", .arr [.arr [n 0, n 0], .arr [x r (-28709)
  3, x r (-15564) 3], .arr [n 0, n 0], .arr [x r 125 1, x r 7822 3]]), ("v", .arr [.arr [x r 17339 3, x r
  38306 3], .arr [x r 8386 3, x r (-22742) 3], .arr [x r (-37096) 3, x r 4758 3], .arr [x r (-11935) 3, x r
  20887 3]])]]), ("t", n 246)], .obj [("i", .obj [("x", x r 667 3), ("y", n 1)]), ("o", .obj [("x", x r 7 1),
  ("y", n 0)]), ("s", .arr [.obj [("c", .bool true), ("i", .arr [.arr [n 0, n 0], .arr [x r 26562 3, n 19],
  .arr [n 0, n 0], .arr [x r (-11525) 3, x r (-924) 2]]), ("o", .arr [.arr [n 0, n 0], .arr [x r (-26561) 3, x
  r (-18999) 3], .arr [n 0, n 0], .arr [x r 11435 3, x r 9309 3]]), ("v", .arr [.arr [x r 71055 3, x r 64468
  3], .arr [x r 6973 2, x r 2781 3], .arr [x r 21193 3, x r 24438 3], .arr [x r 44163 3, x r 43558 3]])]]),
  ("t", n 260)], .obj [("i", .obj [("x", x r 667 3), ("y", n 1)]), ("o", .obj [("x", x r 333 3), ("y", n 0)]),
  ("s", .arr [.obj [("c", .bool true), ("i", .arr [.arr [n 0, n 0], .arr [x r 28628 3, x r 15715 3], .arr [n
  0, n 0], .arr [x r (-12539) 3, x r (-7808) 3]]), ("o", .arr [.arr [n 0, n 0], .arr [x r (-28627) 3, x r
  (-15715) 3], .arr [n 0, n 0], .arr [x r 12459 3, x r 7888 3]]), ("v", .arr [.arr [x r 12068 3, x r 37991 3],
  .arr [x r 3437 3, x r (-23103) 3], .arr [x r (-4219) 2, x r 4158 3], .arr [x r (-17114) 3, x r 20419
  3]])]]), ("t", n 272)], .obj [("i", .obj [("x", x r 667 3), ("y", n 1)]), ("o", .obj [("x", x r 333 3),
  ("y", n 0)]), ("s", .arr [.obj [("c", .bool true), ("i", .arr [.arr [n 0, n 0], .arr [x r 2871 2, x r 15565
  3], .arr [n 0, n 0], .arr [x r (-1258) 2, x r (-7742) 3]]), ("o", .arr [.arr [n 0, n 0], .arr [x r (-28709)
  3, x r (-15564) 3], .arr [n 0, n 0], .arr [x r 125 1, x r 7822 3]]), ("v", .arr [.arr [x r 17339 3, x r
  38306 3], .arr [x r 8386 3, x r (-22742) 3], .arr [x r (-37096) 3, x r 4758 3], .arr [x r (-11935) 3, x r
  20887 3]])]]), ("t", n 288)], .obj [("s", .arr [.obj [("c", .bool true), ("i", .arr [.arr [n 0, n 0], .arr
  [x r 2871 2, x r 15565 3], .arr [n 0, n 0], .arr [x r (-1258) 2, x r (-7742) 3]]), ("o", .arr [.arr [n 0, n
  0], .arr [x r (-28709) 3, x r (-15564) 3], .arr [n 0, n 0], .arr [x r 125 1, x r 7822 3]]), ("v", .arr [.arr
  [x r 17339 3, x r 38306 3], .arr [x r 8386 3, x r (-22742) 3], .arr [x r (-37096) 3, x r 4758 3], .arr [x r
  (-11935) 3, x r 20887 3]])]]), ("t", n 302)]]

/-- A value in `examples/assets/google_fonts/Tiger.json`. -/
def tiger50 : Json F :=
  .obj [("c", .bool true), ("i", .arr [.arr [x r 14677 3, x r 14758 3], .arr [x r 403 3, x r 2822 3], .arr [x
  r (-242) 2, x r 15968 3], .arr [x r 375 1, x r 18387 3], .arr [n 0, n 0], .arr [n 0, n 0], .arr [n 0, n 0],
  .arr [x r 7984 3, x r (-3952) 3], .arr [x r 22339 3, x r (-31936) 3], .arr [n 0, n 0], .arr [x r 14355 3, x
  r (-5565) 3], .arr [x r 5564 3, x r (-10403) 3], .arr [x r (-4838) 3, x r (-31935) 3], .arr [x r (-3379) 2,
  x r (-20644) 3], .arr [n 0, n 0], .arr [x r (-26829) 3, x r 2301 2], .arr [n 0, n 0]]), ("o", .arr [.arr [m
  (-15), x r (-15161) 3], .arr [x r (-806) 3, x r (-5565) 3], .arr [x r 2419 3, x r (-15967) 3], .arr [x r
  (-37499) 3, x r (-18387) 3], .arr [n 0, n 0], .arr [n 0, n 0], .arr [n 0, n 0], .arr [x r (-7984) 3, x r
  4032 3], .arr [x r (-14919) 3, x r 2129 2], .arr [n 0, n 0], .arr [x r (-14354) 3, x r 5564 3], .arr [x r
  (-5646) 3, x r 10403 3], .arr [x r 4839 3, x r 31936 3], .arr [x r 36129 3, x r 22016 3], .arr [n 0, n 0],
  .arr [x r 3504 2, x r (-30052) 3], .arr [n 0, n 0]]), ("v", .arr [.arr [x r 181302 3, x r (-39232) 3], .arr
  [x r 149367 3, x r (-71167) 3], .arr [x r 156545 3, x r (-105441) 3], .arr [x r 119851 3, x r (-185198) 3],
  .arr [x r 51223 3, x r (-181246) 3], .arr [x r 27272 3, x r (-139795) 3], .arr [x r 8159 3, x r (-138182)
  3], .arr [x r (-78775) 3, x r (-130198) 3], .arr [x r (-125226) 3, x r (-91731) 3], .arr [x r (-14329) 2, x
  r (-45119) 3], .arr [x r (-179258) 3, x r (-2649) 2], .arr [x r (-20966) 2, x r (-8184) 3], .arr [x r
  (-211193) 3, x r 65202 3], .arr [x r (-149742) 3, x r 146572 3], .arr [x r (-54823) 3, x r 164878 3], .arr
  [x r 16261 3, x r 180575 3], .arr [x r 216031 3, x r (-5523) 3]])]

/-- A value in `examples/assets/google_fonts/Tiger.json`. -/
def tiger51 : Json F :=
  .obj [("c", .bool true), ("i", .arr [.arr [x r 2078 2, x r 29176 3], .arr [x r 267 3, x r 2833 3], .arr [x r
  (-319) 2, x r 15802 3], .arr [x r 3649 2, x r 20159 3], .arr [n 0, n 0], .arr [n 0, n 0], .arr [n 0, n 0],
  .arr [x r 7984 3, x r (-3952) 3], .arr [x r 22339 3, x r (-31936) 3], .arr [n 0, n 0], .arr [x r 14355 3, x
  r (-5565) 3], .arr [x r 5564 3, x r (-10403) 3], .arr [x r (-4838) 3, x r (-31935) 3], .arr [x r (-32438) 3,
  x r (-18592) 3], .arr [n 0, n 0], .arr [x r (-31526) 3, x r 8972 3], .arr [x r (-10026) 3, x r 49136 3]]),
  ("o", .arr [.arr [x r (-9837) 3, x r (-13811) 3], .arr [x r (-532) 3, x r (-5587) 3], .arr [x r 319 2, x r
  (-15801) 3], .arr [x r (-36489) 3, x r (-20159) 3], .arr [n 0, n 0], .arr [n 0, n 0], .arr [n 0, n 0], .arr
  [x r (-7984) 3, x r 4032 3], .arr [x r (-14919) 3, x r 2129 2], .arr [n 0, n 0], .arr [x r (-14354) 3, x r
  5564 3], .arr [x r (-5646) 3, x r 10403 3], .arr [x r 4839 3, x r 31936 3], .arr [x r 36753 3, x r 20897 3],
  .arr [n 0, n 0], .arr [x r 44539 3, x r (-12602) 3], .arr [x r 5449 3, x r (-26707) 3]]), ("v", .arr [.arr
  [x r 188219 3, x r (-28693) 3], .arr [x r 16598 2, x r (-61369) 3], .arr [x r 174807 3, x r (-9519) 2], .arr
  [x r 141584 3, x r (-175656) 3], .arr [x r 72972 3, x r (-175061) 3], .arr [x r 47073 3, x r (-134902) 3],
  .arr [x r 27939 3, x r (-134226) 3], .arr [x r (-74896) 3, x r (-126509) 3], .arr [x r (-121347) 3, x r
  (-88042) 3], .arr [x r (-142743) 3, x r (-35175) 3], .arr [x r (-172994) 3, x r (-18317) 3], .arr [x r
  (-201459) 3, x r 513 3], .arr [x r (-203787) 3, x r 71965 3], .arr [x r (-140005) 3, x r 152626 3], .arr [x
  r (-3334) 2, x r 169414 3], .arr [x r 54695 3, x r 181044 3], .arr [x r 236954 3, x r 60326 3]])]

/-- A value in `examples/assets/google_fonts/Tiger.json`. -/
def tiger52 : Json F :=
  .obj [("c", .bool true), ("i", .arr [.arr [x r 15556 3, x r 23301 3], .arr [x r 298 3, x r 2831 3], .arr [x
  r (-3031) 3, x r 15837 3], .arr [x r 36702 3, x r 19793 3], .arr [n 0, n 0], .arr [n 0, n 0], .arr [n 0, n
  0], .arr [x r 7984 3, x r (-3952) 3], .arr [x r 22339 3, x r (-31936) 3], .arr [n 0, n 0], .arr [x r 14355
  3, x r (-5565) 3], .arr [x r 5564 3, x r (-10403) 3], .arr [x r (-4838) 3, x r (-31935) 3], .arr [x r
  (-32752) 3, x r (-19069) 3], .arr [n 0, n 0], .arr [x r (-30434) 3, x r 12236 3], .arr [x r 3592 3, x r
  36082 3]]), ("o", .arr [.arr [x r (-11257) 3, x r (-17356) 3], .arr [x r (-596) 3, x r (-5582) 3], .arr [x r
  303 2, x r (-15836) 3], .arr [x r (-36702) 3, x r (-19792) 3], .arr [n 0, n 0], .arr [n 0, n 0], .arr [n 0,
  n 0], .arr [x r (-7984) 3, x r 4032 3], .arr [x r (-14919) 3, x r 2129 2], .arr [n 0, n 0], .arr [x r
  (-14354) 3, x r 5564 3], .arr [x r (-5646) 3, x r 10403 3], .arr [x r 4839 3, x r 31936 3], .arr [x r 36608
  3, x r 21157 3], .arr [n 0, n 0], .arr [x r 42331 3, x r (-16659) 3], .arr [x r (-329) 2, x r (-22133) 3]]),
  ("v", .arr [.arr [x r 192949 3, x r (-23858) 3], .arr [x r 162117 3, x r (-63648) 3], .arr [x r 169352 3, x
  r (-97606) 3], .arr [x r 135419 3, x r (-177952) 3], .arr [x r 66799 3, x r (-17666) 2], .arr [x r 41302 3,
  x r (-13623) 2], .arr [x r 22172 3, x r (-135359) 3], .arr [x r (-75798) 3, x r (-127367) 3], .arr [x r
  (-122249) 3, x r (-889) 1], .arr [x r (-14287) 2, x r (-37487) 3], .arr [x r (-17445) 2, x r (-20217) 3],
  .arr [x r (-203366) 3, x r (-1509) 3], .arr [x r (-205509) 3, x r 70392 3], .arr [x r (-142269) 3, x r
  151218 3], .arr [x r (-38335) 3, x r 168359 3], .arr [x r 45758 3, x r 180935 3], .arr [x r 232123 3, x r
  43013 3]])]

/-- A value in `examples/assets/google_fonts/Tiger.json`. -/
def tiger53 : Json F :=
  .obj [("c", .bool true), ("i", .arr [.arr [x r 11601 3, x r 18851 3], .arr [x r 322 3, x r 2829 3], .arr [x
  r (-291) 2, x r 15864 3], .arr [x r 36863 3, x r 19515 3], .arr [n 0, n 0], .arr [n 0, n 0], .arr [n 0, n
  0], .arr [x r 7984 3, x r (-3952) 3], .arr [x r 22339 3, x r (-31936) 3], .arr [n 0, n 0], .arr [x r 14355
  3, x r (-5565) 3], .arr [x r 5564 3, x r (-10403) 3], .arr [x r (-4838) 3, x r (-31935) 3], .arr [x r
  (-3299) 2, x r (-1943) 2], .arr [n 0, n 0], .arr [x r (-29607) 3, x r 14708 3], .arr [x r 13904 3, x r 26197
  3]]), ("o", .arr [.arr [x r (-12333) 3, x r (-20041) 3], .arr [x r (-644) 3, x r (-5578) 3], .arr [x r 2909
  3, x r (-15863) 3], .arr [x r (-36862) 3, x r (-19515) 3], .arr [n 0, n 0], .arr [n 0, n 0], .arr [n 0, n
  0], .arr [x r (-7984) 3, x r 4032 3], .arr [x r (-14919) 3, x r 2129 2], .arr [n 0, n 0], .arr [x r (-14354)
  3, x r 5564 3], .arr [x r (-5646) 3, x r 10403 3], .arr [x r 4839 3, x r 31936 3], .arr [x r 36498 3, x r
  21354 3], .arr [n 0, n 0], .arr [x r 40658 3, x r (-19732) 3], .arr [x r (-9909) 3, x r (-18669) 3]]), ("v",
  .arr [.arr [x r 192695 3, x r (-22338) 3], .arr [x r 159192 3, x r (-65373) 3], .arr [x r 165221 3, x r
  (-99436) 3], .arr [x r 130751 3, x r (-17969) 2], .arr [x r 62124 3, x r (-177871) 3], .arr [x r 36932 3, x
  r (-137236) 3], .arr [x r 17804 3, x r (-136218) 3], .arr [x r (-76481) 3, x r (-128016) 3], .arr [x r
  (-122932) 3, x r (-89549) 3], .arr [x r (-142967) 3, x r (-39238) 3], .arr [x r (-175553) 3, x r (-21657)
  3], .arr [x r (-20481) 2, x r (-304) 2], .arr [x r (-206813) 3, x r 69201 3], .arr [x r (-143984) 3, x r
  150152 3], .arr [x r (-42118) 3, x r 16756 2], .arr [x r 38991 3, x r 180852 3], .arr [x r 223994 3, x r
  29619 3]])]

/-- A value in `examples/assets/google_fonts/Tiger.json`. -/
def tiger54 : Json F :=
  .obj [("c", .bool true), ("i", .arr [.arr [x r 14971 3, x r 2416 2], .arr [x r 4 1, x r 2822 3], .arr [x r
  (-2517) 3, x r 15952 3], .arr [x r 37385 3, x r 18615 3], .arr [n 0, n 0], .arr [n 0, n 0], .arr [n 0, n 0],
  .arr [x r 7984 3, x r (-3952) 3], .arr [x r 22339 3, x r (-31936) 3], .arr [n 0, n 0], .arr [x r 14355 3, x
  r (-5565) 3], .arr [x r 5564 3, x r (-10403) 3], .arr [x r (-4838) 3, x r (-31935) 3], .arr [x r (-33763) 3,
  x r (-20604) 3], .arr [n 0, n 0], .arr [x r (-26921) 3, x r 22734 3], .arr [x r (-197) 3, x r 967 3]]),
  ("o", .arr [.arr [x r (-14756) 3, x r (-23858) 3], .arr [x r (-801) 3, x r (-5565) 3], .arr [x r 2516 3, x r
  (-15951) 3], .arr [x r (-37384) 3, x r (-18615) 3], .arr [n 0, n 0], .arr [n 0, n 0], .arr [n 0, n 0], .arr
  [x r (-7984) 3, x r 4032 3], .arr [x r (-14919) 3, x r 2129 2], .arr [n 0, n 0], .arr [x r (-14354) 3, x r
  5564 3], .arr [x r (-5646) 3, x r 10403 3], .arr [x r 4839 3, x r 31936 3], .arr [x r 36141 3, x r 21994 3],
  .arr [n 0, n 0], .arr [x r 35227 3, x r (-29709) 3], .arr [x r 107 3, x r (-525) 3]]), ("v", .arr [.arr [x r
  172851 3, x r (-29647) 3], .arr [x r 149694 3, x r (-70974) 3], .arr [x r 151807 3, x r (-105376) 3], .arr
  [x r 115592 3, x r (-185335) 3], .arr [x r 46945 3, x r (-181803) 3], .arr [x r 22743 3, x r (-140501) 3],
  .arr [x r 3621 3, x r (-139005) 3], .arr [x r (-78699) 3, x r (-130125) 3], .arr [x r (-12515) 2, x r
  (-91658) 3], .arr [x r (-143279) 3, x r (-44923) 3], .arr [x r (-179135) 3, x r (-26329) 3], .arr [x r
  (-209499) 3, x r (-8013) 3], .arr [x r (-211047) 3, x r 65335 3], .arr [x r (-14955) 2, x r 146691 3], .arr
  [x r (-544) 1, x r 164967 3], .arr [x r 17017 3, x r 180584 3], .arr [x r 201022 3, x r 16834 3]])]

/-- A value in `examples/assets/google_fonts/Tiger.json`. -/
def tiger55 : Json F :=
  .obj [("c", .bool true), ("i", .arr [.arr [x r 14855 3, x r 24059 3], .arr [x r 403 3, x r 2822 3], .arr [x
  r (-2503) 3, x r 15955 3], .arr [x r 37403 3, x r 18584 3], .arr [n 0, n 0], .arr [n 0, n 0], .arr [n 0, n
  0], .arr [x r 7984 3, x r (-3952) 3], .arr [x r 22339 3, x r (-31936) 3], .arr [n 0, n 0], .arr [x r 14355
  3, x r (-5565) 3], .arr [x r 5564 3, x r (-10403) 3], .arr [x r (-4838) 3, x r (-31935) 3], .arr [x r
  (-3379) 2, x r (-20644) 3], .arr [n 0, n 0], .arr [x r (-26829) 3, x r 2301 2], .arr [n 0, n 0]]), ("o",
  .arr [.arr [x r (-14855) 3, x r (-24059) 3], .arr [x r (-806) 3, x r (-5565) 3], .arr [x r 2503 3, x r
  (-15954) 3], .arr [x r (-37402) 3, x r (-18584) 3], .arr [n 0, n 0], .arr [n 0, n 0], .arr [n 0, n 0], .arr
  [x r (-7984) 3, x r 4032 3], .arr [x r (-14919) 3, x r 2129 2], .arr [n 0, n 0], .arr [x r (-14354) 3, x r
  5564 3], .arr [x r (-5646) 3, x r 10403 3], .arr [x r 4839 3, x r 31936 3], .arr [x r 36129 3, x r 22016 3],
  .arr [n 0, n 0], .arr [x r 3504 2, x r (-30052) 3], .arr [n 0, n 0]]), ("v", .arr [.arr [x r 173229 3, x r
  (-29748) 3], .arr [x r 149367 3, x r (-71167) 3], .arr [x r 151345 3, x r (-105581) 3], .arr [x r 115071 3,
  x r (-18553) 2], .arr [x r 46423 3, x r (-181938) 3], .arr [x r 22254 3, x r (-140613) 3], .arr [x r 3133 3,
  x r (-139101) 3], .arr [x r (-78775) 3, x r (-130198) 3], .arr [x r (-125226) 3, x r (-91731) 3], .arr [x r
  (-14329) 2, x r (-45119) 3], .arr [x r (-179258) 3, x r (-2649) 2], .arr [x r (-20966) 2, x r (-8184) 3],
  .arr [x r (-211193) 3, x r 65202 3], .arr [x r (-149742) 3, x r 146572 3], .arr [x r (-54823) 3, x r 164878
  3], .arr [x r 16261 3, x r 180575 3], .arr [x r 200617 3, x r 1397 2]])]

/-- A value in `examples/assets/google_fonts/Tiger.json`. -/
def tiger56 : Json F :=
  .obj [("c", .bool true), ("i", .arr [.arr [x r 14677 3, x r 14758 3], .arr [x r 403 3, x r 2822 3], .arr [x
  r (-242) 2, x r 15968 3], .arr [x r 375 1, x r 18387 3], .arr [n 0, n 0], .arr [n 0, n 0], .arr [n 0, n 0],
  .arr [x r 7984 3, x r (-3952) 3], .arr [x r 22339 3, x r (-31936) 3], .arr [n 0, n 0], .arr [x r 14355 3, x
  r (-5565) 3], .arr [x r 5564 3, x r (-10403) 3], .arr [x r (-4838) 3, x r (-31935) 3], .arr [x r (-3379) 2,
  x r (-20644) 3], .arr [n 0, n 0], .arr [x r (-3516) 2, x r (-3615) 3], .arr [x r 25338 3, x r 62886 3]]),
  ("o", .arr [.arr [m (-15), x r (-15161) 3], .arr [x r (-806) 3, x r (-5565) 3], .arr [x r 2419 3, x r
  (-15967) 3], .arr [x r (-37499) 3, x r (-18387) 3], .arr [n 0, n 0], .arr [n 0, n 0], .arr [n 0, n 0], .arr
  [x r (-7984) 3, x r 4032 3], .arr [x r (-14919) 3, x r 2129 2], .arr [n 0, n 0], .arr [x r (-14354) 3, x r
  5564 3], .arr [x r (-5646) 3, x r 10403 3], .arr [x r 4839 3, x r 31936 3], .arr [x r 36129 3, x r 22016 3],
  .arr [n 0, n 0], .arr [x r 54927 3, x r 5647 3], .arr [x r (-25338) 3, x r (-62886) 3]]), ("v", .arr [.arr
  [x r 181302 3, x r (-39232) 3], .arr [x r 149367 3, x r (-71167) 3], .arr [x r 156545 3, x r (-105441) 3],
  .arr [x r 119851 3, x r (-185198) 3], .arr [x r 51223 3, x r (-181246) 3], .arr [x r 27272 3, x r (-139795)
  3], .arr [x r 8159 3, x r (-138182) 3], .arr [x r (-78775) 3, x r (-130198) 3], .arr [x r (-125226) 3, x r
  (-91731) 3], .arr [x r (-14329) 2, x r (-45119) 3], .arr [x r (-179258) 3, x r (-2649) 2], .arr [x r
  (-20966) 2, x r (-8184) 3], .arr [x r (-211193) 3, x r 65202 3], .arr [x r (-149742) 3, x r 146572 3], .arr
  [x r (-54823) 3, x r 164878 3], .arr [x r 16261 3, x r 180575 3], .arr [x r 223194 3, x r 40115 3]])]

/-- A value in `examples/assets/google_fonts/Tiger.json`. -/
def tiger57 : Json F :=
  .obj [("c", .bool true), ("i", .arr [.arr [x r 14677 3, x r 14758 3], .arr [x r 403 3, x r 2822 3], .arr [x
  r (-242) 2, x r 15968 3], .arr [x r 375 1, x r 18387 3], .arr [n 0, n 0], .arr [n 0, n 0], .arr [n 0, n 0],
  .arr [x r 7984 3, x r (-3952) 3], .arr [x r 22339 3, x r (-31936) 3], .arr [n 0, n 0], .arr [x r 14355 3, x
  r (-5565) 3], .arr [x r 5564 3, x r (-10403) 3], .arr [x r (-4838) 3, x r (-31935) 3], .arr [x r (-3379) 2,
  x r (-20644) 3], .arr [n 0, n 0], .arr [x r (-34504) 3, x r 7665 3], .arr [x r (-16533) 3, x r 81027 3]]),
  ("o", .arr [.arr [m (-15), x r (-15161) 3], .arr [x r (-806) 3, x r (-5565) 3], .arr [x r 2419 3, x r
  (-15967) 3], .arr [x r (-37499) 3, x r (-18387) 3], .arr [n 0, n 0], .arr [n 0, n 0], .arr [n 0, n 0], .arr
  [x r (-7984) 3, x r 4032 3], .arr [x r (-14919) 3, x r 2129 2], .arr [n 0, n 0], .arr [x r (-14354) 3, x r
  5564 3], .arr [x r (-5646) 3, x r 10403 3], .arr [x r 4839 3, x r 31936 3], .arr [x r 36129 3, x r 22016 3],
  .arr [n 0, n 0], .arr [x r 49405 3, x r (-10976) 3], .arr [x r 8986 3, x r (-44042) 3]]), ("v", .arr [.arr
  [x r 175647 3, x r (-51961) 3], .arr [x r 149367 3, x r (-71167) 3], .arr [x r 156545 3, x r (-105441) 3],
  .arr [x r 119851 3, x r (-185198) 3], .arr [x r 51223 3, x r (-181246) 3], .arr [x r 27272 3, x r (-139795)
  3], .arr [x r 8159 3, x r (-138182) 3], .arr [x r (-78775) 3, x r (-130198) 3], .arr [x r (-125226) 3, x r
  (-91731) 3], .arr [x r (-14329) 2, x r (-45119) 3], .arr [x r (-179258) 3, x r (-2649) 2], .arr [x r
  (-20966) 2, x r (-8184) 3], .arr [x r (-211193) 3, x r 65202 3], .arr [x r (-149742) 3, x r 146572 3], .arr
  [x r (-54823) 3, x r 164878 3], .arr [x r 16261 3, x r 180575 3], .arr [x r 194658 3, x r 35779 3]])]

/-- A value in `examples/assets/google_fonts/Tiger.json`. -/
def tiger58 : Json F :=
  .obj [("c", .bool true), ("i", .arr [.arr [x r 14677 3, x r 14758 3], .arr [x r 403 3, x r 2822 3], .arr [x
  r (-242) 2, x r 15968 3], .arr [x r 375 1, x r 18387 3], .arr [n 0, n 0], .arr [n 0, n 0], .arr [n 0, n 0],
  .arr [x r 7984 3, x r (-3952) 3], .arr [x r 22339 3, x r (-31936) 3], .arr [n 0, n 0], .arr [x r 14355 3, x
  r (-5565) 3], .arr [x r 5564 3, x r (-10403) 3], .arr [x r (-4838) 3, x r (-31935) 3], .arr [x r (-3379) 2,
  x r (-20644) 3], .arr [n 0, n 0], .arr [x r (-34504) 3, x r 7665 3], .arr [x r (-16533) 3, x r 81027 3]]),
  ("o", .arr [.arr [m (-15), x r (-15161) 3], .arr [x r (-806) 3, x r (-5565) 3], .arr [x r 2419 3, x r
  (-15967) 3], .arr [x r (-37499) 3, x r (-18387) 3], .arr [n 0, n 0], .arr [n 0, n 0], .arr [n 0, n 0], .arr
  [x r (-7984) 3, x r 4032 3], .arr [x r (-14919) 3, x r 2129 2], .arr [n 0, n 0], .arr [x r (-14354) 3, x r
  5564 3], .arr [x r (-5646) 3, x r 10403 3], .arr [x r 4839 3, x r 31936 3], .arr [x r 36129 3, x r 22016 3],
  .arr [n 0, n 0], .arr [x r 49405 3, x r (-10976) 3], .arr [x r 8986 3, x r (-44042) 3]]), ("v", .arr [.arr
  [x r 175647 3, x r (-51961) 3], .arr [x r 149367 3, x r (-71167) 3], .arr [x r 156545 3, x r (-105441) 3],
  .arr [x r 119851 3, x r (-185198) 3], .arr [x r 51223 3, x r (-181246) 3], .arr [x r 27272 3, x r (-139795)
  3], .arr [x r 8159 3, x r (-138182) 3], .arr [x r (-78775) 3, x r (-130198) 3], .arr [x r (-125226) 3, x r
  (-91731) 3], .arr [x r (-14329) 2, x r (-45119) 3], .arr [x r (-179258) 3, x r (-2649) 2], .arr [x r
  (-20966) 2, x r (-8184) 3], .arr [x r (-211193) 3, x r 65202 3], .arr [x r (-149742) 3, x r 146572 3], .arr
  [x r (-54823) 3, x r 164878 3], .arr [x r 16261 3, x r 180575 3], .arr [x r 194658 3, x r 35779 3]])]

/-- A value in `examples/assets/google_fonts/Tiger.json`. -/
def tiger59 : Json F :=
  .obj [("c", .bool true), ("i", .arr [.arr [x r 14435 3, x r 31084 3], .arr [x r 267 3, x r 2833 3], .arr [x
  r (-319) 2, x r 15802 3], .arr [x r 3649 2, x r 20159 3], .arr [n 0, n 0], .arr [n 0, n 0], .arr [n 0, n 0],
  .arr [x r 7984 3, x r (-3952) 3], .arr [x r 22339 3, x r (-31936) 3], .arr [n 0, n 0], .arr [x r 14355 3, x
  r (-5565) 3], .arr [x r 5564 3, x r (-10403) 3], .arr [x r (-4838) 3, x r (-31935) 3], .arr [x r (-32438) 3,
  x r (-18592) 3], .arr [n 0, n 0], .arr [x r (-31526) 3, x r 8972 3], .arr [x r (-10026) 3, x r 49136 3]]),
  ("o", .arr [.arr [x r (-7142) 3, x r (-15379) 3], .arr [x r (-532) 3, x r (-5587) 3], .arr [x r 319 2, x r
  (-15801) 3], .arr [x r (-36489) 3, x r (-20159) 3], .arr [n 0, n 0], .arr [n 0, n 0], .arr [n 0, n 0], .arr
  [x r (-7984) 3, x r 4032 3], .arr [x r (-14919) 3, x r 2129 2], .arr [n 0, n 0], .arr [x r (-14354) 3, x r
  5564 3], .arr [x r (-5646) 3, x r 10403 3], .arr [x r 4839 3, x r 31936 3], .arr [x r 36753 3, x r 20897 3],
  .arr [n 0, n 0], .arr [x r 44539 3, x r (-12602) 3], .arr [x r 5449 3, x r (-26707) 3]]), ("v", .arr [.arr
  [x r 188219 3, x r (-28693) 3], .arr [x r 16598 2, x r (-61369) 3], .arr [x r 174807 3, x r (-9519) 2], .arr
  [x r 141584 3, x r (-175656) 3], .arr [x r 72972 3, x r (-175061) 3], .arr [x r 47073 3, x r (-134902) 3],
  .arr [x r 27939 3, x r (-134226) 3], .arr [x r (-74896) 3, x r (-126509) 3], .arr [x r (-121347) 3, x r
  (-88042) 3], .arr [x r (-142743) 3, x r (-35175) 3], .arr [x r (-172994) 3, x r (-18317) 3], .arr [x r
  (-201459) 3, x r 513 3], .arr [x r (-203787) 3, x r 71965 3], .arr [x r (-140005) 3, x r 152626 3], .arr [x
  r (-3334) 2, x r 169414 3], .arr [x r 93491 3, x r 203657 3], .arr [x r 213132 3, x r 59439 3]])]

/-- A value in `examples/assets/google_fonts/Tiger.json`. -/
def tiger60 : Json F :=
  .obj [("c", .bool true), ("i", .arr [.arr [x r 9121 3, x r 208 1], .arr [x r 56 3, x r 285 2], .arr [x r
  (-4378) 3, x r 15546 3], .arr [x r 34935 3, x r 22889 3], .arr [n 0, n 0], .arr [n 0, n 0], .arr [n 0, n 0],
  .arr [x r 7984 3, x r (-3952) 3], .arr [x r 22339 3, x r (-31936) 3], .arr [n 0, n 0], .arr [x r 14355 3, x
  r (-5565) 3], .arr [x r 5564 3, x r (-10403) 3], .arr [x r (-4838) 3, x r (-31935) 3], .arr [x r (-30354) 3,
  x r (-1543) 2], .arr [n 0, n 0], .arr [x r (-26939) 3, x r 10986 3], .arr [n 0, n 0]]), ("o", .arr [.arr [x
  r (-7604) 3, x r (-19102) 3], .arr [x r (-111) 3, x r (-5622) 3], .arr [x r 4377 3, x r (-15545) 3], .arr [x
  r (-34934) 3, x r (-22888) 3], .arr [n 0, n 0], .arr [n 0, n 0], .arr [n 0, n 0], .arr [x r (-7984) 3, x r
  4032 3], .arr [x r (-14919) 3, x r 2129 2], .arr [n 0, n 0], .arr [x r (-14354) 3, x r 5564 3], .arr [x r
  (-5646) 3, x r 10403 3], .arr [x r 4839 3, x r 31936 3], .arr [x r 37715 3, x r 19172 3], .arr [n 0, n 0],
  .arr [x r 37042 3, x r (-15107) 3], .arr [n 0, n 0]]), ("v", .arr [.arr [x r 207719 3, x r (-9886) 3], .arr
  [x r 191577 3, x r (-46274) 3], .arr [x r 202944 3, x r (-79395) 3], .arr [x r 17507 2, x r (-160955) 3],
  .arr [x r 10648 2, x r (-165531) 3], .arr [x r 77581 3, x r (-127364) 3], .arr [x r 58416 3, x r (-12813)
  2], .arr [x r (-68918) 3, x r (-120825) 3], .arr [x r (-115369) 3, x r (-82358) 3], .arr [x r (-1419) 1, x r
  (-19854) 3], .arr [x r (-163342) 3, x r (-5725) 3], .arr [x r (-188822) 3, x r 13913 3], .arr [x r (-192377)
  3, x r 82384 3], .arr [x r (-125004) 3, x r 161954 3], .arr [x r (-241) 3, x r 176402 3], .arr [x r 83532 3,
  x r 162111 3], .arr [x r 229599 3, x r 29896 3]])]

/-- A value in `examples/assets/google_fonts/Tiger.json`. -/
def tiger61 : Json F :=
  .obj [("c", .bool true), ("i", .arr [.arr [x r 14677 3, x r 14758 3], .arr [x r 403 3, x r 2822 3], .arr [x
  r (-2503) 3, x r 15955 3], .arr [x r 37403 3, x r 18584 3], .arr [n 0, n 0], .arr [n 0, n 0], .arr [n 0, n
  0], .arr [x r 7984 3, x r (-3952) 3], .arr [x r 22339 3, x r (-31936) 3], .arr [n 0, n 0], .arr [x r 14355
  3, x r (-5565) 3], .arr [x r 5564 3, x r (-10403) 3], .arr [x r (-4838) 3, x r (-31935) 3], .arr [x r
  (-3379) 2, x r (-20644) 3], .arr [n 0, n 0], .arr [x r (-26829) 3, x r 2301 2], .arr [n 0, n 0]]), ("o",
  .arr [.arr [m (-15), x r (-15161) 3], .arr [x r (-806) 3, x r (-5565) 3], .arr [x r 2503 3, x r (-15954) 3],
  .arr [x r (-37402) 3, x r (-18584) 3], .arr [n 0, n 0], .arr [n 0, n 0], .arr [n 0, n 0], .arr [x r (-7984)
  3, x r 4032 3], .arr [x r (-14919) 3, x r 2129 2], .arr [n 0, n 0], .arr [x r (-14354) 3, x r 5564 3], .arr
  [x r (-5646) 3, x r 10403 3], .arr [x r 4839 3, x r 31936 3], .arr [x r 36129 3, x r 22016 3], .arr [n 0, n
  0], .arr [x r 3504 2, x r (-30052) 3], .arr [n 0, n 0]]), ("v", .arr [.arr [x r 181302 3, x r (-39232) 3],
  .arr [x r 149367 3, x r (-71167) 3], .arr [x r 151345 3, x r (-105581) 3], .arr [x r 115071 3, x r (-18553)
  2], .arr [x r 46423 3, x r (-181938) 3], .arr [x r 22254 3, x r (-140613) 3], .arr [x r 3133 3, x r
  (-139101) 3], .arr [x r (-78775) 3, x r (-130198) 3], .arr [x r (-125226) 3, x r (-91731) 3], .arr [x r
  (-14329) 2, x r (-45119) 3], .arr [x r (-179258) 3, x r (-2649) 2], .arr [x r (-20966) 2, x r (-8184) 3],
  .arr [x r (-211193) 3, x r 65202 3], .arr [x r (-149742) 3, x r 146572 3], .arr [x r (-54823) 3, x r 164878
  3], .arr [x r 16261 3, x r 180575 3], .arr [x r 216031 3, x r (-5523) 3]])]

/-- A value in `examples/assets/google_fonts/Tiger.json`. -/
def tiger62 : Json F :=
  .obj [("c", .bool true), ("i", .arr [.arr [x r 14677 3, x r 14758 3], .arr [x r 403 3, x r 2822 3], .arr [x
  r (-242) 2, x r 15968 3], .arr [x r 375 1, x r 18387 3], .arr [n 0, n 0], .arr [n 0, n 0], .arr [n 0, n 0],
  .arr [x r 7984 3, x r (-3952) 3], .arr [x r 22339 3, x r (-31936) 3], .arr [n 0, n 0], .arr [x r 14355 3, x
  r (-5565) 3], .arr [x r 5564 3, x r (-10403) 3], .arr [x r (-4838) 3, x r (-31935) 3], .arr [x r (-3379) 2,
  x r (-20644) 3], .arr [n 0, n 0], .arr [x r (-26829) 3, x r 2301 2], .arr [n 0, n 0]]), ("o", .arr [.arr [m
  (-15), x r (-15161) 3], .arr [x r (-806) 3, x r (-5565) 3], .arr [x r 2419 3, x r (-15967) 3], .arr [x r
  (-37499) 3, x r (-18387) 3], .arr [n 0, n 0], .arr [n 0, n 0], .arr [n 0, n 0], .arr [x r (-7984) 3, x r
  4032 3], .arr [x r (-14919) 3, x r 2129 2], .arr [n 0, n 0], .arr [x r (-14354) 3, x r 5564 3], .arr [x r
  (-5646) 3, x r 10403 3], .arr [x r 4839 3, x r 31936 3], .arr [x r 36129 3, x r 22016 3], .arr [n 0, n 0],
  .arr [x r 3504 2, x r (-30052) 3], .arr [n 0, n 0]]), ("v", .arr [.arr [x r 181302 3, x r (-39232) 3], .arr
  [x r 149367 3, x r (-71167) 3], .arr [x r 156545 3, x r (-105441) 3], .arr [x r 119851 3, x r (-185198) 3],
  .arr [x r 51223 3, x r (-181246) 3], .arr [x r 27272 3, x r (-139795) 3], .arr [x r 8159 3, x r (-138182)
  3], .arr [x r (-78775) 3, x r (-130198) 3], .arr [x r (-125226) 3, x r (-91731) 3], .arr [x r (-14329) 2, x
  r (-45119) 3], .arr [x r (-179258) 3, x r (-2649) 2], .arr [x r (-20966) 2, x r (-8184) 3], .arr [x r
  (-211193) 3, x r 65202 3], .arr [x r (-149742) 3, x r 146572 3], .arr [x r (-54823) 3, x r 164878 3], .arr
  [x r 14262 3, x r 180645 3], .arr [x r 216031 3, x r (-5523) 3]])]

/-- A value in `examples/assets/google_fonts/Tiger.json`. -/
def tiger63 : Json F :=
  .obj [("c", .bool true), ("i", .arr [.arr [x r 14677 3, x r 14758 3], .arr [x r 403 3, x r 2822 3], .arr [x
  r (-242) 2, x r 15968 3], .arr [x r 375 1, x r 18387 3], .arr [n 0, n 0], .arr [n 0, n 0], .arr [n 0, n 0],
  .arr [x r 7984 3, x r (-3952) 3], .arr [x r 22339 3, x r (-31936) 3], .arr [n 0, n 0], .arr [x r 14355 3, x
  r (-5565) 3], .arr [x r 5564 3, x r (-10403) 3], .arr [x r (-4838) 3, x r (-31935) 3], .arr [x r (-3379) 2,
  x r (-20644) 3], .arr [n 0, n 0], .arr [x r (-26829) 3, x r 2301 2], .arr [n 0, n 0]]), ("o", .arr [.arr [m
  (-15), x r (-15161) 3], .arr [x r (-806) 3, x r (-5565) 3], .arr [x r 2419 3, x r (-15967) 3], .arr [x r
  (-37499) 3, x r (-18387) 3], .arr [n 0, n 0], .arr [n 0, n 0], .arr [n 0, n 0], .arr [x r (-7984) 3, x r
  4032 3], .arr [x r (-14919) 3, x r 2129 2], .arr [n 0, n 0], .arr [x r (-14354) 3, x r 5564 3], .arr [x r
  (-5646) 3, x r 10403 3], .arr [x r 4839 3, x r 31936 3], .arr [x r 36129 3, x r 22016 3], .arr [n 0, n 0],
  .arr [x r 3504 2, x r (-30052) 3], .arr [n 0, n 0]]), ("v", .arr [.arr [x r 181302 3, x r (-39232) 3], .arr
  [x r 149367 3, x r (-71167) 3], .arr [x r 156545 3, x r (-105441) 3], .arr [x r 119851 3, x r (-185198) 3],
  .arr [x r 51223 3, x r (-181246) 3], .arr [x r 27272 3, x r (-139795) 3], .arr [x r 8159 3, x r (-138182)
  3], .arr [x r (-78775) 3, x r (-130198) 3], .arr [x r (-125226) 3, x r (-91731) 3], .arr [x r (-14329) 2, x
  r (-45119) 3], .arr [x r (-179258) 3, x r (-2649) 2], .arr [x r (-20966) 2, x r (-8184) 3], .arr [x r
  (-211193) 3, x r 65202 3], .arr [x r (-149742) 3, x r 146572 3], .arr [x r (-54823) 3, x r 164878 3], .arr
  [x r 16261 3, x r 180575 3], .arr [x r 216031 3, x r (-5523) 3]])]

/-- A value in `examples/assets/google_fonts/Tiger.json`. -/
def tiger64 : Json F :=
  .arr [.obj [("i", .obj [("x", x r 667 3), ("y", n 1)]), ("o", .obj [("x", x r 167 3), ("y", x r 167 3)]),
  ("s", .arr [tiger50 r]), ("t", n 48)], .obj [("i", .obj [("x", x r 833 3), ("y", x r 833 3)]), ("o", .obj
  [("x", x r 333 3), ("y", n 0)]), ("s", .arr [tiger51 r]), ("t", n 58)], .obj [("i", .obj [("x", x r 833 3),
  ("y", x r 833 3)]), ("o", .obj [("x", x r 167 3), ("y", x r 167 3)]), ("s", .arr [tiger52 r]), ("t", n 62)],
  .obj [("i", .obj [("x", x r 833 3), ("y", x r 833 3)]), ("o", .obj [("x", x r 167 3), ("y", x r 167 3)]),
  ("s", .arr [tiger53 r]), ("t", n 64)], .obj [("i", .obj [("x", x r 667 3), ("y", n 1)]), ("o", .obj [("x", x
  r 167 3), ("y", x r 167 3)]), ("s", .arr [tiger54 r]), ("t", n 69)], .obj [("i", .obj [("x", x r 833 3),
  ("y", x r 833 3)]), ("o", .obj [("x", x r 333 3), ("y", n 0)]), ("s", .arr [tiger55 r]), ("t", n 70)], .obj
  [("i", .obj [("x", x r 667 3), ("y", n 1)]), ("o", .obj [("x", x r 167 3), ("y", x r 167 3)]), ("s", .arr
  [tiger56 r]), ("t", n 78)], .obj [("i", .obj [("x", x r 667 3), ("y", n 1)]), ("o", .obj [("x", x r 333 3),
  ("y", n 0)]), ("s", .arr [tiger57 r]), ("t", n 92)], .obj [("i", .obj [("x", x r 833 3), ("y", x r 833 3)]),
  ("o", .obj [("x", x r 333 3), ("y", n 0)]), ("s", .arr [tiger58 r]), ("t", n 246)], .obj [("i", .obj [("x",
  x r 667 3), ("y", n 1)]), ("o", .obj [("x", x r 167 3), ("y", x r 167 3)]), ("s", .arr [tiger59 r]), ("t", n
  252)], .obj [("i", .obj [("x", x r 667 3), ("y", n 1)]), ("o", .obj [("x", x r 7 1), ("y", n 0)]), ("s",
  .arr [tiger60 r]), ("t", n 260)], .obj [("i", .obj [("x", x r 667 3), ("y", n 1)]), ("o", .obj [("x", x r
  333 3), ("y", n 0)]), ("s", .arr [tiger61 r]), ("t", n 272)], .obj [("i", .obj [("x", x r 667 3), ("y", n
  1)]), ("o", .obj [("x", x r 333 3), ("y", n 0)]), ("s", .arr [tiger62 r]), ("t", n 288)], .obj [("s", .arr
  [tiger63 r]), ("t", n 302)]]

/-- A value in `examples/assets/google_fonts/Tiger.json`. -/
def tiger65 : Json F :=
  .arr [.obj [("i", .obj [("x", x r 667 3), ("y", n 1)]), ("o", .obj [("x", x r 167 3), ("y", x r 167 3)]),
  ("s", .arr [.obj [("c", .bool true), ("i", .arr [.arr [n 0, n 0], .arr [x r (-43951) 3, x r 9597 3], .arr [n
  0, n 0], .arr [n 0, n 0]]), ("o", .arr [.arr [n 0, n 0], .arr [x r 47822 3, x r (-10402) 3], .arr [n 0, n
  0], .arr [n 0, n 0]]), ("v", .arr [.arr [x r (-52176) 3, x r 3637 2], .arr [x r (-992) 2, x r (-33065) 3],
  .arr [x r 5387 2, x r 9193 3], .arr [x r 26773 3, x r 43467 3]])]]), ("t", n 48)], .obj [("i", .obj [("x", x
  r 667 3), ("y", n 1)]), ("o", .obj [("x", x r 333 3), ("y", n 0)]), ("s", .arr [.obj [("c", .bool true),
  ("i", .arr [.arr [n 0, n 0], .arr [x r (-44356) 3, x r 6125 3], .arr [n 0, n 0], .arr [n 0, n 0]]), ("o",
  .arr [.arr [n 0, n 0], .arr [x r 48259 3, x r (-664) 2], .arr [n 0, n 0], .arr [n 0, n 0]]), ("v", .arr
  [.arr [x r (-50697) 3, x r 37525 3], .arr [x r (-2803) 3, x r (-30242) 3], .arr [x r 56988 3, x r 18676 3],
  .arr [x r 9498 3, x r 476 1]])]]), ("t", n 58)], .obj [("i", .obj [("x", x r 833 3), ("y", x r 833 3)]),
  ("o", .obj [("x", x r 333 3), ("y", n 0)]), ("s", .arr [.obj [("c", .bool true), ("i", .arr [.arr [n 0, n
  0], .arr [x r (-43951) 3, x r 9597 3], .arr [n 0, n 0], .arr [n 0, n 0]]), ("o", .arr [.arr [n 0, n 0], .arr
  [x r 47822 3, x r (-10402) 3], .arr [n 0, n 0], .arr [n 0, n 0]]), ("v", .arr [.arr [x r (-30278) 3, x r
  3849 2], .arr [x r 11979 3, x r (-30945) 3], .arr [x r 77785 3, x r 11531 3], .arr [x r 48672 3, x r 45587
  3]])]]), ("t", n 70)], .obj [("i", .obj [("x", x r 667 3), ("y", n 1)]), ("o", .obj [("x", x r 167 3), ("y",
  x r 167 3)]), ("s", .arr [.obj [("c", .bool true), ("i", .arr [.arr [n 0, n 0], .arr [x r (-43951) 3, x r
  9597 3], .arr [n 0, n 0], .arr [n 0, n 0]]), ("o", .arr [.arr [n 0, n 0], .arr [x r 47822 3, x r (-10402)
  3], .arr [n 0, n 0], .arr [n 0, n 0]]), ("v", .arr [.arr [x r (-52176) 3, x r 3637 2], .arr [x r (-992) 2, x
  r (-33065) 3], .arr [x r 5387 2, x r 9193 3], .arr [x r 26773 3, x r 43467 3]])]]), ("t", n 78)], .obj
  [("i", .obj [("x", x r 667 3), ("y", n 1)]), ("o", .obj [("x", x r 333 3), ("y", n 0)]), ("s", .arr [.obj
  [("c", .bool true), ("i", .arr [.arr [n 0, n 0], .arr [x r (-43951) 3, x r 9597 3], .arr [n 0, n 0], .arr [n
  0, n 0]]), ("o", .arr [.arr [n 0, n 0], .arr [x r 47822 3, x r (-10402) 3], .arr [n 0, n 0], .arr [n 0, n
  0]]), ("v", .arr [.arr [x r (-52176) 3, x r 3637 2], .arr [x r (-992) 2, x r (-33065) 3], .arr [x r 5387 2,
  x r 9193 3], .arr [x r 26773 3, x r 43467 3]])]]), ("t", n 246)], .obj [("i", .obj [("x", x r 667 3), ("y",
  n 1)]), ("o", .obj [("x", x r 7 1), ("y", n 0)]), ("s", .arr [.obj [("c", .bool true), ("i", .arr [.arr [n
  0, n 0], .arr [x r (-4498) 2, x r 776 3], .arr [n 0, n 0], .arr [n 0, n 0]]), ("o", .arr [.arr [n 0, n 0],
  .arr [x r 48933 3, x r (-845) 3], .arr [n 0, n 0], .arr [n 0, n 0]]), ("v", .arr [.arr [x r (-48419) 3, x r
  39304 3], .arr [x r 8161 3, x r (-25891) 3], .arr [x r 6179 2, x r 33286 3], .arr [x r (-17119) 3, x r 53969
  3]])]]), ("t", n 260)], .obj [("i", .obj [("x", x r 667 3), ("y", n 1)]), ("o", .obj [("x", x r 333 3),
  ("y", n 0)]), ("s", .arr [.obj [("c", .bool true), ("i", .arr [.arr [n 0, n 0], .arr [x r (-43951) 3, x r
  9597 3], .arr [n 0, n 0], .arr [n 0, n 0]]), ("o", .arr [.arr [n 0, n 0], .arr [x r 47822 3, x r (-10402)
  3], .arr [n 0, n 0], .arr [n 0, n 0]]), ("v", .arr [.arr [x r (-30278) 3, x r 3849 2], .arr [x r 11979 3, x
  r (-30945) 3], .arr [x r 77785 3, x r 11531 3], .arr [x r 48672 3, x r 45587 3]])]]), ("t", n 272)], .obj
  [("i", .obj [("x", x r 667 3), ("y", n 1)]), ("o", .obj [("x", x r 333 3), ("y", n 0)]), ("s", .arr [.obj
  [("c", .bool true), ("i", .arr [.arr [n 0, n 0], .arr [x r (-43951) 3, x r 9597 3], .arr [n 0, n 0], .arr [n
  0, n 0]]), ("o", .arr [.arr [n 0, n 0], .arr [x r 47822 3, x r (-10402) 3], .arr [n 0, n 0], .arr [n 0, n
  0]]), ("v", .arr [.arr [x r (-52176) 3, x r 3637 2], .arr [x r (-992) 2, x r (-33065) 3], .arr [x r 5387 2,
  x r 9193 3], .arr [x r 26773 3, x r 43467 3]])]]), ("t", n 288)], .obj [("s", .arr [.obj [("c", .bool true),
  ("i", .arr [.arr [n 0, n 0], .arr [x r (-43951) 3, x r 9597 3], .arr [n 0, n 0], .arr [n 0, n 0]]), ("o",
  .arr [.arr [n 0, n 0], .arr [x r 47822 3, x r (-10402) 3], .arr [n 0, n 0], .arr [n 0, n 0]]), ("v", .arr
  [.arr [x r (-52176) 3, x r 3637 2], .arr [x r (-992) 2, x r (-33065) 3], .arr [x r 5387 2, x r 9193 3], .arr
  [x r 26773 3, x r 43467 3]])]]), ("t", n 302)]]

/-- A value in `examples/assets/google_fonts/Tiger.json`. -/
def tiger66 : Json F :=
  .arr [.obj [("bm", n 0), ("cix", n 2), ("hd", .bool false), ("it", .arr [.obj [("hd", .bool false), ("ind",
  n 0), ("ix", n 1), ("ks", .obj [("a", n 1), ("ix", n 2), ("k", tiger30 r)]), ("mn", .str
  "ADBE Vector Shape - Group"), ("nm", .str "Path 1"), ("ty", .str "sh")], .obj [("bm", n 0), ("c", .obj
  [("a", n 0), ("ix", n 4), ("k", .arr [x r 195999998205 12, x r 2 1, x r 195999998205 12, n 1])]), ("hd",
  .bool false), ("mn", .str "ADBE Vector Graphic - Fill"), ("nm", .str "Fill 1"), ("o", .obj [("a", n 0),
  ("ix", n 5), ("k", n 100)]), ("r", n 1), ("ty", .str "fl")], .obj [("a", .obj [("a", n 0), ("ix", n 1),
  ("k", .arr [n 0, n 0])]), ("nm", .str "Transform"), ("o", .obj [("a", n 1), ("ix", n 7), ("k", .arr [.obj
  [("h", n 1), ("s", .arr [n 0]), ("t", n 0)], .obj [("h", n 1), ("s", .arr [n 100]), ("t", n 252)], .obj
  [("h", n 1), ("s", .arr [n 0]), ("t", n 268)]])]), ("p", .obj [("a", n 0), ("ix", n 2), ("k", .arr [n 0, n
  0])]), ("r", .obj [("a", n 0), ("ix", n 6), ("k", n 0)]), ("s", .obj [("a", n 0), ("ix", n 3), ("k", .arr [n
  100, n 100])]), ("sa", .obj [("a", n 0), ("ix", n 5), ("k", n 0)]), ("sk", .obj [("a", n 0), ("ix", n 4),
  ("k", n 0)]), ("ty", .str "tr")]]), ("ix", n 1), ("mn", .str "ADBE Vector Group"), ("nm", .str "Shape 2"),
  ("np", n 3), ("ty", .str "gr")], .obj [("bm", n 0), ("cix", n 2), ("hd", .bool false), ("it", .arr [.obj
  [("hd", .bool false), ("ind", n 0), ("ix", n 1), ("ks", .obj [("a", n 1), ("ix", n 2), ("k", tiger31 r)]),
  ("mn", .str "ADBE Vector Shape - Group"), ("nm", .str "Path 1"), ("ty", .str "sh")], .obj [("bm", n 0),
  ("c", .obj [("a", n 0), ("ix", n 4), ("k", .arr [x r 195999998205 12, x r 2 1, x r 195999998205 12, n 1])]),
  ("hd", .bool false), ("mn", .str "ADBE Vector Graphic - Fill"), ("nm", .str "Fill 1"), ("o", .obj [("a", n
  0), ("ix", n 5), ("k", n 100)]), ("r", n 1), ("ty", .str "fl")], .obj [("a", .obj [("a", n 0), ("ix", n 1),
  ("k", .arr [n 0, n 0])]), ("nm", .str "Transform"), ("o", .obj [("a", n 1), ("ix", n 7), ("k", .arr [.obj
  [("h", n 1), ("s", .arr [n 0]), ("t", n 0)], .obj [("h", n 1), ("s", .arr [n 100]), ("t", n 252)], .obj
  [("h", n 1), ("s", .arr [n 0]), ("t", n 268)]])]), ("p", .obj [("a", n 0), ("ix", n 2), ("k", .arr [n 0, n
  0])]), ("r", .obj [("a", n 0), ("ix", n 6), ("k", n 0)]), ("s", .obj [("a", n 0), ("ix", n 3), ("k", .arr [n
  100, n 100])]), ("sa", .obj [("a", n 0), ("ix", n 5), ("k", n 0)]), ("sk", .obj [("a", n 0), ("ix", n 4),
  ("k", n 0)]), ("ty", .str "tr")]]), ("ix", n 2), ("mn", .str "ADBE Vector Group"), ("nm", .str "Shape 1"),
  ("np", n 3), ("ty", .str "gr")], .obj [("bm", n 0), ("cix", n 2), ("hd", .bool false), ("it", .arr [.obj
  [("hd", .bool false), ("ind", n 0), ("ix", n 1), ("ks", .obj [("a", n 1), ("ix", n 2), ("k", tiger32 r)]),
  ("mn", .str "ADBE Vector Shape - Group"), ("nm", .str "Path 1"), ("ty", .str "sh")], .obj [("bm", n 0),
  ("c", .obj [("a", n 0), ("ix", n 4), ("k", .arr [x r 2 1, x r 19199999641 11, x r 184000007779 12, n 1])]),
  ("hd", .bool false), ("mn", .str "ADBE Vector Graphic - Fill"), ("nm", .str "Fill 1"), ("o", .obj [("a", n
  0), ("ix", n 5), ("k", n 100)]), ("r", n 1), ("ty", .str "fl")], .obj [("a", .obj [("a", n 0), ("ix", n 1),
  ("k", .arr [n 0, n 0])]), ("nm", .str "Transform"), ("o", .obj [("a", n 0), ("ix", n 7), ("k", n 100)]),
  ("p", .obj [("a", n 0), ("ix", n 2), ("k", .arr [x r 34327 2, x r 261416 3])]), ("r", .obj [("a", n 0),
  ("ix", n 6), ("k", n 0)]), ("s", .obj [("a", n 0), ("ix", n 3), ("k", .arr [n 100, n 100])]), ("sa", .obj
  [("a", n 0), ("ix", n 5), ("k", n 0)]), ("sk", .obj [("a", n 0), ("ix", n 4), ("k", n 0)]), ("ty", .str
  "tr")]]), ("ix", n 3), ("mn", .str "ADBE Vector Group"), ("nm", .str "Group 1"), ("np", n 2), ("ty", .str
  "gr")], .obj [("bm", n 0), ("cix", n 2), ("hd", .bool false), ("it", .arr [.obj [("hd", .bool false),
  ("ind", n 0), ("ix", n 1), ("ks", .obj [("a", n 1), ("ix", n 2), ("k", tiger33 r)]), ("mn", .str
  "ADBE Vector Shape - Group"), ("nm", .str "Path 1"), ("ty", .str "sh")], .obj [("bm", n 0), ("c", .obj
  [("a", n 0), ("ix", n 4), ("k", .arr [x r 991999966491 12, x r 929000016755 12, x r 8 1, n 1])]), ("hd",
  .bool false), ("mn", .str "ADBE Vector Graphic - Fill"), ("nm", .str "Fill 1"), ("o", .obj [("a", n 0),
  ("ix", n 5), ("k", n 100)]), ("r", n 1), ("ty", .str "fl")], .obj [("a", .obj [("a", n 0), ("ix", n 1),
  ("k", .arr [n 0, n 0])]), ("nm", .str "Transform"), ("o", .obj [("a", n 0), ("ix", n 7), ("k", n 100)]),
  ("p", .obj [("a", n 0), ("ix", n 2), ("k", .arr [x r 292141 3, x r 278341 3])]), ("r", .obj [("a", n 0),
  ("ix", n 6), ("k", n 0)]), ("s", .obj [("a", n 0), ("ix", n 3), ("k", .arr [n 100, n 100])]), ("sa", .obj
  [("a", n 0), ("ix", n 5), ("k", n 0)]), ("sk", .obj [("a", n 0), ("ix", n 4), ("k", n 0)]), ("ty", .str
  "tr")]]), ("ix", n 4), ("mn", .str "ADBE Vector Group"), ("nm", .str "Group 2"), ("np", n 2), ("ty", .str
  "gr")], .obj [("bm", n 0), ("cix", n 2), ("hd", .bool false), ("it", .arr [.obj [("hd", .bool false),
  ("ind", n 0), ("ix", n 1), ("ks", .obj [("a", n 1), ("ix", n 2), ("k", tiger34 r)]), ("mn", .str
  "ADBE Vector Shape - Group"), ("nm", .str "Path 1"), ("ty", .str "sh")], .obj [("bm", n 0), ("c", .obj
  [("a", n 0), ("ix", n 4), ("k", .arr [x r 2 1, x r 19199999641 11, x r 184000007779 12, n 1])]), ("hd",
  .bool false), ("mn", .str "ADBE Vector Graphic - Fill"), ("nm", .str "Fill 1"), ("o", .obj [("a", n 0),
  ("ix", n 5), ("k", n 100)]), ("r", n 1), ("ty", .str "fl")], .obj [("a", .obj [("a", n 0), ("ix", n 1),
  ("k", .arr [n 0, n 0])]), ("nm", .str "Transform"), ("o", .obj [("a", n 0), ("ix", n 7), ("k", n 100)]),
  ("p", .obj [("a", n 0), ("ix", n 2), ("k", .arr [x r 243634 3, x r 253432 3])]), ("r", .obj [("a", n 0),
  ("ix", n 6), ("k", n 0)]), ("s", .obj [("a", n 0), ("ix", n 3), ("k", .arr [n 100, n 100])]), ("sa", .obj
  [("a", n 0), ("ix", n 5), ("k", n 0)]), ("sk", .obj [("a", n 0), ("ix", n 4), ("k", n 0)]), ("ty", .str
  "tr")]]), ("ix", n 5), ("mn", .str "ADBE Vector Group"), ("nm", .str "Group 3"), ("np", n 2), ("ty", .str
  "gr")], .obj [("bm", n 0), ("cix", n 2), ("hd", .bool false), ("it", .arr [.obj [("hd", .bool false),
  ("ind", n 0), ("ix", n 1), ("ks", .obj [("a", n 1), ("ix", n 2), ("k", tiger35 r)]), ("mn", .str
  "ADBE Vector Shape - Group"), ("nm", .str "Path 1"), ("ty", .str "sh")], .obj [("bm", n 0), ("c", .obj
  [("a", n 0), ("ix", n 4), ("k", .arr [x r 2 1, x r 19199999641 11, x r 184000007779 12, n 1])]), ("hd",
  .bool false), ("mn", .str "ADBE Vector Graphic - Fill"), ("nm", .str "Fill 1"), ("o", .obj [("a", n 0),
  ("ix", n 5), ("k", n 100)]), ("r", n 1), ("ty", .str "fl")], .obj [("a", .obj [("a", n 0), ("ix", n 1),
  ("k", .arr [n 0, n 0])]), ("nm", .str "Transform"), ("o", .obj [("a", n 0), ("ix", n 7), ("k", n 100)]),
  ("p", .obj [("a", n 0), ("ix", n 2), ("k", .arr [x r 215408 3, x r 240206 3])]), ("r", .obj [("a", n 0),
  ("ix", n 6), ("k", n 0)]), ("s", .obj [("a", n 0), ("ix", n 3), ("k", .arr [n 100, n 100])]), ("sa", .obj
  [("a", n 0), ("ix", n 5), ("k", n 0)]), ("sk", .obj [("a", n 0), ("ix", n 4), ("k", n 0)]), ("ty", .str
  "tr")]]), ("ix", n 6), ("mn", .str "ADBE Vector Group"), ("nm", .str "Group 4"), ("np", n 2), ("ty", .str
  "gr")], .obj [("bm", n 0), ("cix", n 2), ("hd", .bool false), ("it", tiger45 r), ("ix", n 7), ("mn", .str
  "ADBE Vector Group"), ("nm", .str "Group 5"), ("np", n 2), ("ty", .str "gr")], .obj [("bm", n 0), ("cix", n
  2), ("hd", .bool false), ("it", .arr [.obj [("hd", .bool false), ("ind", n 0), ("ix", n 1), ("ks", .obj
  [("a", n 1), ("ix", n 2), ("k", tiger46 r)]), ("mn", .str "ADBE Vector Shape - Group"), ("nm", .str
  "Path 1"), ("ty", .str "sh")], .obj [("bm", n 0), ("c", .obj [("a", n 0), ("ix", n 4), ("k", .arr [x r
  19199999641 11, x r 19199999641 11, x r 187999994615 12, n 1])]), ("hd", .bool false), ("mn", .str
  "ADBE Vector Graphic - Fill"), ("nm", .str "Fill 1"), ("o", .obj [("a", n 0), ("ix", n 5), ("k", n 100)]),
  ("r", n 1), ("ty", .str "fl")], .obj [("a", .obj [("a", n 0), ("ix", n 1), ("k", .arr [n 0, n 0])]), ("nm",
  .str "Transform"), ("o", .obj [("a", n 0), ("ix", n 7), ("k", n 100)]), ("p", .obj [("a", n 0), ("ix", n 2),
  ("k", .arr [x r 153393 3, x r 195328 3])]), ("r", .obj [("a", n 0), ("ix", n 6), ("k", n 0)]), ("s", .obj
  [("a", n 0), ("ix", n 3), ("k", .arr [n 100, n 100])]), ("sa", .obj [("a", n 0), ("ix", n 5), ("k", n 0)]),
  ("sk", .obj [("a", n 0), ("ix", n 4), ("k", n 0)]), ("ty", .str "tr")]]), ("ix", n 8), ("mn", .str
  "ADBE Vector Group"), ("nm", .str "Group 6"), ("np", n 2), ("ty", .str "gr")], .obj [("bm", n 0), ("cix", n
  2), ("hd", .bool false), ("it", .arr [.obj [("hd", .bool false), ("ind", n 0), ("ix", n 1), ("ks", .obj
  [("a", n 1), ("ix", n 2), ("k", tiger47 r)]), ("mn", .str "ADBE Vector Shape - Group"), ("nm", .str
  "Path 1"), ("ty", .str "sh")], .obj [("bm", n 0), ("c", .obj [("a", n 0), ("ix", n 4), ("k", .arr [x r
  195999998205 12, x r 2 1, x r 195999998205 12, n 1])]), ("hd", .bool false), ("mn", .str
  "ADBE Vector Graphic - Fill"), ("nm", .str "Fill 1"), ("o", .obj [("a", n 0), ("ix", n 5), ("k", n 100)]),
  ("r", n 1), ("ty", .str "fl")], .obj [("a", .obj [("a", n 0), ("ix", n 1), ("k", .arr [n 0, n 0])]), ("nm",
  .str "Transform"), ("o", .obj [("a", n 0), ("ix", n 7), ("k", n 100)]), ("p", .obj [("a", n 0), ("ix", n 2),
  ("k", .arr [x r 39403 3, x r 253673 3])]), ("r", .obj [("a", n 0), ("ix", n 6), ("k", n 0)]), ("s", .obj
  [("a", n 0), ("ix", n 3), ("k", .arr [n 100, n 100])]), ("sa", .obj [("a", n 0), ("ix", n 5), ("k", n 0)]),
  ("sk", .obj [("a", n 0), ("ix", n 4), ("k", n 0)]), ("ty", .str "tr")]]), ("ix", n 9), ("mn", .str
  "ADBE Vector Group"), ("nm", .str "Group 7"), ("np", n 2), ("ty", .str "gr")], .obj [("bm", n 0), ("cix", n
  2), ("hd", .bool false), ("it", .arr [.obj [("hd", .bool false), ("ind", n 0), ("ix", n 1), ("ks", .obj
  [("a", n 1), ("ix", n 2), ("k", tiger48 r)]), ("mn", .str "ADBE Vector Shape - Group"), ("nm", .str
  "Path 1"), ("ty", .str "sh")], .obj [("bm", n 0), ("c", .obj [("a", n 0), ("ix", n 4), ("k", .arr [n 1, n 1,
  n 1, n 1])]), ("hd", .bool false), ("mn", .str "ADBE Vector Graphic - Fill"), ("nm", .str "Fill 1"), ("o",
  .obj [("a", n 0), ("ix", n 5), ("k", n 100)]), ("r", n 1), ("ty", .str "fl")], .obj [("a", .obj [("a", n 0),
  ("ix", n 1), ("k", .arr [n 0, n 0])]), ("nm", .str "Transform"), ("o", .obj [("a", n 0), ("ix", n 7), ("k",
  n 100)]), ("p", .obj [("a", n 0), ("ix", n 2), ("k", .arr [x r 98958 3, x r 275205 3])]), ("r", .obj [("a",
  n 0), ("ix", n 6), ("k", n 0)]), ("s", .obj [("a", n 0), ("ix", n 3), ("k", .arr [n 100, n 100])]), ("sa",
  .obj [("a", n 0), ("ix", n 5), ("k", n 0)]), ("sk", .obj [("a", n 0), ("ix", n 4), ("k", n 0)]), ("ty", .str
  "tr")]]), ("ix", n 10), ("mn", .str "ADBE Vector Group"), ("nm", .str "Group 8"), ("np", n 2), ("ty", .str
  "gr")], .obj [("bm", n 0), ("cix", n 2), ("hd", .bool false), ("it", .arr [.obj [("hd", .bool false),
  ("ind", n 0), ("ix", n 1), ("ks", .obj [("a", n 1), ("ix", n 2), ("k", tiger49 r)]), ("mn", .str
  "ADBE Vector Shape - Group"), ("nm", .str "Path 1"), ("ty", .str "sh")], .obj [("bm", n 0), ("c", .obj
  [("a", n 0), ("ix", n 4), ("k", .arr [x r 991999966491 12, x r 416000007181 12, x r 122000002394 12, n
  1])]), ("hd", .bool false), ("mn", .str "ADBE Vector Graphic - Fill"), ("nm", .str "Fill 1"), ("o", .obj
  [("a", n 0), ("ix", n 5), ("k", n 100)]), ("r", n 1), ("ty", .str "fl")], .obj [("a", .obj [("a", n 0),
  ("ix", n 1), ("k", .arr [n 0, n 0])]), ("nm", .str "Transform"), ("o", .obj [("a", n 0), ("ix", n 7), ("k",
  n 100)]), ("p", .obj [("a", n 0), ("ix", n 2), ("k", .arr [x r 328713 3, x r 80087 3])]), ("r", .obj [("a",
  n 0), ("ix", n 6), ("k", n 0)]), ("s", .obj [("a", n 0), ("ix", n 3), ("k", .arr [n 100, n 100])]), ("sa",
  .obj [("a", n 0), ("ix", n 5), ("k", n 0)]), ("sk", .obj [("a", n 0), ("ix", n 4), ("k", n 0)]), ("ty", .str
  "tr")]]), ("ix", n 11), ("mn", .str "ADBE Vector Group"), ("nm", .str "Group 9"), ("np", n 2), ("ty", .str
  "gr")], .obj [("bm", n 0), ("cix", n 2), ("hd", .bool false), ("it", .arr [.obj [("hd", .bool false),
  ("ind", n 0), ("ix", n 1), ("ks", .obj [("a", n 1), ("ix", n 2), ("k", tiger64 r)]), ("mn", .str
  "ADBE Vector Shape - Group"), ("nm", .str "Path 1"), ("ty", .str "sh")], .obj [("bm", n 0), ("c", .obj
  [("a", n 0), ("ix", n 4), ("k", .arr [n 1, x r 588000009574 12, x r 75 3, n 1])]), ("hd", .bool false),
  ("mn", .str "ADBE Vector Graphic - Fill"), ("nm", .str "Fill 1"), ("o", .obj [("a", n 0), ("ix", n 5), ("k",
  n 100)]), ("r", n 1), ("ty", .str "fl")], .obj [("a", .obj [("a", n 0), ("ix", n 1), ("k", .arr [n 0, n
  0])]), ("nm", .str "Transform"), ("o", .obj [("a", n 0), ("ix", n 7), ("k", n 100)]), ("p", .obj [("a", n
  0), ("ix", n 2), ("k", .arr [x r 222813 3, x r 210366 3])]), ("r", .obj [("a", n 0), ("ix", n 6), ("k", n
  0)]), ("s", .obj [("a", n 0), ("ix", n 3), ("k", .arr [n 100, n 100])]), ("sa", .obj [("a", n 0), ("ix", n
  5), ("k", n 0)]), ("sk", .obj [("a", n 0), ("ix", n 4), ("k", n 0)]), ("ty", .str "tr")]]), ("ix", n 12),
  ("mn", .str "ADBE Vector Group"), ("nm", .str "Group 10"), ("np", n 2), ("ty", .str "gr")], .obj [("bm", n
  0), ("cix", n 2), ("hd", .bool false), ("it", .arr [.obj [("hd", .bool false), ("ind", n 0), ("ix", n 1),
  ("ks", .obj [("a", n 1), ("ix", n 2), ("k", tiger65 r)]), ("mn", .str "ADBE Vector Shape - Group"), ("nm",
  .str "Path 1"), ("ty", .str "sh")], .obj [("bm", n 0), ("c", .obj [("a", n 0), ("ix", n 4), ("k", .arr [x r
  995999983245 12, x r 416000007181 12, x r 122000002394 12, n 1])]), ("hd", .bool false), ("mn", .str
  "ADBE Vector Graphic - Fill"), ("nm", .str "Fill 1"), ("o", .obj [("a", n 0), ("ix", n 5), ("k", n 100)]),
  ("r", n 1), ("ty", .str "fl")], .obj [("a", .obj [("a", n 0), ("ix", n 1), ("k", .arr [n 0, n 0])]), ("nm",
  .str "Transform"), ("o", .obj [("a", n 0), ("ix", n 7), ("k", n 100)]), ("p", .obj [("a", n 0), ("ix", n 2),
  ("k", .arr [x r 217747 3, x r 43717 3])]), ("r", .obj [("a", n 0), ("ix", n 6), ("k", n 0)]), ("s", .obj
  [("a", n 0), ("ix", n 3), ("k", .arr [n 100, n 100])]), ("sa", .obj [("a", n 0), ("ix", n 5), ("k", n 0)]),
  ("sk", .obj [("a", n 0), ("ix", n 4), ("k", n 0)]), ("ty", .str "tr")]]), ("ix", n 13), ("mn", .str
  "ADBE Vector Group"), ("nm", .str "Group 11"), ("np", n 2), ("ty", .str "gr")]]

/-- A value in `examples/assets/google_fonts/Tiger.json`. -/
def tiger67 : Json F :=
  .obj [("a", .obj [("a", n 0), ("ix", n 1), ("k", .arr [x r 237022 3, x r 331632 3, n 0]), ("l", n 2)]),
  ("o", .obj [("a", n 0), ("ix", n 11), ("k", n 100)]), ("p", .obj [("a", n 1), ("ix", n 2), ("k", .arr [.obj
  [("i", .obj [("x", x r 833 3), ("y", x r 833 3)]), ("o", .obj [("x", x r 167 3), ("y", x r 167 3)]), ("s",
  .arr [x r 394362 3, x r 698106 3, n 0]), ("t", n 30), ("ti", .arr [n 0, n 0, n 0]), ("to", .arr [n 0, n 0, n
  0])], .obj [("i", .obj [("x", x r 833 3), ("y", x r 833 3)]), ("o", .obj [("x", x r 167 3), ("y", x r 167
  3)]), ("s", .arr [x r 394362 3, x r 698106 3, n 0]), ("t", n 48), ("ti", .arr [n 0, n 0, n 0]), ("to", .arr
  [n 0, n 0, n 0])], .obj [("i", .obj [("x", x r 3 1), ("y", n 1)]), ("o", .obj [("x", x r 167 3), ("y", x r
  167 3)]), ("s", .arr [x r 394362 3, x r 698106 3, n 0]), ("t", n 52), ("ti", .arr [n 0, n 0, n 0]), ("to",
  .arr [n 0, n 0, n 0])], .obj [("i", .obj [("x", x r 833 3), ("y", x r 833 3)]), ("o", .obj [("x", x r 33 2),
  ("y", n 0)]), ("s", .arr [x r 397441 3, x r 677681 3, n 0]), ("t", n 62), ("ti", .arr [n 0, n 0, n 0]),
  ("to", .arr [n 0, n 0, n 0])], .obj [("i", .obj [("x", x r 833 3), ("y", x r 833 3)]), ("o", .obj [("x", x r
  167 3), ("y", x r 167 3)]), ("s", .arr [x r 403362 3, x r 702106 3, n 0]), ("t", n 70), ("ti", .arr [n 0, n
  0, n 0]), ("to", .arr [n 0, n 0, n 0])], .obj [("i", .obj [("x", x r 833 3), ("y", x r 833 3)]), ("o", .obj
  [("x", x r 167 3), ("y", x r 167 3)]), ("s", .arr [x r 423364 3, x r 730776 3, n 0]), ("t", n 72), ("ti",
  .arr [n 0, n 0, n 0]), ("to", .arr [n 0, n 0, n 0])], .obj [("s", .arr [x r 463362 3, x r 818106 3, n 0]),
  ("t", n 76)]]), ("l", n 2)]), ("r", .obj [("a", n 1), ("ix", n 10), ("k", .arr [.obj [("i", .obj [("x", .arr
  [x r 833 3]), ("y", .arr [n 1])]), ("o", .obj [("x", .arr [x r 167 3]), ("y", .arr [n 0])]), ("s", .arr [n
  0]), ("t", n 30)], .obj [("i", .obj [("x", .arr [x r 833 3]), ("y", .arr [x r 833 3])]), ("o", .obj [("x",
  .arr [x r 167 3]), ("y", .arr [x r 167 3])]), ("s", .arr [n 0]), ("t", n 48)], .obj [("i", .obj [("x", .arr
  [x r 667 3]), ("y", .arr [n 1])]), ("o", .obj [("x", .arr [x r 167 3]), ("y", .arr [x r 167 3])]), ("s",
  .arr [x r 5858 3]), ("t", n 52)], .obj [("i", .obj [("x", .arr [x r 833 3]), ("y", .arr [x r 833 3])]),
  ("o", .obj [("x", .arr [x r 297 3]), ("y", .arr [n 0])]), ("s", .arr [x r 50765 3]), ("t", n 64)], .obj
  [("i", .obj [("x", .arr [x r 815 3]), ("y", .arr [x r 962 3])]), ("o", .obj [("x", .arr [x r 167 3]), ("y",
  .arr [x r 167 3])]), ("s", .arr [x r 46844 3]), ("t", n 72)], .obj [("s", .arr [x r 6206 2]), ("t", n
  76)]])]), ("s", .obj [("a", n 0), ("ix", n 6), ("k", .arr [n 100, n 100, n 100]), ("l", n 2)])]

/-- A value in `examples/assets/google_fonts/Tiger.json`. -/
def tiger68 : Json F :=
  .arr [.obj [("i", .obj [("x", x r 667 3), ("y", n 1)]), ("o", .obj [("x", x r 167 3), ("y", x r 167 3)]),
  ("s", .arr [.obj [("c", .bool true), ("i", .arr [.arr [n 0, n 0], .arr [x r (-24354) 3, x r (-404) 3], .arr
  [x r 806 3, x r 8388 3], .arr [x r 15645 3, x r 888 3], .arr [n 0, n 0]]), ("o", .arr [.arr [n 0, n 0], .arr
  [x r 24355 3, x r 403 3], .arr [x r (-807) 3, x r (-8387) 3], .arr [x r (-9597) 3, x r (-565) 3], .arr [n 0,
  n 0]]), ("v", .arr [.arr [x r (-39394) 3, x r 19113 3], .arr [x r (-8588) 3, x r 12259 3], .arr [x r 41572
  3, x r 7742 3], .arr [x r (-11088) 3, x r (-18548) 3], .arr [x r (-41128) 3, x r (-16128) 3]])]]), ("t", n
  30)], .obj [("i", .obj [("x", x r 833 3), ("y", x r 833 3)]), ("o", .obj [("x", x r 333 3), ("y", n 0)]),
  ("s", .arr [.obj [("c", .bool true), ("i", .arr [.arr [n 0, n 0], .arr [x r (-24354) 3, x r (-404) 3], .arr
  [x r 806 3, x r 8388 3], .arr [x r 15645 3, x r 888 3], .arr [n 0, n 0]]), ("o", .arr [.arr [n 0, n 0], .arr
  [x r 24355 3, x r 403 3], .arr [x r (-807) 3, x r (-8387) 3], .arr [x r (-9597) 3, x r (-565) 3], .arr [n 0,
  n 0]]), ("v", .arr [.arr [x r (-39394) 3, x r 29113 3], .arr [x r (-8588) 3, x r 22259 3], .arr [x r 41572
  3, x r 17742 3], .arr [x r (-11088) 3, x r (-8548) 3], .arr [x r (-42378) 3, x r (-6128) 3]])]]), ("t", n
  38)], .obj [("i", .obj [("x", x r 667 3), ("y", n 1)]), ("o", .obj [("x", x r 167 3), ("y", x r 167 3)]),
  ("s", .arr [.obj [("c", .bool true), ("i", .arr [.arr [n 0, n 0], .arr [x r (-24354) 3, x r (-404) 3], .arr
  [x r 806 3, x r 8388 3], .arr [x r 15645 3, x r 888 3], .arr [n 0, n 0]]), ("o", .arr [.arr [n 0, n 0], .arr
  [x r 24355 3, x r 403 3], .arr [x r (-807) 3, x r (-8387) 3], .arr [x r (-9597) 3, x r (-565) 3], .arr [n 0,
  n 0]]), ("v", .arr [.arr [x r (-39394) 3, x r 19113 3], .arr [x r (-8588) 3, x r 12259 3], .arr [x r 41572
  3, x r 7742 3], .arr [x r (-11088) 3, x r (-18548) 3], .arr [x r (-41128) 3, x r (-16128) 3]])]]), ("t", n
  48)], .obj [("i", .obj [("x", x r 3 1), ("y", n 1)]), ("o", .obj [("x", x r 333 3), ("y", n 0)]), ("s", .arr
  [.obj [("c", .bool true), ("i", .arr [.arr [n 0, n 0], .arr [x r (-24078) 3, x r (-2158) 3], .arr [x r 193
  3, x r 8361 3], .arr [x r 15416 3, x r 2041 3], .arr [n 0, n 0]]), ("o", .arr [.arr [n 0, n 0], .arr [x r
  24079 3, x r 2158 3], .arr [x r (-193) 3, x r (-836) 2], .arr [x r (-9459) 3, x r (-1252) 3], .arr [n 0, n
  0]]), ("v", .arr [.arr [x r (-4716) 2, x r (-9789) 3], .arr [x r (-17685) 3, x r (-14408) 3], .arr [x r 2981
  2, x r (-14965) 3], .arr [x r (-17935) 3, x r (-45083) 3], .arr [x r (-47485) 3, x r (-44081) 3]])]]), ("t",
  n 52)], .obj [("i", .obj [("x", x r 833 3), ("y", x r 833 3)]), ("o", .obj [("x", x r 7 1), ("y", n 0)]),
  ("s", .arr [.obj [("c", .bool true), ("i", .arr [.arr [n 0, n 0], .arr [x r (-24357) 3, x r (-113) 3], .arr
  [x r 907 3, x r 8378 3], .arr [x r 15653 3, x r 735 3], .arr [n 0, n 0]]), ("o", .arr [.arr [n 0, n 0], .arr
  [x r 24358 3, x r 113 3], .arr [x r (-907) 3, x r (-8377) 3], .arr [x r (-9603) 3, x r (-451) 3], .arr [n 0,
  n 0]]), ("v", .arr [.arr [x r (-41844) 3, x r 18918 3], .arr [x r (-11122) 3, x r 11699 3], .arr [x r 38982
  3, x r 6586 3], .arr [x r (-13988) 3, x r (-19076) 3], .arr [x r (-45247) 3, x r (-16285) 3]])]]), ("t", n
  62)], .obj [("i", .obj [("x", x r 833 3), ("y", x r 833 3)]), ("o", .obj [("x", x r 167 3), ("y", x r 167
  3)]), ("s", .arr [.obj [("c", .bool true), ("i", .arr [.arr [n 0, n 0], .arr [x r (-24138) 3, x r 3263 3],
  .arr [x r 2059 3, x r 8171 3], .arr [x r 24813 3, x r (-3835) 3], .arr [n 0, n 0]]), ("o", .arr [.arr [n 0,
  n 0], .arr [x r 24139 3, x r (-3264) 3], .arr [x r (-2059) 3, x r (-817) 2], .arr [x r (-9501) 3, x r 1468
  3], .arr [n 0, n 0]]), ("v", .arr [.arr [x r (-39132) 3, x r 25076 3], .arr [x r (-3004) 3, x r 13392 3],
  .arr [x r 45907 3, x r 1385 3], .arr [x r (-10108) 3, x r (-16688) 3], .arr [x r (-40678) 3, x r (-9591)
  3]])]]), ("t", n 72)], .obj [("s", .arr [.obj [("c", .bool true), ("i", .arr [.arr [n 0, n 0], .arr [x r
  (-24138) 3, x r 3263 3], .arr [x r 2059 3, x r 8171 3], .arr [x r 24813 3, x r (-3835) 3], .arr [n 0, n
  0]]), ("o", .arr [.arr [n 0, n 0], .arr [x r 24139 3, x r (-3264) 3], .arr [x r (-2059) 3, x r (-817) 2],
  .arr [x r (-9501) 3, x r 1468 3], .arr [n 0, n 0]]), ("v", .arr [.arr [x r (-39132) 3, x r 25076 3], .arr [x
  r (-3004) 3, x r 13392 3], .arr [x r 45907 3, x r 1385 3], .arr [x r (-10108) 3, x r (-16688) 3], .arr [x r
  (-40678) 3, x r (-9591) 3]])]]), ("t", n 76)]]

/-- A value in `examples/assets/google_fonts/Tiger.json`. -/
def tiger69 : Json F :=
  .arr [.obj [("i", .obj [("x", x r 833 3), ("y", x r 833 3)]), ("o", .obj [("x", x r 167 3), ("y", x r 167
  3)]), ("s", .arr [.obj [("c", .bool true), ("i", .arr [.arr [n 0, n 0], .arr [x r (-12741) 3, x r (-806) 3],
  .arr [x r (-4839) 3, x r 242 2], .arr [x r 24677 3, x r 2419 3], .arr [n 0, n 0]]), ("o", .arr [.arr [n 0, n
  0], .arr [x r 12742 3, x r 807 3], .arr [x r 7822 3, x r (-3951) 3], .arr [x r (-24677) 3, x r (-242) 2],
  .arr [n 0, n 0]]), ("v", .arr [.arr [x r (-42499) 3, x r 17298 3], .arr [x r (-9033) 3, x r 12217 3], .arr
  [x r 36451 3, x r 13428 3], .arr [x r (-8307) 3, x r (-14878) 3], .arr [x r (-44274) 3, x r (-14395)
  3]])]]), ("t", n 30)], .obj [("i", .obj [("x", x r 833 3), ("y", x r 833 3)]), ("o", .obj [("x", x r 167 3),
  ("y", x r 167 3)]), ("s", .arr [.obj [("c", .bool true), ("i", .arr [.arr [n 0, n 0], .arr [x r (-12741) 3,
  x r (-806) 3], .arr [x r (-4839) 3, x r 242 2], .arr [x r 24677 3, x r 2419 3], .arr [n 0, n 0]]), ("o",
  .arr [.arr [n 0, n 0], .arr [x r 12742 3, x r 807 3], .arr [x r 7822 3, x r (-3951) 3], .arr [x r (-24677)
  3, x r (-242) 2], .arr [n 0, n 0]]), ("v", .arr [.arr [x r (-42499) 3, x r 17298 3], .arr [x r (-9033) 3, x
  r 12217 3], .arr [x r 36451 3, x r 13428 3], .arr [x r (-8307) 3, x r (-14878) 3], .arr [x r (-44274) 3, x r
  (-14395) 3]])]]), ("t", n 38)], .obj [("i", .obj [("x", x r 667 3), ("y", n 1)]), ("o", .obj [("x", x r 167
  3), ("y", x r 167 3)]), ("s", .arr [.obj [("c", .bool true), ("i", .arr [.arr [n 0, n 0], .arr [x r (-12741)
  3, x r (-806) 3], .arr [x r (-4839) 3, x r 242 2], .arr [x r 24677 3, x r 2419 3], .arr [n 0, n 0]]), ("o",
  .arr [.arr [n 0, n 0], .arr [x r 12742 3, x r 807 3], .arr [x r 7822 3, x r (-3951) 3], .arr [x r (-24677)
  3, x r (-242) 2], .arr [n 0, n 0]]), ("v", .arr [.arr [x r (-42499) 3, x r 17298 3], .arr [x r (-9033) 3, x
  r 12217 3], .arr [x r 36451 3, x r 13428 3], .arr [x r (-8307) 3, x r (-14878) 3], .arr [x r (-44274) 3, x r
  (-14395) 3]])]]), ("t", n 48)], .obj [("i", .obj [("x", x r 833 3), ("y", x r 833 3)]), ("o", .obj [("x", x
  r 333 3), ("y", n 0)]), ("s", .arr [.obj [("c", .bool true), ("i", .arr [.arr [n 0, n 0], .arr [x r (-1267)
  2, x r 88 3], .arr [x r (-4958) 3, x r 2066 3], .arr [x r 24252 3, x r 4178 3], .arr [n 0, n 0]]), ("o",
  .arr [.arr [n 0, n 0], .arr [x r 15388 3, x r (-107) 3], .arr [x r 8028 3, x r (-3346) 3], .arr [x r
  (-24252) 3, x r (-4178) 3], .arr [n 0, n 0]]), ("v", .arr [.arr [x r (-50139) 3, x r (-12108) 3], .arr [x r
  (-22948) 3, x r (-14776) 3], .arr [x r 19504 3, x r (-10002) 3], .arr [x r (-20272) 3, x r (-41545) 3], .arr
  [x r (-52813) 3, x r (-4302) 2]])]]), ("t", n 52)], .obj [("i", .obj [("x", x r 3 1), ("y", n 1)]), ("o",
  .obj [("x", x r 167 3), ("y", x r 167 3)]), ("s", .arr [.obj [("c", .bool true), ("i", .arr [.arr [n 0, n
  0], .arr [x r (-12716) 3, x r (-339) 3], .arr [x r (-4867) 3, x r 2313 3], .arr [x r 24511 3, n 3], .arr [n
  0, n 0]]), ("o", .arr [.arr [n 0, n 0], .arr [x r 13874 3, x r 331 3], .arr [x r 7882 3, x r (-3747) 3],
  .arr [x r (-24512) 3, m (-3)], .arr [n 0, n 0]]), ("v", .arr [.arr [x r (-4672) 2, x r 465 2], .arr [x r
  (-15961) 3, x r 368 3], .arr [x r 24035 3, x r 1029 2], .arr [x r (-1459) 2, x r (-26592) 3], .arr [x r
  (-49094) 3, x r (-26697) 3]])]]), ("t", n 54)], .obj [("i", .obj [("x", x r 833 3), ("y", x r 833 3)]),
  ("o", .obj [("x", x r 7 1), ("y", n 0)]), ("s", .arr [.obj [("c", .bool true), ("i", .arr [.arr [n 0, n 0],
  .arr [x r (-1275) 2, x r (-655) 3], .arr [x r (-48) 1, x r 2497 3], .arr [x r 24704 3, x r 2126 3], .arr [n
  0, n 0]]), ("o", .arr [.arr [n 0, n 0], .arr [x r 12751 3, x r 655 3], .arr [x r 7775 3, x r (-4044) 3],
  .arr [x r (-24704) 3, x r (-2126) 3], .arr [n 0, n 0]]), ("v", .arr [.arr [x r (-44185) 3, x r 17074 3],
  .arr [x r (-10781) 3, x r 11596 3], .arr [x r 34714 3, x r 12265 3], .arr [x r (-10377) 3, x r (-15507) 3],
  .arr [x r (-46336) 3, x r (-14595) 3]])]]), ("t", n 62)], .obj [("i", .obj [("x", x r 833 3), ("y", x r 833
  3)]), ("o", .obj [("x", x r 167 3), ("y", x r 167 3)]), ("s", .arr [.obj [("c", .bool true), ("i", .arr
  [.arr [n 0, n 0], .arr [x r (-12765) 3, x r (-167) 3], .arr [x r (-4701) 3, x r 2678 3], .arr [x r 24767 3,
  x r 1179 3], .arr [n 0, n 0]]), ("o", .arr [.arr [n 0, n 0], .arr [x r 12766 3, x r 167 3], .arr [x r 7614
  3, x r (-4338) 3], .arr [x r (-24767) 3, x r (-1179) 3], .arr [n 0, n 0]]), ("v", .arr [.arr [x r (-41734)
  3, x r 19406 3], .arr [x r (-6209) 3, x r 1278 2], .arr [x r 39278 3, x r 11708 3], .arr [x r (-6843) 3, x r
  (-14318) 3], .arr [x r (-4274) 2, x r (-12031) 3]])]]), ("t", n 72)], .obj [("s", .arr [.obj [("c", .bool
  true), ("i", .arr [.arr [n 0, n 0], .arr [x r (-12741) 3, x r (-806) 3], .arr [x r (-4839) 3, x r 242 2],
  .arr [x r 24677 3, x r 2419 3], .arr [n 0, n 0]]), ("o", .arr [.arr [n 0, n 0], .arr [x r 12742 3, x r 807
  3], .arr [x r 7822 3, x r (-3951) 3], .arr [x r (-24677) 3, x r (-242) 2], .arr [n 0, n 0]]), ("v", .arr
  [.arr [x r (-4269) 2, x r 18631 3], .arr [x r (-9223) 3, x r 1355 2], .arr [x r 36451 3, x r 13428 3], .arr
  [x r (-8497) 3, x r (-13546) 3], .arr [x r (-44464) 3, x r (-13062) 3]])]]), ("t", n 76)]]

/-- A value in `examples/assets/google_fonts/Tiger.json`. -/
def tiger70 : Json F :=
  .arr [.obj [("i", .obj [("x", x r 667 3), ("y", n 1)]), ("o", .obj [("x", x r 167 3), ("y", x r 167 3)]),
  ("s", .arr [.obj [("c", .bool true), ("i", .arr [.arr [x r 2016 3, x r (-8387) 3], .arr [x r (-12742) 3, x r
  29919 3], .arr [x r (-2822) 3, x r 25483 3], .arr [x r (-2742) 3, x r 1533 3], .arr [n 0, n 0], .arr [x r
  6459 3, x r (-743) 2], .arr [x r 1452 3, x r (-11452) 3], .arr [x r 125 1, x r (-20886) 3]]), ("o", .arr
  [.arr [x r (-1532) 3, x r 629 2], .arr [x r 12741 3, x r (-29919) 3], .arr [x r 2823 3, x r (-25565) 3],
  .arr [x r 1345 3, x r (-768) 3], .arr [n 0, n 0], .arr [x r (-3951) 3, x r 4516 3], .arr [x r (-2419) 3, x r
  1887 2], .arr [x r (-10484) 3, x r 17742 3]]), ("v", .arr [.arr [x r (-16141) 2, x r 117539 3], .arr [x r
  (-112378) 3, x r 86733 3], .arr [x r (-90443) 3, x r (-35281) 3], .arr [x r (-77701) 3, x r (-84314) 3],
  .arr [x r (-75054) 3, x r (-103242) 3], .arr [x r (-97298) 3, x r (-93426) 3], .arr [x r (-112459) 3, x r
  13831 3], .arr [x r (-128023) 3, x r 84394 3]])]]), ("t", n 30)], .obj [("i", .obj [("x", x r 833 3), ("y",
  x r 833 3)]), ("o", .obj [("x", x r 333 3), ("y", n 0)]), ("s", .arr [.obj [("c", .bool true), ("i", .arr
  [.arr [x r 2016 3, x r (-8387) 3], .arr [x r (-12742) 3, x r 29919 3], .arr [x r (-2822) 3, x r 25483 3],
  .arr [x r (-2742) 3, x r 1533 3], .arr [x r 1974 3, x r 3277 3], .arr [x r 7748 3, x r (-8913) 3], .arr [x r
  1452 3, x r (-11452) 3], .arr [x r 125 1, x r (-20886) 3]]), ("o", .arr [.arr [x r (-1532) 3, x r 629 2],
  .arr [x r 12741 3, x r (-29919) 3], .arr [x r 2823 3, x r (-25565) 3], .arr [x r 105 2, x r (-6) 1], .arr [x
  r (-3331) 3, x r (-5531) 3], .arr [x r (-3951) 3, x r 4516 3], .arr [x r (-2419) 3, x r 1887 2], .arr [x r
  (-10484) 3, x r 17742 3]]), ("v", .arr [.arr [x r (-16141) 2, x r 117539 3], .arr [x r (-112378) 3, x r
  86733 3], .arr [x r (-90443) 3, x r (-35281) 3], .arr [x r (-77701) 3, x r (-74314) 3], .arr [x r (-7936) 2,
  x r (-8157) 2], .arr [x r (-97298) 3, x r (-83426) 3], .arr [x r (-112459) 3, x r 13831 3], .arr [x r
  (-128023) 3, x r 84394 3]])]]), ("t", n 38)], .obj [("i", .obj [("x", x r 667 3), ("y", n 1)]), ("o", .obj
  [("x", x r 167 3), ("y", x r 167 3)]), ("s", .arr [.obj [("c", .bool true), ("i", .arr [.arr [x r 2016 3, x
  r (-8387) 3], .arr [x r (-12742) 3, x r 29919 3], .arr [x r (-2822) 3, x r 25483 3], .arr [x r (-2742) 3, x
  r 1533 3], .arr [n 0, n 0], .arr [x r 6459 3, x r (-743) 2], .arr [x r 1452 3, x r (-11452) 3], .arr [x r
  125 1, x r (-20886) 3]]), ("o", .arr [.arr [x r (-1532) 3, x r 629 2], .arr [x r 12741 3, x r (-29919) 3],
  .arr [x r 2823 3, x r (-25565) 3], .arr [x r 1345 3, x r (-768) 3], .arr [n 0, n 0], .arr [x r (-3951) 3, x
  r 4516 3], .arr [x r (-2419) 3, x r 1887 2], .arr [x r (-10484) 3, x r 17742 3]]), ("v", .arr [.arr [x r
  (-16141) 2, x r 117539 3], .arr [x r (-112378) 3, x r 86733 3], .arr [x r (-90443) 3, x r (-35281) 3], .arr
  [x r (-77701) 3, x r (-84314) 3], .arr [x r (-75054) 3, x r (-103242) 3], .arr [x r (-97298) 3, x r (-93426)
  3], .arr [x r (-112459) 3, x r 13831 3], .arr [x r (-128023) 3, x r 84394 3]])]]), ("t", n 48)], .obj [("i",
  .obj [("x", x r 833 3), ("y", x r 833 3)]), ("o", .obj [("x", x r 333 3), ("y", n 0)]), ("s", .arr [.obj
  [("c", .bool true), ("i", .arr [.arr [x r (-59) 2, x r (-8526) 3], .arr [x r (-9801) 3, x r 30701 3], .arr
  [x r 502 3, x r 25404 3], .arr [x r (-2748) 3, x r 1468 3], .arr [x r 126 2, x r 3576 3], .arr [x r 7952 3,
  x r (-8587) 3], .arr [x r (-3625) 3, x r (-3061) 2], .arr [x r 104 1, x r (-21766) 3]]), ("o", .arr [.arr [x
  r 443 3, x r 6401 3], .arr [x r 9801 3, x r (-30701) 3], .arr [x r (-731) 3, x r (-37021) 3], .arr [x r 1057
  3, x r (-565) 3], .arr [x r (-1204) 3, x r (-3417) 3], .arr [x r (-4041) 3, x r 4363 3], .arr [x r 3385 3, x
  r 28587 3], .arr [x r (-8702) 3, x r 18477 3]]), ("v", .arr [.arr [x r (-131237) 3, x r 9473 2], .arr [x r
  (-102598) 3, x r 58481 3], .arr [x r (-103462) 3, x r (-2714) 2], .arr [x r (-86316) 3, x r (-98549) 3],
  .arr [x r (-81738) 3, x r (-1157) 1], .arr [x r (-105302) 3, x r (-108897) 3], .arr [x r (-122364) 3, x r
  (-15733) 3], .arr [x r (-118251) 3, x r 57622 3]])]]), ("t", n 52)], .obj [("i", .obj [("x", x r 833 3),
  ("y", x r 833 3)]), ("o", .obj [("x", x r 167 3), ("y", x r 167 3)]), ("s", .arr [.obj [("c", .bool true),
  ("i", .arr [.arr [x r (-1511) 3, x r (-2395) 3], .arr [x r (-597) 2, x r 24157 3], .arr [x r (-6825) 3, x r
  31118 3], .arr [x r (-12257) 3, x r 141 1], .arr [x r 288 2, x r 36 3], .arr [x r 708 2, x r (-9343) 3],
  .arr [x r (-779) 3, x r (-19617) 3], .arr [x r (-4721) 3, x r (-16823) 3]]), ("o", .arr [.arr [x r 2744 3, x
  r 435 2], .arr [x r 1164 3, x r (-31425) 3], .arr [x r 6825 3, x r (-31118) 3], .arr [x r 2119 3, x r
  (-2268) 3], .arr [x r (-3644) 3, x r 531 3], .arr [x r (-16318) 3, x r 24331 3], .arr [x r 181 3, x r 23023
  3], .arr [x r 6775 3, x r 13363 3]]), ("v", .arr [.arr [x r (-122219) 3, x r 79557 3], .arr [x r (-112847)
  3, x r 47262 3], .arr [x r (-10398) 2, x r (-31891) 3], .arr [x r (-78298) 3, x r (-113432) 3], .arr [x r
  (-74614) 3, x r (-12747) 2], .arr [x r (-98557) 3, x r (-112006) 3], .arr [x r (-131389) 3, x r 9317 3],
  .arr [x r (-130333) 3, x r 52356 3]])]]), ("t", n 54)], .obj [("i", .obj [("x", x r 3 1), ("y", n 1)]),
  ("o", .obj [("x", x r 167 3), ("y", x r 167 3)]), ("s", .arr [.obj [("c", .bool true), ("i", .arr [.arr [n
  0, n 0], .arr [x r 829 3, x r 14431 3], .arr [x r (-6878) 3, x r 27733 3], .arr [x r (-13701) 3, x r 8434
  3], .arr [x r 3853 3, x r (-2088) 3], .arr [x r 6556 3, x r (-9797) 3], .arr [x r 93 2, x r (-1302) 2], .arr
  [x r (-14307) 3, x r (-9617) 3]]), ("o", .arr [.arr [n 0, n 0], .arr [x r (-829) 3, x r (-14431) 3], .arr [x
  r 777 2, x r (-31332) 3], .arr [x r 2756 3, x r (-3291) 3], .arr [x r (-5108) 3, x r 29 1], .arr [x r
  (-23686) 3, x r 36313 3], .arr [x r (-1742) 3, x r 19684 3], .arr [x r 14307 3, x r 9617 3]]), ("v", .arr
  [.arr [x r (-110258) 3, x r 58481 3], .arr [x r (-1114) 1, x r 31252 3], .arr [x r (-100553) 3, x r (-46765)
  3], .arr [x r (-71538) 3, x r (-118393) 3], .arr [x r (-69167) 3, x r (-141174) 3], .arr [x r (-94698) 3, x
  r (-121575) 3], .arr [x r (-130879) 3, x r 1377 2], .arr [x r (-131658) 3, x r 38616 3]])]]), ("t", n 58)],
  .obj [("i", .obj [("x", x r 833 3), ("y", x r 833 3)]), ("o", .obj [("x", x r 7 1), ("y", n 0)]), ("s", .arr
  [.obj [("c", .bool true), ("i", .arr [.arr [n 0, n 0], .arr [x r (-962) 3, x r 12584 3], .arr [x r (-744) 2,
  x r 27952 3], .arr [x r (-19308) 3, x r 23465 3], .arr [x r 4081 3, x r (-2588) 3], .arr [x r 6433 3, x r
  (-9904) 3], .arr [x r 1332 3, x r (-11467) 3], .arr [x r (-7675) 3, x r (-5904) 3]]), ("o", .arr [.arr [n 0,
  n 0], .arr [x r 2107 3, x r (-27557) 3], .arr [x r 6615 3, x r (-24855) 3], .arr [x r 2906 3, x r (-3532)
  3], .arr [x r (-5453) 3, x r 3457 3], .arr [x r (-25421) 3, x r 39134 3], .arr [x r (-2195) 3, x r 18897 3],
  .arr [x r 7675 3, x r 5904 3]]), ("v", .arr [.arr [x r (-107513) 3, x r 51454 3], .arr [x r (-110451) 3, x r
  21766 3], .arr [x r (-97597) 3, x r (-49212) 3], .arr [x r (-63876) 3, x r (-133093) 3], .arr [x r (-71317)
  3, x r (-150095) 3], .arr [x r (-89584) 3, x r (-126223) 3], .arr [x r (-130759) 3, x r 14819 3], .arr [x r
  (-12313) 2, x r 3824 2]])]]), ("t", n 62)], .obj [("i", .obj [("x", x r 833 3), ("y", x r 833 3)]), ("o",
  .obj [("x", x r 167 3), ("y", x r 167 3)]), ("s", .arr [.obj [("c", .bool true), ("i", .arr [.arr [x r
  (-7039) 3, x r 3624 3], .arr [x r (-3802) 3, x r 32172 3], .arr [x r (-6074) 3, x r 24903 3], .arr [x r
  (-11068) 3, x r 22236 3], .arr [x r 3597 3, x r (-95) 2], .arr [x r 7643 3, x r (-16958) 3], .arr [x r 857
  3, x r (-11488) 3], .arr [x r 64 2, x r (-13415) 3]]), ("o", .arr [.arr [x r 455 2, x r (-2343) 3], .arr [x
  r 3591 3, x r (-28743) 3], .arr [x r 7204 3, x r (-29537) 3], .arr [x r 159 2, x r (-3195) 3], .arr [x r
  (-506) 2, x r 963 3], .arr [x r (-21734) 3, x r 50119 3], .arr [x r (-1413) 3, x r 18933 3], .arr [x r (-64)
  2, x r 13415 3]]), ("v", .arr [.arr [x r (-120058) 3, x r 110551 3], .arr [x r (-11363) 2, x r 53985 3],
  .arr [x r (-89626) 3, x r (-50724) 3], .arr [x r (-5925) 2, x r (-144528) 3], .arr [x r (-68693) 3, x r
  (-163808) 3], .arr [x r (-83585) 3, x r (-137886) 3], .arr [x r (-125535) 3, x r 19566 3], .arr [x r
  (-129248) 3, x r 87142 3]])]]), ("t", n 68)], .obj [("i", .obj [("x", x r 833 3), ("y", x r 833 3)]), ("o",
  .obj [("x", x r 167 3), ("y", x r 167 3)]), ("s", .arr [.obj [("c", .bool true), ("i", .arr [.arr [x r
  (-3141) 3, x r (-2484) 3], .arr [x r (-595) 2, x r 31834 3], .arr [x r (-487) 2, x r 25139 3], .arr [x r
  (-7213) 3, x r 14487 3], .arr [x r 302 2, x r 996 3], .arr [x r 7336 3, x r (-20053) 3], .arr [x r 2323 3, x
  r (-11281) 3], .arr [x r 2821 3, x r (-27483) 3]]), ("o", .arr [.arr [x r 199 2, x r 2053 3], .arr [x r 5844
  3, x r (-30119) 3], .arr [x r 5484 3, x r (-27799) 3], .arr [x r 1065 3, x r (-2139) 3], .arr [x r (-4592)
  3, x r (-2002) 3], .arr [x r (-11461) 3, x r 32291 3], .arr [x r (-4048) 3, x r 19659 3], .arr [x r (-6146)
  3, x r 17373 3]]), ("v", .arr [.arr [x r (-124769) 3, x r 10724 2], .arr [x r (-111745) 3, x r 65294 3],
  .arr [x r (-86073) 3, x r (-53024) 3], .arr [x r (-56629) 3, x r (-148093) 3], .arr [x r (-65688) 3, x r
  (-170273) 3], .arr [x r (-83655) 3, x r (-132213) 3], .arr [x r (-116298) 3, x r 11002 3], .arr [x r
  (-128421) 3, x r 85687 3]])]]), ("t", n 70)], .obj [("i", .obj [("x", x r 833 3), ("y", x r 833 3)]), ("o",
  .obj [("x", x r 167 3), ("y", x r 167 3)]), ("s", .arr [.obj [("c", .bool true), ("i", .arr [.arr [x r 758
  3, x r (-8593) 3], .arr [x r (-8098) 3, x r 31495 3], .arr [x r (-3665) 3, x r 25375 3], .arr [x r (-3359)
  3, x r 6737 3], .arr [x r 2444 3, x r 2943 3], .arr [x r 7073 3, x r (-22198) 3], .arr [x r (-27) 2, x r
  (-1154) 2], .arr [x r 9217 3, x r (-22528) 3]]), ("o", .arr [.arr [x r (-569) 3, x r 6449 3], .arr [x r 8098
  3, x r (-31495) 3], .arr [x r 3764 3, x r (-26061) 3], .arr [x r 539 3, x r (-1082) 3], .arr [x r (-4125) 3,
  x r (-4967) 3], .arr [x r (-1822) 3, x r 5717 3], .arr [x r 446 3, x r 19019 3], .arr [x r (-7697) 3, x r
  19117 3]]), ("v", .arr [.arr [x r (-143945) 3, x r 120838 3], .arr [x r (-10986) 2, x r 76603 3], .arr [x r
  (-82521) 3, x r (-55324) 3], .arr [x r (-64437) 3, x r (-120875) 3], .arr [x r (-72596) 3, x r (-123807) 3],
  .arr [x r (-84749) 3, x r (-106951) 3], .arr [x r (-107061) 3, x r 2437 3], .arr [x r (-125679) 3, x r 76643
  3]])]]), ("t", n 72)], .obj [("i", .obj [("x", x r 833 3), ("y", x r 833 3)]), ("o", .obj [("x", x r 167 3),
  ("y", x r 167 3)]), ("s", .arr [.obj [("c", .bool true), ("i", .arr [.arr [x r 1072 3, x r (-8541) 3], .arr
  [x r (-9259) 3, x r 31101 3], .arr [x r (-46) 1, x r 26924 3], .arr [x r (-3145) 3, x r 16264 3], .arr [x r
  2326 3, x r 3026 3], .arr [x r 4211 3, x r (-243) 1], .arr [x r 16 2, x r (-11518) 3], .arr [x r 10038 3, x
  r (-22118) 3]]), ("o", .arr [.arr [x r (-81) 2, x r 6409 3], .arr [x r 9258 3, x r (-31101) 3], .arr [x r
  4291 3, x r (-25806) 3], .arr [x r 1282 3, x r (-3075) 3], .arr [x r (-3927) 3, x r (-5108) 3], .arr [x r
  (-689) 3, x r 9027 3], .arr [x r (-27) 2, x r 18982 3], .arr [x r (-8394) 3, x r 18773 3]]), ("v", .arr
  [.arr [x r (-148311) 3, x r 120014 3], .arr [x r (-110489) 3, x r 79136 3], .arr [x r (-82712) 3, x r
  (-52168) 3], .arr [x r (-73484) 3, x r (-111433) 3], .arr [x r (-6958) 2, x r (-143733) 3], .arr [x r
  (-8533) 2, x r (-109469) 3], .arr [x r (-10841) 2, x r 5286 3], .arr [x r (-126265) 3, x r 78581 3]])]]),
  ("t", n 73)], .obj [("i", .obj [("x", x r 833 3), ("y", x r 833 3)]), ("o", .obj [("x", x r 167 3), ("y", x
  r 167 3)]), ("s", .arr [.obj [("c", .bool true), ("i", .arr [.arr [x r 1387 3, x r (-849) 2], .arr [x r
  (-1042) 2, x r 30707 3], .arr [x r (-5535) 3, x r 28473 3], .arr [x r (-2247) 3, x r 4833 3], .arr [x r 2209
  3, x r 311 2], .arr [x r 1349 3, x r (-26403) 3], .arr [x r 591 3, x r (-11496) 3], .arr [x r 10859 3, x r
  (-21707) 3]]), ("o", .arr [.arr [x r (-105) 2, x r 6369 3], .arr [x r 10419 3, x r (-30707) 3], .arr [x r
  4818 3, x r (-25551) 3], .arr [x r 2024 3, x r (-5069) 3], .arr [x r (-3728) 3, x r (-5249) 3], .arr [x r
  444 3, x r 12336 3], .arr [x r (-987) 3, x r 18945 3], .arr [x r (-9091) 3, x r 18429 3]]), ("v", .arr [.arr
  [x r (-152677) 3, x r 119189 3], .arr [x r (-111119) 3, x r 81668 3], .arr [x r (-82903) 3, x r (-49011) 3],
  .arr [x r (-72763) 3, x r (-103739) 3], .arr [x r (-69921) 3, x r (-131658) 3], .arr [x r (-8591) 2, x r
  (-111987) 3], .arr [x r (-10976) 2, x r 8134 3], .arr [x r (-126851) 3, x r 80519 3]])]]), ("t", n 74)],
  .obj [("s", .arr [.obj [("c", .bool true), ("i", .arr [.arr [x r 2016 3, x r (-8387) 3], .arr [x r (-12742)
  3, x r 29919 3], .arr [x r (-7404) 3, x r 31571 3], .arr [x r (-1135) 3, x r 2929 3], .arr [x r 1974 3, x r
  3277 3], .arr [x r (-4375) 3, x r (-30609) 3], .arr [x r 1452 3, x r (-11452) 3], .arr [x r 125 1, x r
  (-20886) 3]]), ("o", .arr [.arr [x r (-1532) 3, x r 629 2], .arr [x r 12741 3, x r (-29919) 3], .arr [x r
  5872 3, x r (-25041) 3], .arr [x r 3509 3, x r (-9055) 3], .arr [x r (-3331) 3, x r (-5531) 3], .arr [x r
  2709 3, x r 18955 3], .arr [x r (-2419) 3, x r 1887 2], .arr [x r (-10484) 3, x r 17742 3]]), ("v", .arr
  [.arr [x r (-16141) 2, x r 117539 3], .arr [x r (-112378) 3, x r 86733 3], .arr [x r (-83285) 3, x r
  (-42699) 3], .arr [x r (-68613) 3, x r (-94082) 3], .arr [x r (-65367) 3, x r (-11236) 2], .arr [x r
  (-87072) 3, x r (-117022) 3], .arr [x r (-112459) 3, x r 13831 3], .arr [x r (-128023) 3, x r 84394 3]])]]),
  ("t", n 76)]]

/-- A value in `examples/assets/google_fonts/Tiger.json`. -/
def tiger71 : Json F :=
  .arr [.obj [("i", .obj [("x", x r 833 3), ("y", x r 833 3)]), ("o", .obj [("x", x r 167 3), ("y", x r 167
  3)]), ("s", .arr [.obj [("c", .bool true), ("i", .arr [.arr [x r 11371 3, x r 6613 3], .arr [x r 161 3, x r
  (-22822) 3], .arr [x r (-8145) 3, x r 2178 3], .arr [x r 1855 3, x r 6128 3]]), ("o", .arr [.arr [x r
  (-5645) 3, x r (-3307) 3], .arr [x r (-81) 3, x r 18467 3], .arr [x r 4516 3, x r (-1209) 3], .arr [x r
  (-3145) 3, x r (-10242) 3]]), ("v", .arr [.arr [x r 25 1, x r (-24112) 3], .arr [x r (-1379) 2, x r (-402)
  3], .arr [x r 6613 3, x r 25242 3], .arr [x r 2742 3, x r 1614 3]])]]), ("t", n 30)], .obj [("i", .obj
  [("x", x r 833 3), ("y", x r 833 3)]), ("o", .obj [("x", x r 167 3), ("y", x r 167 3)]), ("s", .arr [.obj
  [("c", .bool true), ("i", .arr [.arr [x r 11371 3, x r 6613 3], .arr [x r 161 3, x r (-22822) 3], .arr [x r
  (-8145) 3, x r 2178 3], .arr [x r 1855 3, x r 6128 3]]), ("o", .arr [.arr [x r (-5645) 3, x r (-3307) 3],
  .arr [x r (-81) 3, x r 18467 3], .arr [x r 4516 3, x r (-1209) 3], .arr [x r (-3145) 3, x r (-10242) 3]]),
  ("v", .arr [.arr [x r 25 1, x r (-24112) 3], .arr [x r (-1379) 2, x r (-402) 3], .arr [x r 6613 3, x r 25242
  3], .arr [x r 2742 3, x r 1614 3]])]]), ("t", n 38)], .obj [("i", .obj [("x", x r 667 3), ("y", n 1)]),
  ("o", .obj [("x", x r 167 3), ("y", x r 167 3)]), ("s", .arr [.obj [("c", .bool true), ("i", .arr [.arr [x r
  11371 3, x r 6613 3], .arr [x r 161 3, x r (-22822) 3], .arr [x r (-8145) 3, x r 2178 3], .arr [x r 1855 3,
  x r 6128 3]]), ("o", .arr [.arr [x r (-5645) 3, x r (-3307) 3], .arr [x r (-81) 3, x r 18467 3], .arr [x r
  4516 3, x r (-1209) 3], .arr [x r (-3145) 3, x r (-10242) 3]]), ("v", .arr [.arr [x r 25 1, x r (-24112) 3],
  .arr [x r (-1379) 2, x r (-402) 3], .arr [x r 6613 3, x r 25242 3], .arr [x r 2742 3, x r 1614 3]])]]),
  ("t", n 48)], .obj [("i", .obj [("x", x r 833 3), ("y", x r 833 3)]), ("o", .obj [("x", x r 333 3), ("y", n
  0)]), ("s", .arr [.obj [("c", .bool true), ("i", .arr [.arr [x r 12714 3, x r 2869 3], .arr [x r (-6705) 3,
  x r (-21601) 3], .arr [x r (-7037) 3, x r 4506 3], .arr [x r 3614 3, x r 5216 3]]), ("o", .arr [.arr [x r
  (-6325) 3, x r (-1427) 3], .arr [x r 5472 3, x r 17464 3], .arr [x r 3902 3, x r (-2499) 3], .arr [x r
  (-6047) 3, x r (-8728) 3]]), ("v", .arr [.arr [x r 18215 3, x r (-2118) 2], .arr [x r 9955 3, x r 6106 3],
  .arr [x r 36928 3, x r 24194 3], .arr [x r 26173 3, x r 3043 3]])]]), ("t", n 52)], .obj [("i", .obj [("x",
  x r 3 1), ("y", n 1)]), ("o", .obj [("x", x r 167 3), ("y", x r 167 3)]), ("s", .arr [.obj [("c", .bool
  true), ("i", .arr [.arr [x r 8896 3, x r (-5482) 3], .arr [x r (-15948) 3, x r (-8625) 3], .arr [x r (-1508)
  3, x r 6526 3], .arr [x r 4999 3, x r 978 3]]), ("o", .arr [.arr [x r (-4425) 3, x r 2726 3], .arr [x r
  12923 3, x r 6945 3], .arr [x r 836 3, x r (-3619) 3], .arr [x r (-8357) 3, x r (-1614) 3]]), ("v", .arr
  [.arr [x r 45423 3, x r 14225 3], .arr [x r 55978 3, x r 34495 3], .arr [x r 81576 3, x r 29748 3], .arr [x
  r 63558 3, x r 23651 3]])]]), ("t", n 54)], .obj [("i", .obj [("x", x r 833 3), ("y", x r 833 3)]), ("o",
  .obj [("x", x r 7 1), ("y", n 0)]), ("s", .arr [.obj [("c", .bool true), ("i", .arr [.arr [x r 6066 3, x r
  (-11672) 3], .arr [x r (-22801) 3, x r 995 3], .arr [x r 259 2, x r 8023 3], .arr [x r 6026 3, x r (-2163)
  3]]), ("o", .arr [.arr [x r (-3017) 3, x r 5805 3], .arr [x r 18447 3, x r (-855) 3], .arr [x r (-1436) 3, x
  r (-4449) 3], .arr [x r (-10069) 3, x r 366 2]]), ("v", .arr [.arr [x r 72915 3, x r 27404 3], .arr [x r
  9742 2, x r 42472 3], .arr [x r 121997 3, x r 20797 3], .arr [x r 98595 3, x r 2586 2]])]]), ("t", n 62)],
  .obj [("i", .obj [("x", x r 833 3), ("y", x r 833 3)]), ("o", .obj [("x", x r 167 3), ("y", x r 167 3)]),
  ("s", .arr [.obj [("c", .bool true), ("i", .arr [.arr [x r 794 2, x r (-8267) 3], .arr [x r (-16407) 3, x r
  (-8404) 3], .arr [x r (-686) 3, x r 8446 3], .arr [x r 4941 3, x r 447 3]]), ("o", .arr [.arr [x r (-3949)
  3, x r 4112 3], .arr [x r 13289 3, x r 6754 3], .arr [x r 38 2, x r (-4683) 3], .arr [x r (-8255) 3, x r
  (-747) 3]]), ("v", .arr [.arr [x r 60159 3, x r 30532 3], .arr [x r 72734 3, x r 54421 3], .arr [x r 96876
  3, x r 44511 3], .arr [x r 7877 2, x r 39607 3]])]]), ("t", n 66)], .obj [("i", .obj [("x", x r 833 3),
  ("y", x r 833 3)]), ("o", .obj [("x", x r 167 3), ("y", x r 167 3)]), ("s", .arr [.obj [("c", .bool true),
  ("i", .arr [.arr [x r 11442 3, x r 342 2], .arr [x r (-4927) 3, x r (-20698) 3], .arr [x r (-6666) 3, x r
  3839 3], .arr [x r 3009 3, x r 5111 3]]), ("o", .arr [.arr [x r (-5691) 3, x r (-1701) 3], .arr [x r 403 2,
  x r 16737 3], .arr [x r 3696 3, x r (-2129) 3], .arr [x r (-5036) 3, x r (-8552) 3]]), ("v", .arr [.arr [x r
  34799 3, x r (-2263) 3], .arr [x r 25763 3, x r 22932 3], .arr [x r 49371 3, x r 41476 3], .arr [x r 40725
  3, x r 20972 3]])]]), ("t", n 68)], .obj [("s", .arr [.obj [("c", .bool true), ("i", .arr [.arr [x r 12221
  3, x r 4867 3], .arr [x r (-3272) 3, x r (-22587) 3], .arr [x r (-7724) 3, x r 338 2], .arr [x r 2755 3, x r
  5779 3]]), ("o", .arr [.arr [x r (-6078) 3, x r (-2421) 3], .arr [x r 2697 3, x r 18269 3], .arr [x r 4283
  3, x r (-1874) 3], .arr [x r (-4649) 3, x r (-9653) 3]]), ("v", .arr [.arr [x r 353 2, x r (-16813) 3], .arr
  [x r (-9009) 3, x r 9077 3], .arr [x r 15017 3, x r 31362 3], .arr [x r 7638 3, x r 8584 3]])]]), ("t", n
  76)]]

/-- A value in `examples/assets/google_fonts/Tiger.json`. -/
def tiger72 : Json F :=
  .arr [.obj [("i", .obj [("x", x r 833 3), ("y", x r 833 3)]), ("o", .obj [("x", x r 167 3), ("y", x r 167
  3)]), ("s", .arr [.obj [("c", .bool true), ("i", .arr [.arr [x r 14113 3, x r 1451 3], .arr [x r 807 3, x r
  (-20322) 3], .arr [x r (-7581) 3, x r (-1049) 3], .arr [x r (-404) 3, x r 7178 3]]), ("o", .arr [.arr [x r
  (-9113) 3, x r (-968) 3], .arr [x r (-725) 3, x r 17984 3], .arr [x r 12016 3, x r 1774 3], .arr [x r 806 3,
  x r (-12016) 3]]), ("v", .arr [.arr [x r 847 3, x r (-26129) 3], .arr [x r (-14235) 3, x r (-1291) 3], .arr
  [x r (-1008) 3, x r 25322 3], .arr [x r 4959 3, x r 258 2]])]]), ("t", n 30)], .obj [("i", .obj [("x", x r
  833 3), ("y", x r 833 3)]), ("o", .obj [("x", x r 167 3), ("y", x r 167 3)]), ("s", .arr [.obj [("c", .bool
  true), ("i", .arr [.arr [x r 14113 3, x r 1451 3], .arr [x r 807 3, x r (-20322) 3], .arr [x r (-7581) 3, x
  r (-1049) 3], .arr [x r (-404) 3, x r 7178 3]]), ("o", .arr [.arr [x r (-9113) 3, x r (-968) 3], .arr [x r
  (-725) 3, x r 17984 3], .arr [x r 12016 3, x r 1774 3], .arr [x r 806 3, x r (-12016) 3]]), ("v", .arr [.arr
  [x r 847 3, x r (-26129) 3], .arr [x r (-14235) 3, x r (-1291) 3], .arr [x r (-1008) 3, x r 25322 3], .arr
  [x r 4959 3, x r 258 2]])]]), ("t", n 38)], .obj [("i", .obj [("x", x r 667 3), ("y", n 1)]), ("o", .obj
  [("x", x r 167 3), ("y", x r 167 3)]), ("s", .arr [.obj [("c", .bool true), ("i", .arr [.arr [x r 14113 3, x
  r 1451 3], .arr [x r 807 3, x r (-20322) 3], .arr [x r (-7581) 3, x r (-1049) 3], .arr [x r (-404) 3, x r
  7178 3]]), ("o", .arr [.arr [x r (-9113) 3, x r (-968) 3], .arr [x r (-725) 3, x r 17984 3], .arr [x r 12016
  3, x r 1774 3], .arr [x r 806 3, x r (-12016) 3]]), ("v", .arr [.arr [x r 847 3, x r (-26129) 3], .arr [x r
  (-14235) 3, x r (-1291) 3], .arr [x r (-1008) 3, x r 25322 3], .arr [x r 4959 3, x r 258 2]])]]), ("t", n
  48)], .obj [("i", .obj [("x", x r 833 3), ("y", x r 833 3)]), ("o", .obj [("x", x r 333 3), ("y", n 0)]),
  ("s", .arr [.obj [("c", .bool true), ("i", .arr [.arr [x r 13764 3, x r (-287) 2], .arr [x r (-5332) 3, x r
  (-19437) 3], .arr [x r (-7475) 3, x r 1287 3], .arr [x r 1775 3, x r 69 1]]), ("o", .arr [.arr [x r (-8897)
  3, x r 1824 3], .arr [x r 4719 3, x r 17202 3], .arr [x r 11881 3, x r (-1935) 3], .arr [x r (-2849) 3, x r
  (-1159) 2]]), ("v", .arr [.arr [x r 15726 3, x r (-35295) 3], .arr [x r 8946 3, x r (-7307) 3], .arr [x r
  29433 3, x r 13852 3], .arr [x r 28236 3, x r (-9419) 3]])]]), ("t", n 52)], .obj [("i", .obj [("x", x r 3
  1), ("y", n 1)]), ("o", .obj [("x", x r 167 3), ("y", x r 167 3)]), ("s", .arr [.obj [("c", .bool true),
  ("i", .arr [.arr [x r 6281 3, x r (-9358) 3], .arr [x r (-13949) 3, x r (-8154) 3], .arr [x r (-3563) 3, x r
  4926 3], .arr [x r 4884 3, x r 2961 3]]), ("o", .arr [.arr [x r (-4078) 3, x r 6031 3], .arr [x r 12344 3, x
  r 7216 3], .arr [x r 5726 3, x r (-7767) 3], .arr [x r (-8128) 3, x r (-5047) 3]]), ("v", .arr [.arr [x r
  22211 3, x r (-18284) 3], .arr [x r 34009 3, x r 1559 3], .arr [x r 57609 3, x r 2208 3], .arr [x r 43883 3,
  x r (-10461) 3]])]]), ("t", n 54)], .obj [("i", .obj [("x", x r 833 3), ("y", x r 833 3)]), ("o", .obj
  [("x", x r 7 1), ("y", n 0)]), ("s", .arr [.obj [("c", .bool true), ("i", .arr [.arr [x r 734 3, x r
  (-14168) 3], .arr [x r (-20337) 3, x r 211 3], .arr [x r (-663) 3, x r 7624 3], .arr [x r 7189 3, x r 4
  2]]), ("o", .arr [.arr [x r (-505) 3, x r 915 2], .arr [x r 17998 3, x r (-187) 3], .arr [x r 1163 3, x r
  (-1209) 2], .arr [x r (-12041) 3, x r (-196) 3]]), ("v", .arr [.arr [x r 34339 3, x r (-18742) 3], .arr [x r
  5991 2, x r (-4938) 3], .arr [x r 85818 3, x r (-19495) 3], .arr [x r 62803 3, x r (-24304) 3]])]]), ("t", n
  62)], .obj [("i", .obj [("x", x r 833 3), ("y", x r 833 3)]), ("o", .obj [("x", x r 167 3), ("y", x r 167
  3)]), ("s", .arr [.obj [("c", .bool true), ("i", .arr [.arr [x r 4988 3, x r (-12714) 3], .arr [x r (-14422)
  3, x r (-8118) 3], .arr [x r (-2858) 3, x r 6748 3], .arr [x r 5062 3, x r 2975 3]]), ("o", .arr [.arr [x r
  (-3224) 3, x r 8218 3], .arr [x r 12763 3, x r 7185 3], .arr [x r 461 2, x r (-10656) 3], .arr [x r (-8438)
  3, x r (-5103) 3]]), ("v", .arr [.arr [x r 33259 3, x r (-11445) 3], .arr [x r 46982 3, x r 11716 3], .arr
  [x r 69833 3, x r 8904 3], .arr [x r 55094 3, x r (-493) 2]])]]), ("t", n 66)], .obj [("i", .obj [("x", x r
  833 3), ("y", x r 833 3)]), ("o", .obj [("x", x r 167 3), ("y", x r 167 3)]), ("s", .arr [.obj [("c", .bool
  true), ("i", .arr [.arr [x r 12719 3, x r (-1874) 3], .arr [x r (-3794) 3, x r (-18585) 3], .arr [x r
  (-6889) 3, x r 787 3], .arr [x r 124 2, x r 6591 3]]), ("o", .arr [.arr [x r (-8216) 3, x r 1211 3], .arr [x
  r 3358 3, x r 16447 3], .arr [x r 10944 3, x r (-1146) 3], .arr [x r (-1961) 3, x r (-11063) 3]]), ("v",
  .arr [.arr [x r 29337 3, x r (-13738) 3], .arr [x r 21612 3, x r 12202 3], .arr [x r 39135 3, x r 33266 3],
  .arr [x r 39324 3, x r 11311 3]])]]), ("t", n 68)], .obj [("s", .arr [.obj [("c", .bool true), ("i", .arr
  [.arr [x r 14171 3, x r (-688) 3], .arr [x r (-2246) 3, x r (-20214) 3], .arr [x r (-7653) 3, x r 103 3],
  .arr [x r 68 2, x r 7157 3]]), ("o", .arr [.arr [x r (-9155) 3, x r 413 3], .arr [x r 1987 3, x r 17888 3],
  .arr [x r 12146 3, x r (-53) 3], .arr [x r (-101) 2, x r (-12001) 3]]), ("v", .arr [.arr [x r 2108 3, x r
  (-2481) 2], .arr [x r (-9067) 3, x r 2013 3], .arr [x r 801 2, x r 26335 3], .arr [x r 10491 3, x r 2954
  3]])]]), ("t", n 76)]]

/-- A value in `examples/assets/google_fonts/Tiger.json`. -/
def tiger73 : Json F :=
  .arr [.obj [("i", .obj [("x", x r 667 3), ("y", n 1)]), ("o", .obj [("x", x r 167 3), ("y", x r 167 3)]),
  ("s", .arr [.obj [("c", .bool true), ("i", .arr [.arr [x r 1376 3, x r (-76281) 3], .arr [x r (-888) 3, x r
  (-29355) 3], .arr [n 0, n 0], .arr [x r 11693 3, x r (-15403) 3], .arr [x r (-30564) 3, x r (-6854) 3], .arr
  [x r (-12742) 3, x r 5565 3], .arr [x r (-3952) 3, x r 39113 3], .arr [x r (-2031) 3, x r 7098 3]]), ("o",
  .arr [.arr [x r (-76) 3, x r 4221 3], .arr [x r 1209 3, x r 4008 2], .arr [n 0, n 0], .arr [x r (-18306) 3,
  x r 23951 3], .arr [x r 33468 3, x r 75 1], .arr [x r 12822 3, x r (-5564) 3], .arr [x r 3951 3, x r
  (-39032) 3], .arr [x r 18958 3, x r (-66264) 3]]), ("v", .arr [.arr [x r (-171738) 3, x r 71676 3], .arr [x
  r (-169318) 3, x r 132401 3], .arr [x r (-166012) 3, x r 216754 3], .arr [x r (-189076) 3, x r 237722 3],
  .arr [x r (-170851) 3, x r 297881 3], .arr [x r (-99964) 3, x r 290705 3], .arr [x r (-65045) 3, x r 208367
  3], .arr [x r (-4432) 2, x r 87159 3]])]]), ("t", n 30)], .obj [("i", .obj [("x", x r 833 3), ("y", x r 833
  3)]), ("o", .obj [("x", x r 333 3), ("y", n 0)]), ("s", .arr [.obj [("c", .bool true), ("i", .arr [.arr [x r
  2589 3, x r (-58386) 3], .arr [x r (-888) 3, x r (-29355) 3], .arr [n 0, n 0], .arr [x r 11693 3, x r
  (-15403) 3], .arr [x r (-30564) 3, x r (-6854) 3], .arr [x r (-12742) 3, x r 5565 3], .arr [x r (-3952) 3, x
  r 39113 3], .arr [x r (-13411) 3, x r 64055 3]]), ("o", .arr [.arr [x r (-187) 3, x r 4217 3], .arr [x r
  1209 3, x r 4008 2], .arr [n 0, n 0], .arr [x r (-18306) 3, x r 23951 3], .arr [x r 33468 3, x r 75 1], .arr
  [x r 12822 3, x r (-5564) 3], .arr [x r 3951 3, x r (-39032) 3], .arr [x r 13411 3, x r (-64055) 3]]), ("v",
  .arr [.arr [x r (-171738) 3, x r 81676 3], .arr [x r (-169318) 3, x r 1324 1], .arr [x r (-166012) 3, x r
  216754 3], .arr [x r (-189076) 3, x r 237722 3], .arr [x r (-170851) 3, x r 297881 3], .arr [x r (-99964) 3,
  x r 290705 3], .arr [x r (-65045) 3, x r 208367 3], .arr [x r (-4432) 2, x r 97159 3]])]]), ("t", n 38)],
  .obj [("i", .obj [("x", x r 667 3), ("y", n 1)]), ("o", .obj [("x", x r 167 3), ("y", x r 167 3)]), ("s",
  .arr [.obj [("c", .bool true), ("i", .arr [.arr [x r 1376 3, x r (-76281) 3], .arr [x r (-888) 3, x r
  (-29355) 3], .arr [n 0, n 0], .arr [x r 11693 3, x r (-15403) 3], .arr [x r (-30564) 3, x r (-6854) 3], .arr
  [x r (-12742) 3, x r 5565 3], .arr [x r (-3952) 3, x r 39113 3], .arr [x r (-2031) 3, x r 7098 3]]), ("o",
  .arr [.arr [x r (-76) 3, x r 4221 3], .arr [x r 1209 3, x r 4008 2], .arr [n 0, n 0], .arr [x r (-18306) 3,
  x r 23951 3], .arr [x r 33468 3, x r 75 1], .arr [x r 12822 3, x r (-5564) 3], .arr [x r 3951 3, x r
  (-39032) 3], .arr [x r 18958 3, x r (-66264) 3]]), ("v", .arr [.arr [x r (-171738) 3, x r 71676 3], .arr [x
  r (-169318) 3, x r 132401 3], .arr [x r (-166012) 3, x r 216754 3], .arr [x r (-189076) 3, x r 237722 3],
  .arr [x r (-170851) 3, x r 297881 3], .arr [x r (-99964) 3, x r 290705 3], .arr [x r (-65045) 3, x r 208367
  3], .arr [x r (-4432) 2, x r 87159 3]])]]), ("t", n 48)], .obj [("i", .obj [("x", x r 833 3), ("y", x r 833
  3)]), ("o", .obj [("x", x r 333 3), ("y", n 0)]), ("s", .arr [.obj [("c", .bool true), ("i", .arr [.arr [x r
  4283 3, x r (-63028) 3], .arr [x r (-55) 3, x r (-29105) 3], .arr [n 0, n 0], .arr [x r 6415 3, x r (-1806)
  2], .arr [x r (-30924) 3, x r 2715 3], .arr [x r (-10381) 3, x r 9058 3], .arr [x r 1808 3, x r 33816 3],
  .arr [x r (-16618) 3, x r 78077 3]]), ("o", .arr [.arr [x r (-284) 3, x r 4174 3], .arr [x r 75 3, x r 39738
  3], .arr [n 0, n 0], .arr [x r (-10092) 3, x r 28119 3], .arr [x r 3386 2, x r (-2973) 3], .arr [x r 10437
  3, x r (-9107) 3], .arr [x r (-2076) 3, x r (-38824) 3], .arr [x r 16618 3, x r (-78077) 3]]), ("v", .arr
  [.arr [x r (-178216) 3, x r 5151 2], .arr [x r (-177521) 3, x r 111735 3], .arr [x r (-159826) 3, x r 215862
  3], .arr [x r (-175307) 3, x r 242593 3], .arr [x r (-140021) 3, x r 293932 3], .arr [x r (-71961) 3, x r
  262533 3], .arr [x r (-67208) 3, x r 185957 3], .arr [x r (-52425) 3, x r 70419 3]])]]), ("t", n 52)], .obj
  [("i", .obj [("x", x r 3 1), ("y", n 1)]), ("o", .obj [("x", x r 167 3), ("y", x r 167 3)]), ("s", .arr
  [.obj [("c", .bool true), ("i", .arr [.arr [x r 3059 3, x r (-64619) 3], .arr [x r (-732) 3, x r (-29241)
  3], .arr [x r (-1235) 3, x r (-11693) 3], .arr [x r (-2306) 2, x r (-18201) 3], .arr [x r (-16205) 3, x r
  18885 3], .arr [x r (-874) 3, x r 11011 3], .arr [x r (-1236) 3, x r 36883 3], .arr [x r (-1613) 2, x r
  78788 3]]), ("o", .arr [.arr [x r (-2) 1, x r 42 1], .arr [n 1, x r 39925 3], .arr [x r 1235 3, x r 11693
  3], .arr [x r 9972 3, x r 21774 3], .arr [x r 17744 3, x r (-20678) 3], .arr [x r 879 3, x r (-11069) 3],
  .arr [x r 1118 3, x r (-38969) 3], .arr [x r 10844 3, x r (-52196) 3]]), ("v", .arr [.arr [x r (-176131) 3,
  x r 62992 3], .arr [x r (-174031) 3, x r 123485 3], .arr [x r (-176617) 3, x r 206904 3], .arr [x r
  (-148171) 3, x r 284275 3], .arr [x r (-99175) 3, x r 29393 2], .arr [x r (-76378) 3, x r 240115 3], .arr [x
  r (-75891) 3, x r 21026 2], .arr [x r (-46812) 3, x r 62244 3]])]]), ("t", n 54)], .obj [("i", .obj [("x", x
  r 833 3), ("y", x r 833 3)]), ("o", .obj [("x", x r 7 1), ("y", n 0)]), ("s", .arr [.obj [("c", .bool true),
  ("i", .arr [.arr [x r 2151 3, x r (-65799) 3], .arr [x r (-1234) 3, x r (-29342) 3], .arr [x r (-2151) 3, x
  r (-20363) 3], .arr [x r (-44913) 3, x r (-18306) 3], .arr [x r (-5292) 3, x r 30873 3], .arr [x r 6174 3, x
  r 12458 3], .arr [x r (-57) 2, x r 14541 3], .arr [x r (-20131) 3, x r 57407 3]]), ("o", .arr [.arr [x r
  (-138) 3, x r 4219 3], .arr [x r 1685 3, x r 40063 3], .arr [x r 2151 3, x r 20363 3], .arr [x r 24847 3, x
  r 17069 3], .arr [x r 5795 3, x r (-33805) 3], .arr [x r (-6206) 3, x r (-12524) 3], .arr [x r 57 2, x r
  (-14541) 3], .arr [x r 11137 3, x r (-31759) 3]]), ("v", .arr [.arr [x r (-174586) 3, x r 71504 3], .arr [x
  r (-171444) 3, x r 132196 3], .arr [x r (-174882) 3, x r 226306 3], .arr [x r (-120733) 3, x r 302107 3],
  .arr [x r (-61573) 3, x r 280858 3], .arr [x r (-72332) 3, x r 210425 3], .arr [x r (-76188) 3, x r 172957
  3], .arr [x r (-4265) 2, x r 56184 3]])]]), ("t", n 62)], .obj [("i", .obj [("x", x r 833 3), ("y", x r 833
  3)]), ("o", .obj [("x", x r 167 3), ("y", x r 167 3)]), ("s", .arr [.obj [("c", .bool true), ("i", .arr
  [.arr [x r 1684 3, x r (-66022) 3], .arr [x r (-1363) 3, x r (-29335) 3], .arr [x r (-1254) 3, x r (-18066)
  3], .arr [x r (-22942) 3, x r (-22739) 3], .arr [x r (-13411) 3, x r 26261 3], .arr [x r 433 3, x r 10242
  3], .arr [x r (-1999) 3, x r 24004 3], .arr [x r (-17833) 3, x r 60477 3]]), ("o", .arr [.arr [x r (-108) 3,
  x r 4219 3], .arr [x r 186 2, x r 40052 3], .arr [x r 1247 3, x r 18659 3], .arr [x r 22942 3, x r 22739 3],
  .arr [x r 14685 3, x r (-28755) 3], .arr [x r (-435) 3, x r (-10295) 3], .arr [x r 2026 3, x r (-24163) 3],
  .arr [x r 11547 3, x r (-37536) 3]]), ("v", .arr [.arr [x r (-174037) 3, x r 72248 3], .arr [x r (-171056)
  3, x r 132489 3], .arr [x r (-175038) 3, x r 221781 3], .arr [x r (-14607) 2, x r 307465 3], .arr [x r
  (-84674) 3, x r 306497 3], .arr [x r (-69622) 3, x r 250573 3], .arr [x r (-74825) 3, x r 190394 3], .arr [x
  r (-42241) 3, x r 58738 3]])]]), ("t", n 66)], .obj [("i", .obj [("x", x r 833 3), ("y", x r 833 3)]), ("o",
  .obj [("x", x r 167 3), ("y", x r 167 3)]), ("s", .arr [.obj [("c", .bool true), ("i", .arr [.arr [x r 94 2,
  x r (-66378) 3], .arr [x r (-1567) 3, x r (-29322) 3], .arr [x r 173 3, x r (-14412) 3], .arr [x r (-117) 3,
  x r (-15429) 3], .arr [x r (-28357) 3, x r 799 3], .arr [x r (-8702) 3, x r 6714 3], .arr [x r (-4272) 3, x
  r 39061 3], .arr [x r (-14176) 3, x r 65362 3]]), ("o", .arr [.arr [x r (-61) 3, x r 4219 3], .arr [x r 2139
  3, x r 40035 3], .arr [x r (-192) 3, x r 15949 3], .arr [x r 1175 3, x r 26744 3], .arr [x r 3105 2, x r
  (-875) 3], .arr [x r 8747 3, x r (-675) 2], .arr [x r 4341 3, x r (-39474) 3], .arr [x r 12201 3, x r
  (-46727) 3]]), ("v", .arr [.arr [x r (-173164) 3, x r 73431 3], .arr [x r (-17044) 2, x r 132954 3], .arr [x
  r (-175287) 3, x r 21458 2], .arr [x r (-178368) 3, x r 265643 3], .arr [x r (-128443) 3, x r 311727 3],
  .arr [x r (-78615) 3, x r 289922 3], .arr [x r (-72656) 3, x r 21814 2], .arr [x r (-41591) 3, x r 62803
  3]])]]), ("t", n 68)], .obj [("s", .arr [.obj [("c", .bool true), ("i", .arr [.arr [x r (-1442) 3, x r
  (-26099) 3], .arr [x r (-888) 3, x r (-29355) 3], .arr [n 0, n 0], .arr [x r 11693 3, x r (-15403) 3], .arr
  [x r (-30564) 3, x r (-6854) 3], .arr [x r (-12742) 3, x r 5565 3], .arr [x r (-3952) 3, x r 39113 3], .arr
  [x r (-8345) 3, x r 24366 3]]), ("o", .arr [.arr [x r 233 3, x r 4215 3], .arr [x r 1209 3, x r 4008 2],
  .arr [n 0, n 0], .arr [x r (-18306) 3, x r 23951 3], .arr [x r 33468 3, x r 75 1], .arr [x r 12822 3, x r
  (-5564) 3], .arr [x r 3951 3, x r (-39032) 3], .arr [x r 8345 3, x r (-24366) 3]]), ("v", .arr [.arr [x r
  (-171738) 3, x r 71676 3], .arr [x r (-169509) 3, x r 133733 3], .arr [x r (-166012) 3, x r 216754 3], .arr
  [x r (-189076) 3, x r 237722 3], .arr [x r (-170851) 3, x r 297881 3], .arr [x r (-99964) 3, x r 290705 3],
  .arr [x r (-65045) 3, x r 208367 3], .arr [x r (-35232) 3, x r 77391 3]])]]), ("t", n 76)]]

/-- A value in `examples/assets/google_fonts/Tiger.json`. -/
def tiger74 : Json F :=
  .arr [.obj [("bm", n 0), ("cix", n 2), ("hd", .bool false), ("it", .arr [.obj [("hd", .bool false), ("ind",
  n 0), ("ix", n 1), ("ks", .obj [("a", n 1), ("ix", n 2), ("k", tiger68 r)]), ("mn", .str
  "ADBE Vector Shape - Group"), ("nm", .str "Path 1"), ("ty", .str "sh")], .obj [("bm", n 0), ("c", .obj
  [("a", n 0), ("ix", n 4), ("k", .arr [x r 2 1, x r 19199999641 11, x r 195999998205 12, n 1])]), ("hd",
  .bool false), ("mn", .str "ADBE Vector Graphic - Fill"), ("nm", .str "Fill 1"), ("o", .obj [("a", n 0),
  ("ix", n 5), ("k", n 100)]), ("r", n 1), ("ty", .str "fl")], .obj [("a", .obj [("a", n 0), ("ix", n 1),
  ("k", .arr [n 0, n 0])]), ("nm", .str "Transform"), ("o", .obj [("a", n 0), ("ix", n 7), ("k", n 100)]),
  ("p", .obj [("a", n 0), ("ix", n 2), ("k", .arr [x r 207453 3, x r 391661 3])]), ("r", .obj [("a", n 0),
  ("ix", n 6), ("k", n 0)]), ("s", .obj [("a", n 0), ("ix", n 3), ("k", .arr [n 100, n 100])]), ("sa", .obj
  [("a", n 0), ("ix", n 5), ("k", n 0)]), ("sk", .obj [("a", n 0), ("ix", n 4), ("k", n 0)]), ("ty", .str
  "tr")]]), ("ix", n 1), ("mn", .str "ADBE Vector Group"), ("nm", .str "Group 12"), ("np", n 2), ("ty", .str
  "gr")], .obj [("bm", n 0), ("cix", n 2), ("hd", .bool false), ("it", .arr [.obj [("hd", .bool false),
  ("ind", n 0), ("ix", n 1), ("ks", .obj [("a", n 1), ("ix", n 2), ("k", tiger69 r)]), ("mn", .str
  "ADBE Vector Shape - Group"), ("nm", .str "Path 1"), ("ty", .str "sh")], .obj [("bm", n 0), ("c", .obj
  [("a", n 0), ("ix", n 4), ("k", .arr [x r 2 1, x r 19199999641 11, x r 195999998205 12, n 1])]), ("hd",
  .bool false), ("mn", .str "ADBE Vector Graphic - Fill"), ("nm", .str "Fill 1"), ("o", .obj [("a", n 0),
  ("ix", n 5), ("k", n 100)]), ("r", n 1), ("ty", .str "fl")], .obj [("a", .obj [("a", n 0), ("ix", n 1),
  ("k", .arr [n 0, n 0])]), ("nm", .str "Transform"), ("o", .obj [("a", n 0), ("ix", n 7), ("k", n 100)]),
  ("p", .obj [("a", n 0), ("ix", n 2), ("k", .arr [x r 212655 3, x r 457749 3])]), ("r", .obj [("a", n 0),
  ("ix", n 6), ("k", n 0)]), ("s", .obj [("a", n 0), ("ix", n 3), ("k", .arr [n 100, n 100])]), ("sa", .obj
  [("a", n 0), ("ix", n 5), ("k", n 0)]), ("sk", .obj [("a", n 0), ("ix", n 4), ("k", n 0)]), ("ty", .str
  "tr")]]), ("ix", n 2), ("mn", .str "ADBE Vector Group"), ("nm", .str "Group 13"), ("np", n 2), ("ty", .str
  "gr")], .obj [("bm", n 0), ("cix", n 2), ("hd", .bool false), ("it", .arr [.obj [("hd", .bool false),
  ("ind", n 0), ("ix", n 1), ("ks", .obj [("a", n 1), ("ix", n 2), ("k", tiger70 r)]), ("mn", .str
  "ADBE Vector Shape - Group"), ("nm", .str "Path 1"), ("ty", .str "sh")], .obj [("bm", n 0), ("c", .obj
  [("a", n 0), ("ix", n 4), ("k", .arr [x r 732999973671 12, x r 365000017952 12, x r 258999992819 12, n
  1])]), ("hd", .bool false), ("mn", .str "ADBE Vector Graphic - Fill"), ("nm", .str "Fill 1"), ("o", .obj
  [("a", n 0), ("ix", n 5), ("k", n 100)]), ("r", n 1), ("ty", .str "fl")], .obj [("a", .obj [("a", n 0),
  ("ix", n 1), ("k", .arr [n 0, n 0])]), ("nm", .str "Transform"), ("o", .obj [("a", n 0), ("ix", n 7), ("k",
  n 100)]), ("p", .obj [("a", n 0), ("ix", n 2), ("k", .arr [x r 380919 3, x r 482587 3])]), ("r", .obj [("a",
  n 0), ("ix", n 6), ("k", n 0)]), ("s", .obj [("a", n 0), ("ix", n 3), ("k", .arr [n 100, n 100])]), ("sa",
  .obj [("a", n 0), ("ix", n 5), ("k", n 0)]), ("sk", .obj [("a", n 0), ("ix", n 4), ("k", n 0)]), ("ty", .str
  "tr")]]), ("ix", n 3), ("mn", .str "ADBE Vector Group"), ("nm", .str "Group 15"), ("np", n 2), ("ty", .str
  "gr")], .obj [("bm", n 0), ("cix", n 2), ("hd", .bool false), ("it", .arr [.obj [("hd", .bool false),
  ("ind", n 0), ("ix", n 1), ("ks", .obj [("a", n 1), ("ix", n 2), ("k", tiger71 r)]), ("mn", .str
  "ADBE Vector Shape - Group"), ("nm", .str "Path 1"), ("ty", .str "sh")], .obj [("bm", n 0), ("c", .obj
  [("a", n 0), ("ix", n 4), ("k", .arr [x r 995999983245 12, x r 416000007181 12, x r 122000002394 12, n
  1])]), ("hd", .bool false), ("mn", .str "ADBE Vector Graphic - Fill"), ("nm", .str "Fill 1"), ("o", .obj
  [("a", n 0), ("ix", n 5), ("k", n 100)]), ("r", n 1), ("ty", .str "fl")], .obj [("a", .obj [("a", n 0),
  ("ix", n 1), ("k", .arr [n 0, n 0])]), ("nm", .str "Transform"), ("o", .obj [("a", n 0), ("ix", n 7), ("k",
  n 100)]), ("p", .obj [("a", n 0), ("ix", n 2), ("k", .arr [x r 151526 3, x r 574884 3])]), ("r", .obj [("a",
  n 0), ("ix", n 6), ("k", n 0)]), ("s", .obj [("a", n 0), ("ix", n 3), ("k", .arr [n 100, n 100])]), ("sa",
  .obj [("a", n 0), ("ix", n 5), ("k", n 0)]), ("sk", .obj [("a", n 0), ("ix", n 4), ("k", n 0)]), ("ty", .str
  "tr")]]), ("ix", n 4), ("mn", .str "ADBE Vector Group"), ("nm", .str "Group 16"), ("np", n 2), ("ty", .str
  "gr")], .obj [("bm", n 0), ("cix", n 2), ("hd", .bool false), ("it", .arr [.obj [("hd", .bool false),
  ("ind", n 0), ("ix", n 1), ("ks", .obj [("a", n 1), ("ix", n 2), ("k", tiger72 r)]), ("mn", .str
  "ADBE Vector Shape - Group"), ("nm", .str "Path 1"), ("ty", .str "sh")], .obj [("bm", n 0), ("c", .obj
  [("a", n 0), ("ix", n 4), ("k", .arr [x r 995999983245 12, x r 416000007181 12, x r 122000002394 12, n
  1])]), ("hd", .bool false), ("mn", .str "ADBE Vector Graphic - Fill"), ("nm", .str "Fill 1"), ("o", .obj
  [("a", n 0), ("ix", n 5), ("k", n 100)]), ("r", n 1), ("ty", .str "fl")], .obj [("a", .obj [("a", n 0),
  ("ix", n 1), ("k", .arr [n 0, n 0])]), ("nm", .str "Transform"), ("o", .obj [("a", n 0), ("ix", n 7), ("k",
  n 100)]), ("p", .obj [("a", n 0), ("ix", n 2), ("k", .arr [x r 192615 3, x r 581417 3])]), ("r", .obj [("a",
  n 0), ("ix", n 6), ("k", n 0)]), ("s", .obj [("a", n 0), ("ix", n 3), ("k", .arr [n 100, n 100])]), ("sa",
  .obj [("a", n 0), ("ix", n 5), ("k", n 0)]), ("sk", .obj [("a", n 0), ("ix", n 4), ("k", n 0)]), ("ty", .str
  "tr")]]), ("ix", n 5), ("mn", .str "ADBE Vector Group"), ("nm", .str "Group 17"), ("np", n 2), ("ty", .str
  "gr")], .obj [("bm", n 0), ("cix", n 2), ("hd", .bool false), ("it", .arr [.obj [("hd", .bool false),
  ("ind", n 0), ("ix", n 1), ("ks", .obj [("a", n 1), ("ix", n 2), ("k", tiger73 r)]), ("mn", .str
  "ADBE Vector Shape - Group"), ("nm", .str "Path 1"), ("ty", .str "sh")], .obj [("bm", n 0), ("c", .obj
  [("a", n 0), ("ix", n 4), ("k", .arr [n 1, x r 588000009574 12, x r 75 3, n 1])]), ("hd", .bool false),
  ("mn", .str "ADBE Vector Graphic - Fill"), ("nm", .str "Fill 1"), ("o", .obj [("a", n 0), ("ix", n 5), ("k",
  n 100)]), ("r", n 1), ("ty", .str "fl")], .obj [("a", .obj [("a", n 0), ("ix", n 1), ("k", .arr [n 0, n
  0])]), ("nm", .str "Transform"), ("o", .obj [("a", n 0), ("ix", n 7), ("k", n 100)]), ("p", .obj [("a", n
  0), ("ix", n 2), ("k", .arr [x r 338022 3, x r 305631 3])]), ("r", .obj [("a", n 0), ("ix", n 6), ("k", n
  0)]), ("s", .obj [("a", n 0), ("ix", n 3), ("k", .arr [n 100, n 100])]), ("sa", .obj [("a", n 0), ("ix", n
  5), ("k", n 0)]), ("sk", .obj [("a", n 0), ("ix", n 4), ("k", n 0)]), ("ty", .str "tr")]]), ("ix", n 6),
  ("mn", .str "ADBE Vector Group"), ("nm", .str "Group 18"), ("np", n 2), ("ty", .str "gr")]]

/-- A value in `examples/assets/google_fonts/Tiger.json`. -/
def tiger75 : Json F :=
  .arr [.obj [("i", .obj [("x", x r 667 3), ("y", n 1)]), ("o", .obj [("x", x r 167 3), ("y", x r 167 3)]),
  ("s", .arr [.obj [("c", .bool true), ("i", .arr [.arr [x r (-14919) 3, x r 12258 3], .arr [x r 10564 3, x r
  (-8548) 3], .arr [x r 2097 3, x r (-20242) 3], .arr [x r (-7742) 3, x r (-15484) 3], .arr [x r 1291 3, x r
  (-1048) 3], .arr [x r 3951 3, x r 4032 3], .arr [n 0, n 0], .arr [x r 5564 3, n 0], .arr [x r 10403 3, x r
  21532 3], .arr [x r 13561 3, x r 19026 3]]), ("o", .arr [.arr [x r 42062 3, x r (-34282) 3], .arr [x r
  (-18225) 3, x r 14758 3], .arr [x r (-637) 2, x r 60644 3], .arr [x r 5484 3, x r 11129 3], .arr [x r
  (-6774) 3, x r 5727 3], .arr [x r (-3952) 3, x r (-3952) 3], .arr [n 0, n 0], .arr [x r (-758) 2, n 0], .arr
  [x r (-10403) 3, x r (-21532) 3], .arr [x r (-13561) 3, x r (-19024) 3]]), ("v", .arr [.arr [x r (-10268) 3,
  x r (-8243) 2], .arr [x r 66256 3, x r (-62803) 3], .arr [x r 38756 3, x r (-74) 1], .arr [x r 60127 3, x r
  68243 3], .arr [x r 65529 3, x r 110984 3], .arr [x r 3166 2, x r 87841 3], .arr [x r 14886 3, x r 70259 3],
  .arr [x r 8515 3, x r 84615 3], .arr [x r (-29792) 3, x r 42357 3], .arr [x r (-63259) 3, x r (-15063)
  3]])]]), ("t", n 30)], .obj [("i", .obj [("x", x r 833 3), ("y", x r 833 3)]), ("o", .obj [("x", x r 333 3),
  ("y", n 0)]), ("s", .arr [.obj [("c", .bool true), ("i", .arr [.arr [x r (-14919) 3, x r 12258 3], .arr [x r
  10564 3, x r (-8548) 3], .arr [x r 2097 3, x r (-20242) 3], .arr [x r (-7742) 3, x r (-15484) 3], .arr [x r
  1291 3, x r (-1048) 3], .arr [x r 3951 3, x r 4032 3], .arr [n 0, n 0], .arr [x r 5564 3, n 0], .arr [x r
  10403 3, x r 21532 3], .arr [x r 13561 3, x r 19026 3]]), ("o", .arr [.arr [x r 42062 3, x r (-34282) 3],
  .arr [x r (-18225) 3, x r 14758 3], .arr [x r (-637) 2, x r 60644 3], .arr [x r 5484 3, x r 11129 3], .arr
  [x r (-6774) 3, x r 5727 3], .arr [x r (-3952) 3, x r (-3952) 3], .arr [n 0, n 0], .arr [x r (-758) 2, n 0],
  .arr [x r (-10403) 3, x r (-21532) 3], .arr [x r (-13561) 3, x r (-19024) 3]]), ("v", .arr [.arr [x r
  (-10268) 3, x r (-7243) 2], .arr [x r 66256 3, x r (-52803) 3], .arr [x r 38756 3, x r 26 1], .arr [x r
  60127 3, x r 78243 3], .arr [x r 65529 3, x r 120984 3], .arr [x r 3166 2, x r 97841 3], .arr [x r 14886 3,
  x r 80259 3], .arr [x r 8515 3, x r 94615 3], .arr [x r (-29792) 3, x r 52357 3], .arr [x r (-63259) 3, x r
  (-5063) 3]])]]), ("t", n 38)], .obj [("i", .obj [("x", x r 3 1), ("y", n 1)]), ("o", .obj [("x", x r 167 3),
  ("y", x r 167 3)]), ("s", .arr [.obj [("c", .bool true), ("i", .arr [.arr [x r (-14919) 3, x r 12258 3],
  .arr [x r 10564 3, x r (-8548) 3], .arr [x r 2097 3, x r (-20242) 3], .arr [x r (-7742) 3, x r (-15484) 3],
  .arr [x r 1291 3, x r (-1048) 3], .arr [x r 3951 3, x r 4032 3], .arr [n 0, n 0], .arr [x r 5564 3, n 0],
  .arr [x r 10403 3, x r 21532 3], .arr [x r 13561 3, x r 19026 3]]), ("o", .arr [.arr [x r 42062 3, x r
  (-34282) 3], .arr [x r (-18225) 3, x r 14758 3], .arr [x r (-637) 2, x r 60644 3], .arr [x r 5484 3, x r
  11129 3], .arr [x r (-6774) 3, x r 5727 3], .arr [x r (-3952) 3, x r (-3952) 3], .arr [n 0, n 0], .arr [x r
  (-758) 2, n 0], .arr [x r (-10403) 3, x r (-21532) 3], .arr [x r (-13561) 3, x r (-19024) 3]]), ("v", .arr
  [.arr [x r (-10268) 3, x r (-8243) 2], .arr [x r 66256 3, x r (-62803) 3], .arr [x r 38756 3, x r (-74) 1],
  .arr [x r 60127 3, x r 68243 3], .arr [x r 65529 3, x r 110984 3], .arr [x r 3166 2, x r 87841 3], .arr [x r
  14886 3, x r 70259 3], .arr [x r 8515 3, x r 84615 3], .arr [x r (-29792) 3, x r 42357 3], .arr [x r
  (-63259) 3, x r (-15063) 3]])]]), ("t", n 48)], .obj [("i", .obj [("x", x r 833 3), ("y", x r 833 3)]),
  ("o", .obj [("x", x r 7 1), ("y", n 0)]), ("s", .arr [.obj [("c", .bool true), ("i", .arr [.arr [x r
  (-17639) 3, x r 7855 3], .arr [x r 12453 3, x r (-5439) 3], .arr [x r 7425 3, x r (-18947) 3], .arr [x r
  (-3351) 3, x r (-16984) 3], .arr [x r 1523 3, x r (-667) 3], .arr [x r 2738 3, x r 4937 3], .arr [n 0, n 0],
  .arr [x r 5364 3, x r 1478 3], .arr [x r 431 2, x r 23522 3], .arr [x r 8021 3, x r 21944 3]]), ("o", .arr
  [.arr [x r 49657 3, x r (-21878) 3], .arr [x r (-2149) 2, x r 9387 3], .arr [x r (-2225) 2, x r 56773 3],
  .arr [x r 2331 3, x r 12186 3], .arr [x r (-8052) 3, x r 3722 3], .arr [x r (-276) 2, x r (-486) 2], .arr [n
  0, n 0], .arr [x r (-7308) 3, x r (-2013) 3], .arr [x r (-431) 2, x r (-23522) 3], .arr [x r (-8021) 3, x r
  (-21943) 3]]), ("v", .arr [.arr [x r 25631 3, x r (-147999) 3], .arr [x r 111192 3, x r (-136752) 3], .arr
  [x r 52964 3, x r (-62644) 3], .arr [x r 53474 3, x r 15959 3], .arr [x r 4733 2, x r 586 1], .arr [x r
  20824 3, x r 27291 3], .arr [x r 9323 3, x r 5886 3], .arr [x r (-633) 3, x r 18033 3], .arr [x r (-26338)
  3, x r (-32882) 3], .arr [x r (-43351) 3, x r (-97128) 3]])]]), ("t", n 58)], .obj [("i", .obj [("x", x r
  833 3), ("y", x r 833 3)]), ("o", .obj [("x", x r 167 3), ("y", x r 167 3)]), ("s", .arr [.obj [("c", .bool
  true), ("i", .arr [.arr [x r (-14919) 3, x r 12258 3], .arr [x r 10564 3, x r (-8548) 3], .arr [x r 2097 3,
  x r (-20242) 3], .arr [x r (-6479) 3, x r (-16053) 3], .arr [x r 1371 3, x r (-941) 3], .arr [x r 3951 3, x
  r 4032 3], .arr [n 0, n 0], .arr [x r 5564 3, n 0], .arr [x r 10403 3, x r 21532 3], .arr [x r 13561 3, x r
  19026 3]]), ("o", .arr [.arr [x r 42062 3, x r (-34282) 3], .arr [x r (-18225) 3, x r 14758 3], .arr [x r
  (-637) 2, x r 60644 3], .arr [x r 4577 3, x r 11532 3], .arr [x r (-721) 2, x r 5167 3], .arr [x r (-3952)
  3, x r (-3952) 3], .arr [n 0, n 0], .arr [x r (-758) 2, n 0], .arr [x r (-10403) 3, x r (-21532) 3], .arr [x
  r (-13561) 3, x r (-19024) 3]]), ("v", .arr [.arr [x r (-10268) 3, x r (-8243) 2], .arr [x r 66256 3, x r
  (-62803) 3], .arr [x r 38756 3, x r (-74) 1], .arr [x r 62815 3, x r 61551 3], .arr [x r 64784 3, x r 104587
  3], .arr [x r 31659 3, x r 87841 3], .arr [x r 14886 3, x r 70259 3], .arr [x r 8515 3, x r 84615 3], .arr
  [x r (-29791) 3, x r 42357 3], .arr [x r (-45259) 3, x r (-31063) 3]])]]), ("t", n 70)], .obj [("i", .obj
  [("x", x r 833 3), ("y", x r 833 3)]), ("o", .obj [("x", x r 167 3), ("y", x r 167 3)]), ("s", .arr [.obj
  [("c", .bool true), ("i", .arr [.arr [x r (-14919) 3, x r 12258 3], .arr [x r 10564 3, x r (-8548) 3], .arr
  [x r 205 3, x r (-18379) 3], .arr [x r 4918 3, x r (-1118) 2], .arr [x r 449 2, x r (-4989) 3], .arr [n 0, n
  0], .arr [n 0, n 0], .arr [x r 8351 3, x r (-5201) 3], .arr [x r 9391 3, x r 3136 3], .arr [x r 13809 3, x r
  12541 3]]), ("o", .arr [.arr [x r 42062 3, x r (-34282) 3], .arr [x r (-18225) 3, x r 14758 3], .arr [x r
  (-205) 3, x r 18379 3], .arr [x r (-4918) 3, x r 1118 2], .arr [x r (-833) 2, x r 9255 3], .arr [n 0, n 0],
  .arr [n 0, n 0], .arr [x r (-5032) 3, x r 3134 3], .arr [x r (-16466) 3, x r (-5498) 3], .arr [x r (-17295)
  3, x r (-15707) 3]]), ("v", .arr [.arr [x r (-10268) 3, x r (-243) 2], .arr [x r 66256 3, x r 17197 3], .arr
  [x r 98756 3, x r 881 1], .arr [x r 92968 3, x r 136798 3], .arr [x r 6638 2, x r 158224 3], .arr [x r 45618
  3, x r 172945 3], .arr [x r 39654 3, x r 152277 3], .arr [x r 37199 3, x r 16268 2], .arr [x r (-3484) 3, x
  r 151477 3], .arr [x r (-50759) 3, x r 123938 3]])]]), ("t", n 76)], .obj [("s", .arr [.obj [("c", .bool
  true), ("i", .arr [.arr [x r (-14919) 3, x r 12258 3], .arr [x r 10564 3, x r (-8548) 3], .arr [x r 2097 3,
  x r (-20242) 3], .arr [x r (-4695) 3, x r (-16663) 3], .arr [x r 1653 3, x r 18 2], .arr [x r 977 3, x r 556
  2], .arr [n 0, n 0], .arr [x r 5465 3, x r 1046 3], .arr [x r 6172 3, x r 23103 3], .arr [x r 13561 3, x r
  19026 3]]), ("o", .arr [.arr [x r 42062 3, x r (-34282) 3], .arr [x r (-18225) 3, x r 14758 3], .arr [x r
  (-637) 2, x r 60644 3], .arr [x r 3295 3, x r 11961 3], .arr [x r (-8836) 3, x r (-783) 3], .arr [x r
  (-1024) 3, x r (-5494) 3], .arr [n 0, n 0], .arr [x r (-7445) 3, x r (-1424) 3], .arr [x r (-6172) 3, x r
  (-23103) 3], .arr [x r (-13561) 3, x r (-19024) 3]]), ("v", .arr [.arr [x r (-10268) 3, x r (-243) 2], .arr
  [x r 66256 3, x r 17197 3], .arr [x r 38756 3, x r 726 1], .arr [x r 70968 3, x r 153298 3], .arr [x r 6588
  2, x r 149724 3], .arr [x r 39618 3, x r 107445 3], .arr [x r 26154 3, x r 146777 3], .arr [x r 17199 3, x r
  15968 2], .arr [x r (-12484) 3, x r 110977 3], .arr [x r (-63259) 3, x r 64938 3]])]]), ("t", n 246)]]

/-- A value in `examples/assets/google_fonts/Tiger.json`. -/
def tiger76 : Json F :=
  .obj [("c", .bool true), ("i", .arr [.arr [x r (-2742) 3, x r 1533 3], .arr [x r (-4508) 2, x r 5161 3],
  .arr [n 0, n 0], .arr [x r (-1992) 2, x r (-20323) 3], .arr [x r (-1532) 3, x r (-2823) 3], .arr [x r 2581
  3, x r (-6855) 3], .arr [x r (-968) 3, x r (-30806) 3], .arr [x r (-13951) 3, x r (-1613) 3], .arr [x r 879
  2, x r 5242 3], .arr [x r (-323) 3, x r 28951 3], .arr [x r (-121) 2, x r 7177 3], .arr [x r 1209 3, x r
  2822 3], .arr [x r 9677 3, x r 12016 3], .arr [x r 3628 3, x r 3227 3], .arr [x r 32015 3, x r (-371) 2],
  .arr [x r 12339 3, x r (-14193) 3]]), ("o", .arr [.arr [x r 2822 3, x r (-1612) 3], .arr [x r 39677 3, x r
  (-4597) 3], .arr [n 0, n 0], .arr [x r 19919 3, x r 20323 3], .arr [x r 1613 3, x r 2822 3], .arr [x r
  (-564) 3, x r 1613 3], .arr [x r 806 3, x r 27096 3], .arr [x r 13952 3, x r 1612 3], .arr [x r (-879) 2, x
  r (-5161) 3], .arr [x r 403 3, x r (-37984) 3], .arr [x r 121 2, x r (-7178) 3], .arr [x r (-121) 2, x r
  (-2823) 3], .arr [x r (-17016) 3, x r (-2121) 2], .arr [x r (-3629) 3, x r (-3225) 3], .arr [x r (-22581) 3,
  x r 258 2], .arr [x r (-3951) 3, x r 4516 3]]), ("v", .arr [.arr [x r (-77701) 3, x r (-84314) 3], .arr [x r
  (-1412) 3, x r (-97458) 3], .arr [x r 73104 3, x r (-104636) 3], .arr [x r 95039 3, x r (-60765) 3], .arr [x
  r 135683 3, x r (-22862) 3], .arr [x r 13528 2, x r 19395 3], .arr [x r 104797 3, x r 74556 3], .arr [x r
  143102 3, x r 11512 2], .arr [x r 154151 3, x r 111007 3], .arr [x r 122458 3, x r 73346 3], .arr [x r
  152457 3, x r 18992 3], .arr [x r 150038 3, x r (-32862) 3], .arr [x r 110119 3, x r (-73507) 3], .arr [x r
  94152 3, x r (-120604) 3], .arr [x r (-3589) 3, x r (-117377) 3], .arr [x r (-97298) 3, x r (-93426) 3]])]

/-- A value in `examples/assets/google_fonts/Tiger.json`. -/
def tiger77 : Json F :=
  .obj [("c", .bool true), ("i", .arr [.arr [x r (-2742) 3, x r 1533 3], .arr [x r (-4508) 2, x r 5161 3],
  .arr [n 0, n 0], .arr [x r (-1992) 2, x r (-20323) 3], .arr [x r (-1532) 3, x r (-2823) 3], .arr [x r 2581
  3, x r (-6855) 3], .arr [x r (-968) 3, x r (-30806) 3], .arr [x r (-13951) 3, x r (-1613) 3], .arr [x r 879
  2, x r 5242 3], .arr [x r (-323) 3, x r 28951 3], .arr [x r (-121) 2, x r 7177 3], .arr [x r 1209 3, x r
  2822 3], .arr [x r 9677 3, x r 12016 3], .arr [x r 3628 3, x r 3227 3], .arr [x r 32015 3, x r (-371) 2],
  .arr [x r 12339 3, x r (-14193) 3]]), ("o", .arr [.arr [x r 2822 3, x r (-1612) 3], .arr [x r 39677 3, x r
  (-4597) 3], .arr [n 0, n 0], .arr [x r 19919 3, x r 20323 3], .arr [x r 1613 3, x r 2822 3], .arr [x r
  (-564) 3, x r 1613 3], .arr [x r 806 3, x r 27096 3], .arr [x r 13952 3, x r 1612 3], .arr [x r (-879) 2, x
  r (-5161) 3], .arr [x r 403 3, x r (-37984) 3], .arr [x r 121 2, x r (-7178) 3], .arr [x r (-121) 2, x r
  (-2823) 3], .arr [x r (-17016) 3, x r (-2121) 2], .arr [x r (-3629) 3, x r (-3225) 3], .arr [x r (-22581) 3,
  x r 258 2], .arr [x r (-3951) 3, x r 4516 3]]), ("v", .arr [.arr [x r (-77701) 3, x r (-84314) 3], .arr [x r
  (-1412) 3, x r (-97458) 3], .arr [x r 73104 3, x r (-104636) 3], .arr [x r 95039 3, x r (-60765) 3], .arr [x
  r 135683 3, x r (-22862) 3], .arr [x r 13528 2, x r 19395 3], .arr [x r 104797 3, x r 74556 3], .arr [x r
  143102 3, x r 11512 2], .arr [x r 154151 3, x r 111007 3], .arr [x r 122458 3, x r 73346 3], .arr [x r
  152457 3, x r 18992 3], .arr [x r 150038 3, x r (-32862) 3], .arr [x r 110119 3, x r (-73507) 3], .arr [x r
  94152 3, x r (-120604) 3], .arr [x r (-3589) 3, x r (-117377) 3], .arr [x r (-97298) 3, x r (-93426) 3]])]

/-- A value in `examples/assets/google_fonts/Tiger.json`. -/
def tiger78 : Json F :=
  .obj [("c", .bool true), ("i", .arr [.arr [x r (-2742) 3, x r 1533 3], .arr [x r (-4508) 2, x r 5161 3],
  .arr [n 0, n 0], .arr [x r (-1992) 2, x r (-20323) 3], .arr [x r (-1532) 3, x r (-2823) 3], .arr [x r 2581
  3, x r (-6855) 3], .arr [x r (-968) 3, x r (-30806) 3], .arr [x r (-13951) 3, x r (-1613) 3], .arr [x r 879
  2, x r 5242 3], .arr [x r (-323) 3, x r 28951 3], .arr [x r (-121) 2, x r 7177 3], .arr [x r 1209 3, x r
  2822 3], .arr [x r 9677 3, x r 12016 3], .arr [x r 3628 3, x r 3227 3], .arr [x r 32015 3, x r (-371) 2],
  .arr [x r 12339 3, x r (-14193) 3]]), ("o", .arr [.arr [x r 2822 3, x r (-1612) 3], .arr [x r 39677 3, x r
  (-4597) 3], .arr [n 0, n 0], .arr [x r 19919 3, x r 20323 3], .arr [x r 1613 3, x r 2822 3], .arr [x r
  (-564) 3, x r 1613 3], .arr [x r 806 3, x r 27096 3], .arr [x r 13952 3, x r 1612 3], .arr [x r (-879) 2, x
  r (-5161) 3], .arr [x r 403 3, x r (-37984) 3], .arr [x r 121 2, x r (-7178) 3], .arr [x r (-121) 2, x r
  (-2823) 3], .arr [x r (-17016) 3, x r (-2121) 2], .arr [x r (-3629) 3, x r (-3225) 3], .arr [x r (-22581) 3,
  x r 258 2], .arr [x r (-3951) 3, x r 4516 3]]), ("v", .arr [.arr [x r (-77701) 3, x r (-74314) 3], .arr [x r
  (-1412) 3, x r (-87458) 3], .arr [x r 73104 3, x r (-94636) 3], .arr [x r 95039 3, x r (-50765) 3], .arr [x
  r 135683 3, x r (-12862) 3], .arr [x r 13528 2, x r 19395 3], .arr [x r 104797 3, x r 74556 3], .arr [x r
  143102 3, x r 11512 2], .arr [x r 154151 3, x r 111007 3], .arr [x r 122458 3, x r 73346 3], .arr [x r
  152457 3, x r 18992 3], .arr [x r 150038 3, x r (-22862) 3], .arr [x r 110119 3, x r (-63507) 3], .arr [x r
  94152 3, x r (-110604) 3], .arr [x r (-3589) 3, x r (-107377) 3], .arr [x r (-97298) 3, x r (-83426) 3]])]

/-- A value in `examples/assets/google_fonts/Tiger.json`. -/
def tiger79 : Json F :=
  .obj [("c", .bool true), ("i", .arr [.arr [x r (-2742) 3, x r 1533 3], .arr [x r (-4508) 2, x r 5161 3],
  .arr [n 0, n 0], .arr [x r (-1992) 2, x r (-20323) 3], .arr [x r (-1532) 3, x r (-2823) 3], .arr [x r 2581
  3, x r (-6855) 3], .arr [x r (-968) 3, x r (-30806) 3], .arr [x r (-13951) 3, x r (-1613) 3], .arr [x r 879
  2, x r 5242 3], .arr [x r (-323) 3, x r 28951 3], .arr [x r (-121) 2, x r 7177 3], .arr [x r 1209 3, x r
  2822 3], .arr [x r 9677 3, x r 12016 3], .arr [x r 3628 3, x r 3227 3], .arr [x r 32015 3, x r (-371) 2],
  .arr [x r 12339 3, x r (-14193) 3]]), ("o", .arr [.arr [x r 2822 3, x r (-1612) 3], .arr [x r 39677 3, x r
  (-4597) 3], .arr [n 0, n 0], .arr [x r 19919 3, x r 20323 3], .arr [x r 1613 3, x r 2822 3], .arr [x r
  (-564) 3, x r 1613 3], .arr [x r 806 3, x r 27096 3], .arr [x r 13952 3, x r 1612 3], .arr [x r (-879) 2, x
  r (-5161) 3], .arr [x r 403 3, x r (-37984) 3], .arr [x r 121 2, x r (-7178) 3], .arr [x r (-121) 2, x r
  (-2823) 3], .arr [x r (-17016) 3, x r (-2121) 2], .arr [x r (-3629) 3, x r (-3225) 3], .arr [x r (-22581) 3,
  x r 258 2], .arr [x r (-3951) 3, x r 4516 3]]), ("v", .arr [.arr [x r (-77701) 3, x r (-84314) 3], .arr [x r
  (-1412) 3, x r (-97458) 3], .arr [x r 73104 3, x r (-104636) 3], .arr [x r 95039 3, x r (-60765) 3], .arr [x
  r 135683 3, x r (-22862) 3], .arr [x r 13528 2, x r 19395 3], .arr [x r 104797 3, x r 74556 3], .arr [x r
  143102 3, x r 11512 2], .arr [x r 154151 3, x r 111007 3], .arr [x r 122458 3, x r 73346 3], .arr [x r
  152457 3, x r 18992 3], .arr [x r 150038 3, x r (-32862) 3], .arr [x r 110119 3, x r (-73507) 3], .arr [x r
  94152 3, x r (-120604) 3], .arr [x r (-3589) 3, x r (-117377) 3], .arr [x r (-97298) 3, x r (-93426) 3]])]

/-- A value in `examples/assets/google_fonts/Tiger.json`. -/
def tiger80 : Json F :=
  .obj [("c", .bool true), ("i", .arr [.arr [x r (-2905) 3, x r 1126 3], .arr [x r (-44951) 3, x r (-136) 2],
  .arr [n 0, n 0], .arr [x r (-1992) 2, x r (-20323) 3], .arr [x r (-1532) 3, x r (-2823) 3], .arr [x r 2581
  3, x r (-6855) 3], .arr [x r (-968) 3, x r (-30806) 3], .arr [x r (-13951) 3, x r (-1613) 3], .arr [x r 879
  2, x r 5242 3], .arr [x r (-323) 3, x r 28951 3], .arr [x r (-121) 2, x r 7177 3], .arr [x r 1209 3, x r
  2822 3], .arr [x r 14636 3, x r 20256 3], .arr [x r 412 2, x r 562 3], .arr [x r 31926 3, x r 945 3], .arr
  [x r 14132 3, x r (-12152) 3]]), ("o", .arr [.arr [x r 2998 3, x r (-1177) 3], .arr [x r 39567 3, x r 1172
  3], .arr [n 0, n 0], .arr [x r 19919 3, x r 20323 3], .arr [x r 1613 3, x r 2822 3], .arr [x r (-564) 3, x r
  1613 3], .arr [x r 806 3, x r 27096 3], .arr [x r 13952 3, x r 1612 3], .arr [x r (-879) 2, x r (-5161) 3],
  .arr [x r 403 3, x r (-37984) 3], .arr [x r 121 2, x r (-7178) 3], .arr [x r (-121) 2, x r (-2823) 3], .arr
  [x r (-1802) 2, x r (-24495) 3], .arr [x r (-1456) 2, x r 3387 3], .arr [x r (-22513) 3, x r (-703) 3], .arr
  [x r (-4521) 3, x r 3863 3]]), ("v", .arr [.arr [x r (-89443) 3, x r (-93117) 3], .arr [x r (-1275) 2, x r
  (-95085) 3], .arr [x r 73104 3, x r (-93453) 3], .arr [x r 90997 3, x r (-42845) 3], .arr [x r 131641 3, x r
  (-4942) 3], .arr [x r 128544 3, x r 26671 3], .arr [x r 104797 3, x r 74556 3], .arr [x r 143102 3, x r
  11512 2], .arr [x r 154151 3, x r 111007 3], .arr [x r 122458 3, x r 73346 3], .arr [x r 145721 3, x r 26268
  3], .arr [x r 148287 3, x r (-15211) 3], .arr [x r 111736 3, x r (-60572) 3], .arr [x r 87011 3, x r
  (-116023) 3], .arr [x r (-12033) 3, x r (-11493) 2], .arr [x r (-107357) 3, x r (-104858) 3]])]

/-- A value in `examples/assets/google_fonts/Tiger.json`. -/
def tiger81 : Json F :=
  .obj [("c", .bool true), ("i", .arr [.arr [x r (-3044) 3, x r 778 3], .arr [x r (-44841) 3, x r (-6938) 3],
  .arr [n 0, n 0], .arr [x r (-1992) 2, x r (-20323) 3], .arr [x r (-1532) 3, x r (-2823) 3], .arr [x r 2581
  3, x r (-6855) 3], .arr [x r (-968) 3, x r (-30806) 3], .arr [x r (-13951) 3, x r (-1613) 3], .arr [x r 879
  2, x r 5242 3], .arr [x r (-323) 3, x r 28951 3], .arr [x r (-121) 2, x r 7177 3], .arr [x r 1209 3, x r
  2822 3], .arr [x r 18879 3, x r 27305 3], .arr [x r 4542 3, x r (-1717) 3], .arr [x r 3185 2, x r 4927 3],
  .arr [x r 15666 3, x r (-10406) 3]]), ("o", .arr [.arr [x r 3149 3, x r (-805) 3], .arr [x r 39473 3, x r
  6107 3], .arr [n 0, n 0], .arr [x r 19919 3, x r 20323 3], .arr [x r 1613 3, x r 2822 3], .arr [x r (-564)
  3, x r 1613 3], .arr [x r 806 3, x r 27096 3], .arr [x r 13952 3, x r 1612 3], .arr [x r (-879) 2, x r
  (-5161) 3], .arr [x r 403 3, x r (-37984) 3], .arr [x r 121 2, x r (-7178) 3], .arr [x r (-121) 2, x r
  (-2823) 3], .arr [x r (-18879) 3, x r (-27305) 3], .arr [x r (-23912) 3, x r 9042 3], .arr [x r (-22455) 3,
  x r (-3511) 3], .arr [x r (-5009) 3, x r 3304 3]]), ("v", .arr [.arr [x r (-99489) 3, x r (-100647) 3], .arr
  [x r (-22449) 3, x r (-93055) 3], .arr [x r 73103 3, x r (-83886) 3], .arr [x r 87539 3, x r (-27515) 3],
  .arr [x r 128183 3, x r 10388 3], .arr [x r 12278 2, x r 32895 3], .arr [x r 104797 3, x r 74556 3], .arr [x
  r 143102 3, x r 11512 2], .arr [x r 154151 3, x r 111007 3], .arr [x r 122458 3, x r 73346 3], .arr [x r
  139957 3, x r 32492 3], .arr [x r 146788 3, x r (-112) 3], .arr [x r 113119 3, x r (-49507) 3], .arr [x r
  80902 3, x r (-112104) 3], .arr [x r (-19257) 3, x r (-112836) 3], .arr [x r (-115962) 3, x r (-114637)
  3]])]

/-- A value in `examples/assets/google_fonts/Tiger.json`. -/
def tiger82 : Json F :=
  .obj [("c", .bool true), ("i", .arr [.arr [x r (-2844) 3, x r 1335 3], .arr [x r (-4508) 2, x r 5161 3],
  .arr [n 0, n 0], .arr [x r (-1992) 2, x r (-20323) 3], .arr [x r (-1532) 3, x r (-2823) 3], .arr [x r 2581
  3, x r (-6855) 3], .arr [x r (-968) 3, x r (-30806) 3], .arr [x r (-13951) 3, x r (-1613) 3], .arr [x r 879
  2, x r 5242 3], .arr [x r (-323) 3, x r 28951 3], .arr [x r (-121) 2, x r 7177 3], .arr [x r 1209 3, x r
  2822 3], .arr [x r 9677 3, x r 12016 3], .arr [x r 3628 3, x r 3227 3], .arr [x r 32015 3, x r (-371) 2],
  .arr [x r 13434 3, x r (-13161) 3]]), ("o", .arr [.arr [x r 2942 3, x r (-1381) 3], .arr [x r 39677 3, x r
  (-4597) 3], .arr [n 0, n 0], .arr [x r 19919 3, x r 20323 3], .arr [x r 1613 3, x r 2822 3], .arr [x r
  (-564) 3, x r 1613 3], .arr [x r 806 3, x r 27096 3], .arr [x r 13952 3, x r 1612 3], .arr [x r (-879) 2, x
  r (-5161) 3], .arr [x r 403 3, x r (-37984) 3], .arr [x r 121 2, x r (-7178) 3], .arr [x r (-121) 2, x r
  (-2823) 3], .arr [x r (-17016) 3, x r (-2121) 2], .arr [x r (-3629) 3, x r (-3225) 3], .arr [x r (-22581) 3,
  x r 258 2], .arr [x r (-4299) 3, x r 4186 3]]), ("v", .arr [.arr [x r (-78498) 3, x r (-79897) 3], .arr [x r
  (-1411) 3, x r (-97458) 3], .arr [x r 73103 3, x r (-104636) 3], .arr [x r 95039 3, x r (-60765) 3], .arr [x
  r 135683 3, x r (-22862) 3], .arr [x r 13528 2, x r 19395 3], .arr [x r 104797 3, x r 74556 3], .arr [x r
  143102 3, x r 11512 2], .arr [x r 154151 3, x r 111007 3], .arr [x r 122458 3, x r 73346 3], .arr [x r
  152457 3, x r 18992 3], .arr [x r 150038 3, x r (-32862) 3], .arr [x r 110119 3, x r (-73507) 3], .arr [x r
  94152 3, x r (-120604) 3], .arr [x r (-3589) 3, x r (-117377) 3], .arr [x r (-97304) 3, x r (-90547) 3]])]

/-- A value in `examples/assets/google_fonts/Tiger.json`. -/
def tiger83 : Json F :=
  .obj [("c", .bool true), ("i", .arr [.arr [x r (-17012) 3, x r 3481 3], .arr [x r (-42714) 3, x r 12029 3],
  .arr [n 0, n 0], .arr [x r (-1992) 2, x r (-20323) 3], .arr [x r (-1532) 3, x r (-2823) 3], .arr [x r 2581
  3, x r (-6855) 3], .arr [x r (-968) 3, x r (-30806) 3], .arr [x r (-13951) 3, x r (-1613) 3], .arr [x r 879
  2, x r 5242 3], .arr [x r (-323) 3, x r 28951 3], .arr [x r (-121) 2, x r 7177 3], .arr [x r 1209 3, x r
  2822 3], .arr [x r 9677 3, x r 12016 3], .arr [x r 3628 3, x r 3227 3], .arr [x r 35172 3, x r (-15447) 3],
  .arr [x r 20244 3, x r (-835) 2]]), ("o", .arr [.arr [x r 20738 3, x r (-11769) 3], .arr [x r 37924 3, x r
  (-10769) 3], .arr [n 0, n 0], .arr [x r 19919 3, x r 20323 3], .arr [x r 1613 3, x r 2822 3], .arr [x r
  (-564) 3, x r 1613 3], .arr [x r 806 3, x r 27096 3], .arr [x r 13952 3, x r 1612 3], .arr [x r (-879) 2, x
  r (-5161) 3], .arr [x r 403 3, x r (-37984) 3], .arr [x r 121 2, x r (-7178) 3], .arr [x r (-121) 2, x r
  (-2823) 3], .arr [x r (-17016) 3, x r (-2121) 2], .arr [x r (-3629) 3, x r (-3225) 3], .arr [x r (-27876) 3,
  x r 9948 3], .arr [x r (-5144) 3, x r 2278 3]]), ("v", .arr [.arr [x r (-91247) 3, x r (-16792) 3], .arr [x
  r (-1412) 3, x r (-57458) 3], .arr [x r 73103 3, x r (-99636) 3], .arr [x r 95039 3, x r (-49515) 3], .arr
  [x r 135683 3, x r (-11612) 3], .arr [x r 13528 2, x r 19395 3], .arr [x r 104797 3, x r 74556 3], .arr [x r
  143102 3, x r 11512 2], .arr [x r 154151 3, x r 111007 3], .arr [x r 122458 3, x r 73346 3], .arr [x r
  152457 3, x r 18992 3], .arr [x r 150038 3, x r (-21612) 3], .arr [x r 110119 3, x r (-62257) 3], .arr [x r
  94152 3, x r (-115604) 3], .arr [x r (-2839) 3, x r (-80127) 3], .arr [x r (-98558) 3, x r (-27285) 3]])]

/-- A value in `examples/assets/google_fonts/Tiger.json`. -/
def tiger84 : Json F :=
  .obj [("c", .bool true), ("i", .arr [.arr [x r (-3125) 3, x r 324 3], .arr [x r (-40348) 3, x r 18896 3],
  .arr [n 0, n 0], .arr [x r (-1992) 2, x r (-20323) 3], .arr [x r (-1532) 3, x r (-2823) 3], .arr [x r 2581
  3, x r (-6855) 3], .arr [x r (-968) 3, x r (-30806) 3], .arr [x r (-13951) 3, x r (-1613) 3], .arr [x r 879
  2, x r 5242 3], .arr [x r (-323) 3, x r 28951 3], .arr [x r (-121) 2, x r 7177 3], .arr [x r 1209 3, x r
  2822 3], .arr [x r 9677 3, x r 12016 3], .arr [x r 3628 3, x r 3227 3], .arr [x r 38329 3, x r (-27185) 3],
  .arr [x r 27053 3, x r (-3538) 3]]), ("o", .arr [.arr [x r 27738 3, x r (-2874) 3], .arr [x r 36172 3, x r
  (-16941) 3], .arr [n 0, n 0], .arr [x r 19919 3, x r 20323 3], .arr [x r 1613 3, x r 2822 3], .arr [x r
  (-564) 3, x r 1613 3], .arr [x r 806 3, x r 27096 3], .arr [x r 13952 3, x r 1612 3], .arr [x r (-879) 2, x
  r (-5161) 3], .arr [x r 403 3, x r (-37984) 3], .arr [x r 121 2, x r (-7178) 3], .arr [x r (-121) 2, x r
  (-2823) 3], .arr [x r (-17016) 3, x r (-2121) 2], .arr [x r (-3629) 3, x r (-3225) 3], .arr [x r (-33171) 3,
  x r 17315 3], .arr [x r (-5989) 3, x r 37 2]]), ("v", .arr [.arr [x r (-83997) 3, x r 61813 3], .arr [x r
  (-1412) 3, x r (-17458) 3], .arr [x r 73103 3, x r (-94636) 3], .arr [x r 95039 3, x r (-38265) 3], .arr [x
  r 135683 3, x r (-362) 3], .arr [x r 13528 2, x r 19395 3], .arr [x r 104797 3, x r 74556 3], .arr [x r
  143102 3, x r 11512 2], .arr [x r 154151 3, x r 111007 3], .arr [x r 122458 3, x r 73346 3], .arr [x r
  152457 3, x r 18992 3], .arr [x r 150038 3, x r (-10362) 3], .arr [x r 110119 3, x r (-51007) 3], .arr [x r
  94152 3, x r (-110604) 3], .arr [x r (-2089) 3, x r (-42877) 3], .arr [x r (-91313) 3, x r 41477 3]])]

/-- A value in `examples/assets/google_fonts/Tiger.json`. -/
def tiger85 : Json F :=
  .obj [("c", .bool true), ("i", .arr [.arr [x r (-3125) 3, x r 324 3], .arr [x r (-40348) 3, x r 18896 3],
  .arr [n 0, n 0], .arr [x r (-1992) 2, x r (-20323) 3], .arr [x r (-1532) 3, x r (-2823) 3], .arr [x r 2581
  3, x r (-6855) 3], .arr [x r (-968) 3, x r (-30806) 3], .arr [x r (-13951) 3, x r (-1613) 3], .arr [x r 879
  2, x r 5242 3], .arr [x r (-323) 3, x r 28951 3], .arr [x r (-121) 2, x r 7177 3], .arr [x r 1209 3, x r
  2822 3], .arr [x r 9677 3, x r 12016 3], .arr [x r 3628 3, x r 3227 3], .arr [x r 38329 3, x r (-27185) 3],
  .arr [x r 27053 3, x r (-3538) 3]]), ("o", .arr [.arr [x r 27738 3, x r (-2874) 3], .arr [x r 36172 3, x r
  (-16941) 3], .arr [n 0, n 0], .arr [x r 19919 3, x r 20323 3], .arr [x r 1613 3, x r 2822 3], .arr [x r
  (-564) 3, x r 1613 3], .arr [x r 806 3, x r 27096 3], .arr [x r 13952 3, x r 1612 3], .arr [x r (-879) 2, x
  r (-5161) 3], .arr [x r 403 3, x r (-37984) 3], .arr [x r 121 2, x r (-7178) 3], .arr [x r (-121) 2, x r
  (-2823) 3], .arr [x r (-17016) 3, x r (-2121) 2], .arr [x r (-3629) 3, x r (-3225) 3], .arr [x r (-33171) 3,
  x r 17315 3], .arr [x r (-5989) 3, x r 37 2]]), ("v", .arr [.arr [x r (-113997) 3, x r 51813 3], .arr [x r
  (-1412) 3, x r (-17458) 3], .arr [x r 73103 3, x r (-94636) 3], .arr [x r 95039 3, x r (-38265) 3], .arr [x
  r 135683 3, x r (-362) 3], .arr [x r 13528 2, x r 19395 3], .arr [x r 104797 3, x r 74556 3], .arr [x r
  143102 3, x r 11512 2], .arr [x r 154151 3, x r 111007 3], .arr [x r 122458 3, x r 73346 3], .arr [x r
  152457 3, x r 18992 3], .arr [x r 150038 3, x r (-10362) 3], .arr [x r 110119 3, x r (-51007) 3], .arr [x r
  94152 3, x r (-110604) 3], .arr [x r (-2089) 3, x r (-42877) 3], .arr [x r (-121313) 3, x r 31477 3]])]

/-- A value in `examples/assets/google_fonts/Tiger.json`. -/
def tiger86 : Json F :=
  .obj [("hd", .bool false), ("ind", n 0), ("ix", n 1), ("ks", .obj [("a", n 1), ("ix", n 2), ("k", .arr [.obj
  [("i", .obj [("x", x r 833 3), ("y", x r 833 3)]), ("o", .obj [("x", x r 167 3), ("y", x r 167 3)]), ("s",
  .arr [tiger76 r]), ("t", n 0)], .obj [("i", .obj [("x", x r 667 3), ("y", n 1)]), ("o", .obj [("x", x r 167
  3), ("y", x r 167 3)]), ("s", .arr [tiger77 r]), ("t", n 30)], .obj [("i", .obj [("x", x r 833 3), ("y", x r
  833 3)]), ("o", .obj [("x", x r 333 3), ("y", n 0)]), ("s", .arr [tiger78 r]), ("t", n 38)], .obj [("i",
  .obj [("x", x r 833 3), ("y", x r 833 3)]), ("o", .obj [("x", x r 167 3), ("y", x r 167 3)]), ("s", .arr
  [tiger79 r]), ("t", n 48)], .obj [("i", .obj [("x", x r 3 1), ("y", n 1)]), ("o", .obj [("x", x r 167 3),
  ("y", x r 167 3)]), ("s", .arr [tiger80 r]), ("t", n 52)], .obj [("i", .obj [("x", x r 833 3), ("y", x r 833
  3)]), ("o", .obj [("x", x r 7 1), ("y", n 0)]), ("s", .arr [tiger81 r]), ("t", n 58)], .obj [("i", .obj
  [("x", x r 833 3), ("y", x r 833 3)]), ("o", .obj [("x", x r 167 3), ("y", x r 167 3)]), ("s", .arr [tiger82
  r]), ("t", n 70)], .obj [("i", .obj [("x", x r 833 3), ("y", x r 833 3)]), ("o", .obj [("x", x r 167 3),
  ("y", x r 167 3)]), ("s", .arr [tiger83 r]), ("t", n 73)], .obj [("i", .obj [("x", x r 833 3), ("y", x r 833
  3)]), ("o", .obj [("x", x r 167 3), ("y", x r 167 3)]), ("s", .arr [tiger84 r]), ("t", n 76)], .obj [("s",
  .arr [tiger85 r]), ("t", n 246)]])]), ("mn", .str "ADBE Vector Shape - Group"), ("nm", .str "Path 1"),
  ("ty", .str "sh")]

/-- A value in `examples/assets/google_fonts/Tiger.json`. -/
def tiger87 : Json F :=
  .obj [("c", .bool true), ("i", .arr [.arr [x r (-61418) 3, x r (-72745) 3], .arr [x r (-4758) 3, x r (-8791)
  3], .arr [x r (-4758) 3, x r 5645 3], .arr [n 0, n 0], .arr [n 0, n 0], .arr [n 0, n 0], .arr [n 0, n 0],
  .arr [n 0, n 0], .arr [n 0, n 0], .arr [x r (-11936) 3, x r (-24758) 3], .arr [x r (-29676) 3, x r 483 3],
  .arr [n 0, x r 15968 3], .arr [x r (-3226) 3, x r 879 2], .arr [x r (-9516) 3, x r 55805 3], .arr [x r 33468
  3, x r 47822 3], .arr [x r 91209 3, x r 6855 3], .arr [x r 621 2, x r 371 2], .arr [x r 14317 3, x r 15108
  3]]), ("o", .arr [.arr [x r 31228 3, x r 36986 3], .arr [x r 2016 3, x r 3709 3], .arr [x r 4758 3, x r
  (-5645) 3], .arr [n 0, n 0], .arr [n 0, n 0], .arr [n 0, n 0], .arr [n 0, n 0], .arr [n 0, n 0], .arr [n 0,
  n 0], .arr [x r 12016 3, x r 24758 3], .arr [x r 52096 3, x r (-888) 3], .arr [n 0, x r (-15968) 3], .arr [x
  r 3145 3, x r (-879) 2], .arr [x r 9516 3, x r (-55806) 3], .arr [x r (-33547) 3, x r (-47903) 3], .arr [x r
  (-90241) 3, x r (-6774) 3], .arr [x r (-6129) 3, x r (-3709) 3], .arr [x r (-60443) 3, x r (-63781) 3]]),
  ("v", .arr [.arr [x r (-276354) 3, x r (-54741) 3], .arr [x r (-171738) 3, x r 71676 3], .arr [x r (-4432)
  2, x r 87159 3], .arr [x r 35437 3, x r 69578 3], .arr [x r 127129 3, x r 65627 3], .arr [x r 135919 3, x r
  100707 3], .arr [x r 183742 3, x r 146997 3], .arr [x r 186967 3, x r 192481 3], .arr [x r 163258 3, x r
  218367 3], .arr [x r 165355 3, x r 272802 3], .arr [x r 235676 3, x r 292238 3], .arr [x r 281966 3, x r
  207561 3], .arr [x r 285192 3, x r 120626 3], .arr [x r 328256 3, x r 144 3], .arr [x r 303901 3, x r
  (-155902) 3], .arr [x r 119307 3, x r (-227998) 3], .arr [x r (-53594) 3, x r (-225579) 3], .arr [x r
  (-70648) 3, x r (-2416) 1]])]

/-- A value in `examples/assets/google_fonts/Tiger.json`. -/
def tiger88 : Json F :=
  .obj [("c", .bool true), ("i", .arr [.arr [x r (-61418) 3, x r (-72745) 3], .arr [x r (-4758) 3, x r (-8791)
  3], .arr [x r (-4758) 3, x r 5645 3], .arr [n 0, n 0], .arr [n 0, n 0], .arr [n 0, n 0], .arr [n 0, n 0],
  .arr [n 0, n 0], .arr [n 0, n 0], .arr [x r (-11936) 3, x r (-24758) 3], .arr [x r (-29676) 3, x r 483 3],
  .arr [n 0, x r 15968 3], .arr [x r (-3226) 3, x r 879 2], .arr [x r (-9516) 3, x r 55805 3], .arr [x r 33468
  3, x r 47822 3], .arr [x r 91209 3, x r 6855 3], .arr [x r 621 2, x r 371 2], .arr [x r 14317 3, x r 15108
  3]]), ("o", .arr [.arr [x r 31228 3, x r 36986 3], .arr [x r 2016 3, x r 3709 3], .arr [x r 4758 3, x r
  (-5645) 3], .arr [n 0, n 0], .arr [n 0, n 0], .arr [n 0, n 0], .arr [n 0, n 0], .arr [n 0, n 0], .arr [n 0,
  n 0], .arr [x r 12016 3, x r 24758 3], .arr [x r 52096 3, x r (-888) 3], .arr [n 0, x r (-15968) 3], .arr [x
  r 3145 3, x r (-879) 2], .arr [x r 9516 3, x r (-55806) 3], .arr [x r (-33547) 3, x r (-47903) 3], .arr [x r
  (-90241) 3, x r (-6774) 3], .arr [x r (-6129) 3, x r (-3709) 3], .arr [x r (-60443) 3, x r (-63781) 3]]),
  ("v", .arr [.arr [x r (-276354) 3, x r (-54741) 3], .arr [x r (-171738) 3, x r 71676 3], .arr [x r (-4432)
  2, x r 87159 3], .arr [x r 35437 3, x r 69578 3], .arr [x r 127129 3, x r 65627 3], .arr [x r 135919 3, x r
  100707 3], .arr [x r 183742 3, x r 146997 3], .arr [x r 186967 3, x r 192481 3], .arr [x r 163258 3, x r
  218367 3], .arr [x r 165355 3, x r 272802 3], .arr [x r 235676 3, x r 292238 3], .arr [x r 281966 3, x r
  207561 3], .arr [x r 285192 3, x r 120626 3], .arr [x r 328256 3, x r 144 3], .arr [x r 303901 3, x r
  (-155902) 3], .arr [x r 119307 3, x r (-227998) 3], .arr [x r (-53594) 3, x r (-225579) 3], .arr [x r
  (-70648) 3, x r (-2416) 1]])]

/-- A value in `examples/assets/google_fonts/Tiger.json`. -/
def tiger89 : Json F :=
  .obj [("c", .bool true), ("i", .arr [.arr [x r (-61418) 3, x r (-72745) 3], .arr [x r (-4758) 3, x r (-8791)
  3], .arr [x r (-4758) 3, x r 5645 3], .arr [n 0, n 0], .arr [n 0, n 0], .arr [n 0, n 0], .arr [n 0, n 0],
  .arr [n 0, n 0], .arr [n 0, n 0], .arr [x r (-11936) 3, x r (-24758) 3], .arr [x r (-29676) 3, x r 483 3],
  .arr [n 0, x r 15968 3], .arr [x r (-3226) 3, x r 879 2], .arr [x r (-9516) 3, x r 55805 3], .arr [x r 33468
  3, x r 47822 3], .arr [x r 91209 3, x r 6855 3], .arr [x r 621 2, x r 371 2], .arr [x r 21786 3, x r 14495
  3]]), ("o", .arr [.arr [x r 31228 3, x r 36986 3], .arr [x r 2016 3, x r 3709 3], .arr [x r 4758 3, x r
  (-5645) 3], .arr [n 0, n 0], .arr [n 0, n 0], .arr [n 0, n 0], .arr [n 0, n 0], .arr [n 0, n 0], .arr [n 0,
  n 0], .arr [x r 12016 3, x r 24758 3], .arr [x r 52096 3, x r (-888) 3], .arr [n 0, x r (-15968) 3], .arr [x
  r 3145 3, x r (-879) 2], .arr [x r 9516 3, x r (-55806) 3], .arr [x r (-33547) 3, x r (-47903) 3], .arr [x r
  (-90241) 3, x r (-6774) 3], .arr [x r (-6129) 3, x r (-3709) 3], .arr [x r (-73158) 3, x r (-48675) 3]]),
  ("v", .arr [.arr [x r (-276354) 3, x r (-44741) 3], .arr [x r (-171738) 3, x r 81676 3], .arr [x r (-4432)
  2, x r 97159 3], .arr [x r 35437 3, x r 79577 3], .arr [x r 127129 3, x r 75626 3], .arr [x r 135919 3, x r
  110706 3], .arr [x r 183742 3, x r 156996 3], .arr [x r 186967 3, x r 19248 2], .arr [x r 163258 3, x r
  218367 3], .arr [x r 165355 3, x r 272802 3], .arr [x r 235676 3, x r 292238 3], .arr [x r 281966 3, x r
  207561 3], .arr [x r 285192 3, x r 130626 3], .arr [x r 328256 3, x r 10144 3], .arr [x r 303901 3, x r
  (-145902) 3], .arr [x r 119307 3, x r (-217998) 3], .arr [x r (-53594) 3, x r (-215579) 3], .arr [x r
  (-85148) 3, x r (-2371) 1]])]

/-- A value in `examples/assets/google_fonts/Tiger.json`. -/
def tiger90 : Json F :=
  .obj [("c", .bool true), ("i", .arr [.arr [x r (-61418) 3, x r (-72745) 3], .arr [x r (-4758) 3, x r (-8791)
  3], .arr [x r (-4758) 3, x r 5645 3], .arr [n 0, n 0], .arr [n 0, n 0], .arr [n 0, n 0], .arr [n 0, n 0],
  .arr [n 0, n 0], .arr [n 0, n 0], .arr [x r (-11936) 3, x r (-24758) 3], .arr [x r (-29676) 3, x r 483 3],
  .arr [n 0, x r 15968 3], .arr [x r (-3226) 3, x r 879 2], .arr [x r (-9516) 3, x r 55805 3], .arr [x r 33468
  3, x r 47822 3], .arr [x r 91209 3, x r 6855 3], .arr [x r 621 2, x r 371 2], .arr [x r 14317 3, x r 15108
  3]]), ("o", .arr [.arr [x r 31228 3, x r 36986 3], .arr [x r 2016 3, x r 3709 3], .arr [x r 4758 3, x r
  (-5645) 3], .arr [n 0, n 0], .arr [n 0, n 0], .arr [n 0, n 0], .arr [n 0, n 0], .arr [n 0, n 0], .arr [n 0,
  n 0], .arr [x r 12016 3, x r 24758 3], .arr [x r 52096 3, x r (-888) 3], .arr [n 0, x r (-15968) 3], .arr [x
  r 3145 3, x r (-879) 2], .arr [x r 9516 3, x r (-55806) 3], .arr [x r (-33547) 3, x r (-47903) 3], .arr [x r
  (-90241) 3, x r (-6774) 3], .arr [x r (-6129) 3, x r (-3709) 3], .arr [x r (-60443) 3, x r (-63781) 3]]),
  ("v", .arr [.arr [x r (-276354) 3, x r (-54741) 3], .arr [x r (-171738) 3, x r 71676 3], .arr [x r (-4432)
  2, x r 87159 3], .arr [x r 35437 3, x r 69578 3], .arr [x r 127129 3, x r 65627 3], .arr [x r 135919 3, x r
  100707 3], .arr [x r 183742 3, x r 146997 3], .arr [x r 186967 3, x r 192481 3], .arr [x r 163258 3, x r
  218367 3], .arr [x r 165355 3, x r 272802 3], .arr [x r 235676 3, x r 292238 3], .arr [x r 281966 3, x r
  207561 3], .arr [x r 285192 3, x r 120626 3], .arr [x r 328256 3, x r 144 3], .arr [x r 303901 3, x r
  (-155902) 3], .arr [x r 119307 3, x r (-227998) 3], .arr [x r (-53594) 3, x r (-225579) 3], .arr [x r
  (-70648) 3, x r (-2416) 1]])]

/-- A value in `examples/assets/google_fonts/Tiger.json`. -/
def tiger91 : Json F :=
  .obj [("c", .bool true), ("i", .arr [.arr [x r (-49815) 3, x r (-80129) 3], .arr [x r (-3417) 3, x r (-93)
  1], .arr [x r (-5474) 3, x r 4855 3], .arr [n 0, n 0], .arr [n 0, n 0], .arr [n 0, n 0], .arr [n 0, n 0],
  .arr [n 0, n 0], .arr [n 0, n 0], .arr [x r (-11936) 3, x r (-24758) 3], .arr [x r (-29675) 3, x r 519 3],
  .arr [x r 92 3, x r 15357 3], .arr [x r (-3226) 3, x r 879 2], .arr [x r (-9516) 3, x r 55805 3], .arr [x r
  33468 3, x r 47822 3], .arr [x r 90582 3, x r 11813 3], .arr [x r 5559 3, x r 4527 3], .arr [x r 11877 3, x
  r 16865 3]]), ("o", .arr [.arr [x r 25329 3, x r 4074 2], .arr [x r 1446 3, x r 3926 3], .arr [x r 5474 3, x
  r (-4854) 3], .arr [n 0, n 0], .arr [n 0, n 0], .arr [n 0, n 0], .arr [n 0, n 0], .arr [n 0, n 0], .arr [n
  0, n 0], .arr [x r 12016 3, x r 24758 3], .arr [x r 4852 2, x r (-864) 3], .arr [x r (-1) 1, x r (-15968)
  3], .arr [x r 3145 3, x r (-879) 2], .arr [x r 9516 3, x r (-55806) 3], .arr [x r (-33547) 3, x r (-47903)
  3], .arr [x r (-89621) 3, x r (-11684) 3], .arr [x r (-5479) 3, x r (-4515) 3], .arr [x r (-50142) 3, x r
  (-71199) 3]]), ("v", .arr [.arr [x r (-262321) 3, x r (-95271) 3], .arr [x r (-177828) 3, x r 43675 3], .arr
  [x r (-55094) 3, x r 771 1], .arr [x r 25636 3, x r 71277 3], .arr [x r 126321 3, x r 76001 3], .arr [x r
  134033 3, x r 114854 3], .arr [x r 181182 3, x r 165186 3], .arr [x r 18023 2, x r 199756 3], .arr [x r
  163258 3, x r 218367 3], .arr [x r 165355 3, x r 272801 3], .arr [x r 235676 3, x r 292238 3], .arr [x r
  280349 3, x r 21807 2], .arr [x r 277647 3, x r 15458 2], .arr [x r 328308 3, x r 11462 3], .arr [x r 304002
  3, x r (-144854) 3], .arr [x r 136474 3, x r (-216258) 3], .arr [x r (-19417) 3, x r (-230911) 3], .arr [x r
  (-33847) 3, x r (-249063) 3]])]

/-- A value in `examples/assets/google_fonts/Tiger.json`. -/
def tiger92 : Json F :=
  .obj [("c", .bool true), ("i", .arr [.arr [x r (-3989) 2, x r (-86445) 3], .arr [x r (-2269) 3, x r (-9735)
  3], .arr [x r (-6087) 3, x r 4178 3], .arr [n 0, n 0], .arr [n 0, n 0], .arr [n 0, n 0], .arr [n 0, n 0],
  .arr [n 0, n 0], .arr [n 0, n 0], .arr [x r (-11936) 3, x r (-24758) 3], .arr [x r (-29675) 3, x r 55 2],
  .arr [x r 172 3, x r 14834 3], .arr [x r (-3226) 3, x r 879 2], .arr [x r (-9516) 3, x r 55805 3], .arr [x r
  33468 3, x r 47822 3], .arr [x r 90046 3, x r 16055 3], .arr [x r 5001 3, x r 5226 3], .arr [x r 979 2, x r
  18368 3]]), ("o", .arr [.arr [x r 20282 3, x r 43952 3], .arr [x r 958 3, x r 4111 3], .arr [x r 6087 3, x r
  (-4178) 3], .arr [n 0, n 0], .arr [n 0, n 0], .arr [n 0, n 0], .arr [n 0, n 0], .arr [n 0, n 0], .arr [n 0,
  n 0], .arr [x r 12016 3, x r 24758 3], .arr [x r 45461 3, x r (-843) 3], .arr [x r (-185) 3, x r (-15967)
  3], .arr [x r 3145 3, x r (-879) 2], .arr [x r 9516 3, x r (-55806) 3], .arr [x r (-33547) 3, x r (-47903)
  3], .arr [x r (-8909) 2, x r (-15884) 3], .arr [x r (-4924) 3, x r (-5204) 3], .arr [x r (-4133) 2, x r
  (-77545) 3]]), ("v", .arr [.arr [x r (-250316) 3, x r (-129942) 3], .arr [x r (-183038) 3, x r 19723 3],
  .arr [x r (-6431) 2, x r 68495 3], .arr [x r 17252 3, x r 72731 3], .arr [x r 125629 3, x r 84877 3], .arr
  [x r 132419 3, x r 126956 3], .arr [x r 178992 3, x r 180747 3], .arr [x r 174467 3, x r 205981 3], .arr [x
  r 163258 3, x r 218367 3], .arr [x r 165355 3, x r 272802 3], .arr [x r 235676 3, x r 292238 3], .arr [x r
  278966 3, x r 227061 3], .arr [x r 271192 3, x r 183626 3], .arr [x r 328352 3, x r 21144 3], .arr [x r
  304089 3, x r (-135402) 3], .arr [x r 151159 3, x r (-206214) 3], .arr [x r 982 2, x r (-235472) 3], .arr [x
  r (-2366) 3, x r (-255448) 3]])]

/-- A value in `examples/assets/google_fonts/Tiger.json`. -/
def tiger93 : Json F :=
  .obj [("c", .bool true), ("i", .arr [.arr [x r (-61418) 3, x r (-72745) 3], .arr [x r (-4056) 3, x r (-9136)
  3], .arr [x r (-5194) 3, x r 5246 3], .arr [n 0, n 0], .arr [n 0, n 0], .arr [n 0, n 0], .arr [n 0, n 0],
  .arr [n 0, n 0], .arr [n 0, n 0], .arr [x r (-11936) 3, x r (-24758) 3], .arr [x r (-29676) 3, x r 483 3],
  .arr [n 0, x r 15968 3], .arr [x r (-3226) 3, x r 879 2], .arr [x r (-9516) 3, x r 55805 3], .arr [x r 33468
  3, x r 47822 3], .arr [x r 91209 3, x r 6855 3], .arr [x r 621 2, x r 371 2], .arr [x r 14317 3, x r 15108
  3]]), ("o", .arr [.arr [x r 31228 3, x r 36986 3], .arr [x r 1713 3, x r 3858 3], .arr [x r 5194 3, x r
  (-5247) 3], .arr [n 0, n 0], .arr [n 0, n 0], .arr [n 0, n 0], .arr [n 0, n 0], .arr [n 0, n 0], .arr [n 0,
  n 0], .arr [x r 12016 3, x r 24758 3], .arr [x r 52096 3, x r (-888) 3], .arr [n 0, x r (-15968) 3], .arr [x
  r 3145 3, x r (-879) 2], .arr [x r 9516 3, x r (-55806) 3], .arr [x r (-33547) 3, x r (-47903) 3], .arr [x r
  (-90241) 3, x r (-6774) 3], .arr [x r (-6129) 3, x r (-3709) 3], .arr [x r (-60443) 3, x r (-63781) 3]]),
  ("v", .arr [.arr [x r (-276354) 3, x r (-54741) 3], .arr [x r (-170421) 3, x r 65212 3], .arr [x r (-44648)
  3, x r 90832 3], .arr [x r 35437 3, x r 69577 3], .arr [x r 127129 3, x r 65627 3], .arr [x r 135919 3, x r
  100707 3], .arr [x r 183742 3, x r 146996 3], .arr [x r 186967 3, x r 192481 3], .arr [x r 163258 3, x r
  218367 3], .arr [x r 165355 3, x r 272802 3], .arr [x r 235676 3, x r 292238 3], .arr [x r 281966 3, x r
  207561 3], .arr [x r 285192 3, x r 120626 3], .arr [x r 328256 3, x r 144 3], .arr [x r 303901 3, x r
  (-155902) 3], .arr [x r 119307 3, x r (-227998) 3], .arr [x r (-53594) 3, x r (-225579) 3], .arr [x r
  (-70648) 3, x r (-2416) 1]])]

/-- A value in `examples/assets/google_fonts/Tiger.json`. -/
def tiger94 : Json F :=
  .obj [("c", .bool true), ("i", .arr [.arr [x r (-61418) 3, x r (-72745) 3], .arr [x r (-588) 3, x r (-9354)
  3], .arr [x r (-6285) 3, x r 2475 3], .arr [n 0, n 0], .arr [n 0, n 0], .arr [n 0, n 0], .arr [n 0, n 0],
  .arr [n 0, n 0], .arr [n 0, n 0], .arr [x r (-11936) 3, x r (-24758) 3], .arr [x r (-29676) 3, x r 483 3],
  .arr [x r 2451 3, x r 16057 3], .arr [x r (-714) 2, x r 13279 3], .arr [x r (-9516) 3, x r 55805 3], .arr [x
  r 33468 3, x r 47822 3], .arr [x r 90002 3, x r (-7546) 3], .arr [x r 17489 3, x r (-5382) 3], .arr [x r
  36301 3, x r (-699) 3]]), ("o", .arr [.arr [x r 31228 3, x r 36986 3], .arr [x r 248 3, x r 395 2], .arr [x
  r 11866 3, x r (-225) 2], .arr [n 0, n 0], .arr [n 0, n 0], .arr [n 0, n 0], .arr [n 0, n 0], .arr [n 0, n
  0], .arr [n 0, n 0], .arr [x r 12016 3, x r 24758 3], .arr [x r 52096 3, x r (-888) 3], .arr [x r (-5414) 3,
  x r (-25817) 3], .arr [x r 3145 3, x r (-879) 2], .arr [x r 9516 3, x r (-55806) 3], .arr [x r (-33547) 3, x
  r (-47903) 3], .arr [x r (-93455) 3, x r 8559 3], .arr [x r (-17449) 3, x r 5382 3], .arr [x r (-72495) 3, x
  r (-19919) 3]]), ("v", .arr [.arr [x r (-276354) 3, x r (-14742) 3], .arr [x r (-15524) 2, x r 88216 3],
  .arr [x r (-52774) 3, x r 15774 2], .arr [x r 35437 3, x r 109577 3], .arr [x r 127129 3, x r 70627 3], .arr
  [x r 135919 3, x r 111956 3], .arr [x r 183742 3, x r 158247 3], .arr [x r 186967 3, x r 192481 3], .arr [x
  r 163258 3, x r 218367 3], .arr [x r 165355 3, x r 272802 3], .arr [x r 235676 3, x r 292238 3], .arr [x r
  281966 3, x r 207561 3], .arr [x r 285192 3, x r 125626 3], .arr [x r 328256 3, x r 5144 3], .arr [x r
  303901 3, x r (-150902) 3], .arr [x r 119807 3, x r (-215498) 3], .arr [x r (-54094) 3, x r (-174829) 3],
  .arr [x r (-110148) 3, x r (-1671) 1]])]

/-- A value in `examples/assets/google_fonts/Tiger.json`. -/
def tiger95 : Json F :=
  .obj [("c", .bool true), ("i", .arr [.arr [x r (-61418) 3, x r (-72745) 3], .arr [x r 2881 3, x r (-9572)
  3], .arr [x r (-7377) 3, x r (-297) 3], .arr [n 0, n 0], .arr [n 0, n 0], .arr [n 0, n 0], .arr [n 0, n 0],
  .arr [n 0, n 0], .arr [n 0, n 0], .arr [x r (-11936) 3, x r (-24758) 3], .arr [x r (-29676) 3, x r 483 3],
  .arr [x r 4902 3, x r 16147 3], .arr [x r (-11054) 3, x r 17769 3], .arr [x r (-9516) 3, x r 55805 3], .arr
  [x r 33468 3, x r 47822 3], .arr [x r 88794 3, x r (-21946) 3], .arr [x r 28768 3, x r (-14474) 3], .arr [x
  r 58286 3, x r (-16505) 3]]), ("o", .arr [.arr [x r 31228 3, x r 36986 3], .arr [x r (-1217) 3, x r 4042 3],
  .arr [x r 18538 3, x r 746 3], .arr [n 0, n 0], .arr [n 0, n 0], .arr [n 0, n 0], .arr [n 0, n 0], .arr [n
  0, n 0], .arr [n 0, n 0], .arr [x r 12016 3, x r 24758 3], .arr [x r 52096 3, x r (-888) 3], .arr [x r
  (-10828) 3, x r (-35666) 3], .arr [x r 3145 3, x r (-879) 2], .arr [x r 9516 3, x r (-55806) 3], .arr [x r
  (-33547) 3, x r (-47903) 3], .arr [x r (-9667) 2, x r 23893 3], .arr [x r (-28768) 3, x r 14474 3], .arr [x
  r (-84547) 3, x r 23942 3]]), ("v", .arr [.arr [x r (-276354) 3, x r 25258 3], .arr [x r (-14006) 2, x r
  11122 2], .arr [x r (-43901) 3, x r 228148 3], .arr [x r 35437 3, x r 149578 3], .arr [x r 127129 3, x r
  75627 3], .arr [x r 135919 3, x r 123206 3], .arr [x r 183742 3, x r 169497 3], .arr [x r 186967 3, x r
  192481 3], .arr [x r 163258 3, x r 218366 3], .arr [x r 165355 3, x r 272801 3], .arr [x r 235676 3, x r
  292238 3], .arr [x r 281966 3, x r 207561 3], .arr [x r 285192 3, x r 130626 3], .arr [x r 328256 3, x r
  10144 3], .arr [x r 303901 3, x r (-145902) 3], .arr [x r 120307 3, x r (-202998) 3], .arr [x r (-54594) 3,
  x r (-124079) 3], .arr [x r (-149648) 3, x r (-926) 1]])]

/-- A value in `examples/assets/google_fonts/Tiger.json`. -/
def tiger96 : Json F :=
  .obj [("c", .bool true), ("i", .arr [.arr [x r (-61418) 3, x r (-72745) 3], .arr [x r 2881 3, x r (-9572)
  3], .arr [x r (-7377) 3, x r (-297) 3], .arr [n 0, n 0], .arr [n 0, n 0], .arr [n 0, n 0], .arr [n 0, n 0],
  .arr [n 0, n 0], .arr [n 0, n 0], .arr [x r (-11936) 3, x r (-24758) 3], .arr [x r (-29676) 3, x r 483 3],
  .arr [x r 4902 3, x r 16147 3], .arr [x r (-11054) 3, x r 17769 3], .arr [x r (-9516) 3, x r 55805 3], .arr
  [x r 33468 3, x r 47822 3], .arr [x r 88794 3, x r (-21946) 3], .arr [x r 131819 3, x r (-10026) 3], .arr [x
  r 58286 3, x r (-16505) 3]]), ("o", .arr [.arr [x r 31228 3, x r 36986 3], .arr [x r (-1217) 3, x r 4042 3],
  .arr [x r 18538 3, x r 746 3], .arr [n 0, n 0], .arr [n 0, n 0], .arr [n 0, n 0], .arr [n 0, n 0], .arr [n
  0, n 0], .arr [n 0, n 0], .arr [x r 12016 3, x r 24758 3], .arr [x r 52096 3, x r (-888) 3], .arr [x r
  (-10828) 3, x r (-35666) 3], .arr [x r 3145 3, x r (-879) 2], .arr [x r 9516 3, x r (-55806) 3], .arr [x r
  (-33547) 3, x r (-47903) 3], .arr [x r (-9667) 2, x r 23893 3], .arr [x r (-32111) 3, x r 2442 3], .arr [x r
  (-84547) 3, x r 23942 3]]), ("v", .arr [.arr [x r (-276354) 3, x r 25258 3], .arr [x r (-140134) 3, x r
  111252 3], .arr [x r (-44077) 3, x r 22809 2], .arr [x r 35437 3, x r 149578 3], .arr [x r 127129 3, x r
  75627 3], .arr [x r 135919 3, x r 123206 3], .arr [x r 183742 3, x r 169497 3], .arr [x r 186967 3, x r
  192481 3], .arr [x r 163258 3, x r 218366 3], .arr [x r 165355 3, x r 272801 3], .arr [x r 235676 3, x r
  292238 3], .arr [x r 281966 3, x r 207561 3], .arr [x r 285192 3, x r 130626 3], .arr [x r 328256 3, x r
  10144 3], .arr [x r 303901 3, x r (-145902) 3], .arr [x r 120307 3, x r (-202998) 3], .arr [x r (-75182) 3,
  x r (-81079) 3], .arr [x r (-173648) 3, x r (-946) 1]])]

/-- A value in `examples/assets/google_fonts/Tiger.json`. -/
def tiger97 : Json F :=
  .obj [("c", .bool true), ("i", .arr [.arr [x r (-61418) 3, x r (-72745) 3], .arr [x r 2881 3, x r (-9572)
  3], .arr [x r (-7377) 3, x r (-297) 3], .arr [n 0, n 0], .arr [n 0, n 0], .arr [n 0, n 0], .arr [n 0, n 0],
  .arr [n 0, n 0], .arr [n 0, n 0], .arr [x r (-11936) 3, x r (-24758) 3], .arr [x r (-29676) 3, x r 483 3],
  .arr [x r 4902 3, x r 16147 3], .arr [x r (-11054) 3, x r 17769 3], .arr [x r (-9516) 3, x r 55805 3], .arr
  [x r 33468 3, x r 47822 3], .arr [x r 88794 3, x r (-21946) 3], .arr [x r 28768 3, x r (-14474) 3], .arr [x
  r 58285 3, x r (-16505) 3]]), ("o", .arr [.arr [x r 31228 3, x r 36986 3], .arr [x r (-1217) 3, x r 4042 3],
  .arr [x r 18538 3, x r 746 3], .arr [n 0, n 0], .arr [n 0, n 0], .arr [n 0, n 0], .arr [n 0, n 0], .arr [n
  0, n 0], .arr [n 0, n 0], .arr [x r 12016 3, x r 24758 3], .arr [x r 52096 3, x r (-888) 3], .arr [x r
  (-10828) 3, x r (-35666) 3], .arr [x r 3145 3, x r (-879) 2], .arr [x r 9516 3, x r (-55806) 3], .arr [x r
  (-33547) 3, x r (-47903) 3], .arr [x r (-96669) 3, x r 23893 3], .arr [x r (-28768) 3, x r 14474 3], .arr [x
  r (-84547) 3, x r 23942 3]]), ("v", .arr [.arr [x r (-276354) 3, x r 25258 3], .arr [x r (-15256) 2, x r
  11672 2], .arr [x r (-73901) 3, x r 218148 3], .arr [x r 35437 3, x r 149578 3], .arr [x r 127129 3, x r
  75627 3], .arr [x r 135919 3, x r 123206 3], .arr [x r 183742 3, x r 169497 3], .arr [x r 186967 3, x r
  192481 3], .arr [x r 163258 3, x r 218366 3], .arr [x r 165355 3, x r 272801 3], .arr [x r 235676 3, x r
  292238 3], .arr [x r 281966 3, x r 207561 3], .arr [x r 285192 3, x r 130626 3], .arr [x r 328256 3, x r
  10144 3], .arr [x r 303901 3, x r (-145902) 3], .arr [x r 120307 3, x r (-202998) 3], .arr [x r (-54594) 3,
  x r (-124079) 3], .arr [x r (-149648) 3, x r (-926) 1]])]

/-- A value in `examples/assets/google_fonts/Tiger.json`. -/
def tiger98 : Json F :=
  .obj [("a", n 1), ("ix", n 2), ("k", .arr [.obj [("i", .obj [("x", x r 833 3), ("y", x r 833 3)]), ("o",
  .obj [("x", x r 167 3), ("y", x r 167 3)]), ("s", .arr [tiger87 r]), ("t", n 0)], .obj [("i", .obj [("x", x
  r 667 3), ("y", n 1)]), ("o", .obj [("x", x r 167 3), ("y", x r 167 3)]), ("s", .arr [tiger88 r]), ("t", n
  30)], .obj [("i", .obj [("x", x r 833 3), ("y", x r 833 3)]), ("o", .obj [("x", x r 333 3), ("y", n 0)]),
  ("s", .arr [tiger89 r]), ("t", n 38)], .obj [("i", .obj [("x", x r 833 3), ("y", x r 833 3)]), ("o", .obj
  [("x", x r 167 3), ("y", x r 167 3)]), ("s", .arr [tiger90 r]), ("t", n 48)], .obj [("i", .obj [("x", x r 3
  1), ("y", n 1)]), ("o", .obj [("x", x r 167 3), ("y", x r 167 3)]), ("s", .arr [tiger91 r]), ("t", n 52)],
  .obj [("i", .obj [("x", x r 833 3), ("y", x r 833 3)]), ("o", .obj [("x", x r 7 1), ("y", n 0)]), ("s", .arr
  [tiger92 r]), ("t", n 58)], .obj [("i", .obj [("x", x r 833 3), ("y", x r 833 3)]), ("o", .obj [("x", x r
  167 3), ("y", x r 167 3)]), ("s", .arr [tiger93 r]), ("t", n 70)], .obj [("i", .obj [("x", x r 833 3), ("y",
  x r 833 3)]), ("o", .obj [("x", x r 167 3), ("y", x r 167 3)]), ("s", .arr [tiger94 r]), ("t", n 73)], .obj
  [("i", .obj [("x", x r 833 3), ("y", x r 833 3)]), ("o", .obj [("x", x r 167 3), ("y", x r 167 3)]), ("s",
  .arr [tiger95 r]), ("t", n 76)], .obj [("i", .obj [("x", x r 833 3), ("y", x r 833 3)]), ("o", .obj [("x", x
  r 167 3), ("y", x r 167 3)]), ("s", .arr [tiger96 r]), ("t", n 78)], .obj [("s", .arr [tiger97 r]), ("t", n
  246)]])]

/-- A value in `examples/assets/google_fonts/Tiger.json`. -/
def tiger99 : Json F :=
  .arr [.obj [("bm", n 0), ("cix", n 2), ("hd", .bool false), ("it", .arr [.obj [("hd", .bool false), ("ind",
  n 0), ("ix", n 1), ("ks", .obj [("a", n 1), ("ix", n 2), ("k", tiger75 r)]), ("mn", .str
  "ADBE Vector Shape - Group"), ("nm", .str "Path 1"), ("ty", .str "sh")], .obj [("bm", n 0), ("c", .obj
  [("a", n 0), ("ix", n 4), ("k", .arr [x r 991999966491 12, x r 929000016755 12, x r 8 1, n 1])]), ("hd",
  .bool false), ("mn", .str "ADBE Vector Graphic - Fill"), ("nm", .str "Fill 1"), ("o", .obj [("a", n 0),
  ("ix", n 5), ("k", n 100)]), ("r", n 1), ("ty", .str "fl")], .obj [("a", .obj [("a", n 0), ("ix", n 1),
  ("k", .arr [n 0, n 0])]), ("nm", .str "Transform"), ("o", .obj [("a", n 0), ("ix", n 7), ("k", n 100)]),
  ("p", .obj [("a", n 0), ("ix", n 2), ("k", .arr [x r 102609 3, x r 292047 3])]), ("r", .obj [("a", n 0),
  ("ix", n 6), ("k", n 0)]), ("s", .obj [("a", n 0), ("ix", n 3), ("k", .arr [n 100, n 100])]), ("sa", .obj
  [("a", n 0), ("ix", n 5), ("k", n 0)]), ("sk", .obj [("a", n 0), ("ix", n 4), ("k", n 0)]), ("ty", .str
  "tr")]]), ("ix", n 11), ("mn", .str "ADBE Vector Group"), ("nm", .str "Group 11"), ("np", n 2), ("ty", .str
  "gr")], .obj [("bm", n 0), ("cix", n 2), ("hd", .bool false), ("it", .arr [tiger86 r, .obj [("bm", n 0),
  ("c", .obj [("a", n 0), ("ix", n 4), ("k", .arr [x r 732999973671 12, x r 365000017952 12, x r 258999992819
  12, n 1])]), ("hd", .bool false), ("mn", .str "ADBE Vector Graphic - Fill"), ("nm", .str "Fill 1"), ("o",
  .obj [("a", n 0), ("ix", n 5), ("k", n 100)]), ("r", n 1), ("ty", .str "fl")], .obj [("a", .obj [("a", n 0),
  ("ix", n 1), ("k", .arr [n 0, n 0])]), ("nm", .str "Transform"), ("o", .obj [("a", n 0), ("ix", n 7), ("k",
  n 100)]), ("p", .obj [("a", n 0), ("ix", n 2), ("k", .arr [x r 380919 3, x r 482587 3])]), ("r", .obj [("a",
  n 0), ("ix", n 6), ("k", n 0)]), ("s", .obj [("a", n 0), ("ix", n 3), ("k", .arr [n 100, n 100])]), ("sa",
  .obj [("a", n 0), ("ix", n 5), ("k", n 0)]), ("sk", .obj [("a", n 0), ("ix", n 4), ("k", n 0)]), ("ty", .str
  "tr")]]), ("ix", n 13), ("mn", .str "ADBE Vector Group"), ("nm", .str "Group 15"), ("np", n 2), ("ty", .str
  "gr")], .obj [("bm", n 0), ("cix", n 2), ("hd", .bool false), ("it", .arr [.obj [("hd", .bool false),
  ("ind", n 0), ("ix", n 1), ("ks", tiger98 r), ("mn", .str "ADBE Vector Shape - Group"), ("nm", .str
  "Path 1"), ("ty", .str "sh")], .obj [("bm", n 0), ("c", .obj [("a", n 0), ("ix", n 4), ("k", .arr [n 1, x r
  588000009574 12, x r 75 3, n 1])]), ("hd", .bool false), ("mn", .str "ADBE Vector Graphic - Fill"), ("nm",
  .str "Fill 1"), ("o", .obj [("a", n 0), ("ix", n 5), ("k", n 100)]), ("r", n 1), ("ty", .str "fl")], .obj
  [("a", .obj [("a", n 0), ("ix", n 1), ("k", .arr [n 0, n 0])]), ("nm", .str "Transform"), ("o", .obj [("a",
  n 0), ("ix", n 7), ("k", n 100)]), ("p", .obj [("a", n 0), ("ix", n 2), ("k", .arr [x r 338022 3, x r 305631
  3])]), ("r", .obj [("a", n 0), ("ix", n 6), ("k", n 0)]), ("s", .obj [("a", n 0), ("ix", n 3), ("k", .arr [n
  100, n 100])]), ("sa", .obj [("a", n 0), ("ix", n 5), ("k", n 0)]), ("sk", .obj [("a", n 0), ("ix", n 4),
  ("k", n 0)]), ("ty", .str "tr")]]), ("ix", n 14), ("mn", .str "ADBE Vector Group"), ("nm", .str "Group 18"),
  ("np", n 2), ("ty", .str "gr")]]

/-- A value in `examples/assets/google_fonts/Tiger.json`. -/
def tiger100 : Json F :=
  .arr [.obj [("i", .obj [("x", x r 667 3), ("y", n 1)]), ("o", .obj [("x", x r 167 3), ("y", x r 167 3)]),
  ("s", .arr [.obj [("c", .bool true), ("i", .arr [.arr [n 0, n 0], .arr [x r (-30242) 3, x r 7178 3], .arr [x
  r (-8387) 3, x r (-4839) 3], .arr [x r 38225 3, x r (-13144) 3], .arr [n 0, n 0], .arr [x r 621 2, x r 75
  1]]), ("o", .arr [.arr [n 0, n 0], .arr [x r 26935 3, x r (-6371) 3], .arr [x r 8387 3, x r 4758 3], .arr [x
  r (-37016) 3, x r 12742 3], .arr [n 0, n 0], .arr [x r (-9677) 3, x r (-11451) 3]]), ("v", .arr [.arr [x r
  (-74192) 3, x r (-3428) 3], .arr [x r 7178 3, x r (-1896) 3], .arr [x r 65806 3, x r (-33266) 3], .arr [x r
  25161 3, x r 25362 3], .arr [x r (-40644) 3, x r 3254 2], .arr [x r (-59757) 3, x r 15766 3]])]]), ("t", n
  30)], .obj [("i", .obj [("x", x r 833 3), ("y", x r 833 3)]), ("o", .obj [("x", x r 333 3), ("y", n 0)]),
  ("s", .arr [.obj [("c", .bool true), ("i", .arr [.arr [n 0, n 0], .arr [x r (-30242) 3, x r 7178 3], .arr [x
  r (-8387) 3, x r (-4839) 3], .arr [x r 38225 3, x r (-13144) 3], .arr [n 0, n 0], .arr [x r 621 2, x r 75
  1]]), ("o", .arr [.arr [n 0, n 0], .arr [x r 26935 3, x r (-6371) 3], .arr [x r 8387 3, x r 4758 3], .arr [x
  r (-37016) 3, x r 12742 3], .arr [n 0, n 0], .arr [x r (-9677) 3, x r (-11451) 3]]), ("v", .arr [.arr [x r
  (-74192) 3, x r 6572 3], .arr [x r 7178 3, x r 8104 3], .arr [x r 65806 3, x r (-23266) 3], .arr [x r 25161
  3, x r 35362 3], .arr [x r (-40644) 3, x r 4254 2], .arr [x r (-59757) 3, x r 25766 3]])]]), ("t", n 38)],
  .obj [("i", .obj [("x", x r 3 1), ("y", n 1)]), ("o", .obj [("x", x r 167 3), ("y", x r 167 3)]), ("s", .arr
  [.obj [("c", .bool true), ("i", .arr [.arr [n 0, n 0], .arr [x r (-30242) 3, x r 7178 3], .arr [x r (-8387)
  3, x r (-4839) 3], .arr [x r 38225 3, x r (-13144) 3], .arr [n 0, n 0], .arr [x r 621 2, x r 75 1]]), ("o",
  .arr [.arr [n 0, n 0], .arr [x r 26935 3, x r (-6371) 3], .arr [x r 8387 3, x r 4758 3], .arr [x r (-37016)
  3, x r 12742 3], .arr [n 0, n 0], .arr [x r (-9677) 3, x r (-11451) 3]]), ("v", .arr [.arr [x r (-74192) 3,
  x r (-3428) 3], .arr [x r 7178 3, x r (-1896) 3], .arr [x r 65806 3, x r (-33266) 3], .arr [x r 25161 3, x r
  25362 3], .arr [x r (-40644) 3, x r 3254 2], .arr [x r (-59757) 3, x r 15766 3]])]]), ("t", n 48)], .obj
  [("i", .obj [("x", x r 833 3), ("y", x r 833 3)]), ("o", .obj [("x", x r 7 1), ("y", n 0)]), ("s", .arr
  [.obj [("c", .bool true), ("i", .arr [.arr [n 0, n 0], .arr [x r (-3592) 2, x r 8312 3], .arr [x r (-7292)
  3, x r (-5308) 3], .arr [x r 40686 3, x r (-1382) 2], .arr [n 0, n 0], .arr [x r 621 2, x r 75 1]]), ("o",
  .arr [.arr [n 0, n 0], .arr [x r 3592 2, x r (-8312) 3], .arr [x r 7292 3, x r 5308 3], .arr [x r (-37068)
  3, x r 12591 3], .arr [n 0, n 0], .arr [x r (-9677) 3, x r (-11451) 3]]), ("v", .arr [.arr [x r (-80192) 3,
  x r 29572 3], .arr [x r (-4322) 3, x r 31604 3], .arr [x r 56806 3, x r 484 3], .arr [x r 12661 3, x r 59112
  3], .arr [x r (-48144) 3, x r 6579 2], .arr [x r (-67257) 3, x r 49016 3]])]]), ("t", n 58)], .obj [("i",
  .obj [("x", x r 833 3), ("y", x r 833 3)]), ("o", .obj [("x", x r 167 3), ("y", x r 167 3)]), ("s", .arr
  [.obj [("c", .bool true), ("i", .arr [.arr [n 0, n 0], .arr [x r (-30242) 3, x r 7178 3], .arr [x r (-8387)
  3, x r (-4839) 3], .arr [x r 38225 3, x r (-13144) 3], .arr [n 0, n 0], .arr [x r 621 2, x r 75 1]]), ("o",
  .arr [.arr [n 0, n 0], .arr [x r 26935 3, x r (-6371) 3], .arr [x r 8387 3, x r 4758 3], .arr [x r (-37016)
  3, x r 12742 3], .arr [n 0, n 0], .arr [x r (-9677) 3, x r (-11451) 3]]), ("v", .arr [.arr [x r (-74192) 3,
  x r (-3428) 3], .arr [x r 7178 3, x r (-1896) 3], .arr [x r 65806 3, x r (-33266) 3], .arr [x r 25161 3, x r
  25362 3], .arr [x r (-40644) 3, x r 3254 2], .arr [x r (-59757) 3, x r 15766 3]])]]), ("t", n 70)], .obj
  [("i", .obj [("x", x r 833 3), ("y", x r 833 3)]), ("o", .obj [("x", x r 167 3), ("y", x r 167 3)]), ("s",
  .arr [.obj [("c", .bool true), ("i", .arr [.arr [n 0, n 0], .arr [x r (-2921) 2, x r 10623 3], .arr [x r
  (-8387) 3, x r (-4839) 3], .arr [x r 36431 3, x r (-17512) 3], .arr [n 0, n 0], .arr [x r 621 2, x r 75
  1]]), ("o", .arr [.arr [n 0, n 0], .arr [x r 26011 3, x r (-946) 2], .arr [x r 8387 3, x r 4758 3], .arr [x
  r (-35283) 3, x r 1696 2], .arr [n 0, n 0], .arr [x r (-9677) 3, x r (-11451) 3]]), ("v", .arr [.arr [x r
  (-74192) 3, x r 19072 3], .arr [x r 31 2, x r 17228 3], .arr [x r 63306 3, x r (-13266) 3], .arr [x r 21342
  3, x r 4221 2], .arr [x r (-40644) 3, x r 5504 2], .arr [x r (-59757) 3, x r 38266 3]])]]), ("t", n 76)],
  .obj [("s", .arr [.obj [("c", .bool true), ("i", .arr [.arr [n 0, n 0], .arr [x r (-2921) 2, x r 10623 3],
  .arr [x r (-8387) 3, x r (-4839) 3], .arr [x r 36431 3, x r (-17512) 3], .arr [n 0, n 0], .arr [x r 621 2, x
  r 75 1]]), ("o", .arr [.arr [n 0, n 0], .arr [x r 26011 3, x r (-946) 2], .arr [x r 8387 3, x r 4758 3],
  .arr [x r (-35283) 3, x r 1696 2], .arr [n 0, n 0], .arr [x r (-9677) 3, x r (-11451) 3]]), ("v", .arr [.arr
  [x r (-74192) 3, x r 19072 3], .arr [x r 31 2, x r 17228 3], .arr [x r 63306 3, x r (-13266) 3], .arr [x r
  21342 3, x r 4221 2], .arr [x r (-40644) 3, x r 5504 2], .arr [x r (-59757) 3, x r 38266 3]])]]), ("t", n
  246)]]

/-- A value in `examples/assets/google_fonts/Tiger.json`. -/
def tiger101 : Json F :=
  .arr [.obj [("i", .obj [("x", x r 667 3), ("y", n 1)]), ("o", .obj [("x", x r 167 3), ("y", x r 167 3)]),
  ("s", .arr [.obj [("c", .bool true), ("i", .arr [.arr [x r (-4032) 3, x r (-13226) 3], .arr [x r (-18064) 3,
  x r 11936 3], .arr [x r 11935 3, x r (-807) 3], .arr [x r 12822 3, x r (-8387) 3]]), ("o", .arr [.arr [x r
  2016 3, x r 6693 3], .arr [x r 34435 3, x r (-22822) 3], .arr [x r (-11935) 3, x r 806 3], .arr [x r
  (-12742) 3, x r 8306 3]]), ("v", .arr [.arr [x r (-6137) 2, x r 42903 3], .arr [x r 13387 3, x r 34354 3],
  .arr [x r 53467 3, x r (-48789) 3], .arr [x r (-758) 2, x r 1049 3]])]]), ("t", n 30)], .obj [("i", .obj
  [("x", x r 833 3), ("y", x r 833 3)]), ("o", .obj [("x", x r 333 3), ("y", n 0)]), ("s", .arr [.obj [("c",
  .bool true), ("i", .arr [.arr [x r (-4032) 3, x r (-13226) 3], .arr [x r (-18064) 3, x r 11936 3], .arr [x r
  11935 3, x r (-807) 3], .arr [x r 12822 3, x r (-8387) 3]]), ("o", .arr [.arr [x r 2016 3, x r 6693 3], .arr
  [x r 34435 3, x r (-22822) 3], .arr [x r (-11935) 3, x r 806 3], .arr [x r (-12742) 3, x r 8306 3]]), ("v",
  .arr [.arr [x r (-6137) 2, x r 52903 3], .arr [x r 13387 3, x r 44354 3], .arr [x r 53467 3, x r (-38789)
  3], .arr [x r (-758) 2, x r 11049 3]])]]), ("t", n 38)], .obj [("i", .obj [("x", x r 3 1), ("y", n 1)]),
  ("o", .obj [("x", x r 167 3), ("y", x r 167 3)]), ("s", .arr [.obj [("c", .bool true), ("i", .arr [.arr [x r
  (-4032) 3, x r (-13226) 3], .arr [x r (-18064) 3, x r 11936 3], .arr [x r 11935 3, x r (-807) 3], .arr [x r
  12822 3, x r (-8387) 3]]), ("o", .arr [.arr [x r 2016 3, x r 6693 3], .arr [x r 34435 3, x r (-22822) 3],
  .arr [x r (-11935) 3, x r 806 3], .arr [x r (-12742) 3, x r 8306 3]]), ("v", .arr [.arr [x r (-6137) 2, x r
  42903 3], .arr [x r 13387 3, x r 34354 3], .arr [x r 53467 3, x r (-48789) 3], .arr [x r (-758) 2, x r 1049
  3]])]]), ("t", n 48)], .obj [("i", .obj [("x", x r 833 3), ("y", x r 833 3)]), ("o", .obj [("x", x r 7 1),
  ("y", n 0)]), ("s", .arr [.obj [("c", .bool true), ("i", .arr [.arr [x r (-4032) 3, x r (-13226) 3], .arr [x
  r (-18064) 3, x r 11936 3], .arr [x r 11935 3, x r (-807) 3], .arr [x r 12822 3, x r (-8387) 3]]), ("o",
  .arr [.arr [x r 2016 3, x r 6693 3], .arr [x r 34435 3, x r (-22822) 3], .arr [x r (-11935) 3, x r 806 3],
  .arr [x r (-12742) 3, x r 8306 3]]), ("v", .arr [.arr [x r (-61563) 3, x r 73403 3], .arr [x r 13194 3, x r
  64854 3], .arr [x r 53274 3, x r (-18289) 3], .arr [x r (-7773) 3, x r 31549 3]])]]), ("t", n 58)], .obj
  [("i", .obj [("x", x r 833 3), ("y", x r 833 3)]), ("o", .obj [("x", x r 167 3), ("y", x r 167 3)]), ("s",
  .arr [.obj [("c", .bool true), ("i", .arr [.arr [x r (-4032) 3, x r (-13226) 3], .arr [x r (-18064) 3, x r
  11936 3], .arr [x r 11935 3, x r (-807) 3], .arr [x r 12822 3, x r (-8387) 3]]), ("o", .arr [.arr [x r 2016
  3, x r 6693 3], .arr [x r 34435 3, x r (-22822) 3], .arr [x r (-11935) 3, x r 806 3], .arr [x r (-12742) 3,
  x r 8306 3]]), ("v", .arr [.arr [x r (-6137) 2, x r 42903 3], .arr [x r 13387 3, x r 34354 3], .arr [x r
  53467 3, x r (-48789) 3], .arr [x r (-758) 2, x r 1049 3]])]]), ("t", n 70)], .obj [("i", .obj [("x", x r
  833 3), ("y", x r 833 3)]), ("o", .obj [("x", x r 167 3), ("y", x r 167 3)]), ("s", .arr [.obj [("c", .bool
  true), ("i", .arr [.arr [x r (-4032) 3, x r (-13226) 3], .arr [x r (-18064) 3, x r 11936 3], .arr [x r 11935
  3, x r (-807) 3], .arr [x r 12822 3, x r (-8387) 3]]), ("o", .arr [.arr [x r 2016 3, x r 6693 3], .arr [x r
  34435 3, x r (-22822) 3], .arr [x r (-11935) 3, x r 806 3], .arr [x r (-12742) 3, x r 8306 3]]), ("v", .arr
  [.arr [x r (-7537) 2, x r 58903 3], .arr [x r 5387 3, x r 63354 3], .arr [x r 45467 3, x r (-19789) 3], .arr
  [x r (-1558) 2, x r 30049 3]])]]), ("t", n 76)], .obj [("s", .arr [.obj [("c", .bool true), ("i", .arr [.arr
  [x r (-4032) 3, x r (-13226) 3], .arr [x r (-18064) 3, x r 11936 3], .arr [x r 11935 3, x r (-807) 3], .arr
  [x r 12822 3, x r (-8387) 3]]), ("o", .arr [.arr [x r 2016 3, x r 6693 3], .arr [x r 34435 3, x r (-22822)
  3], .arr [x r (-11935) 3, x r 806 3], .arr [x r (-12742) 3, x r 8306 3]]), ("v", .arr [.arr [x r (-7537) 2,
  x r 58903 3], .arr [x r 5387 3, x r 63354 3], .arr [x r 45467 3, x r (-19789) 3], .arr [x r (-1558) 2, x r
  30049 3]])]]), ("t", n 246)]]

/-- A value in `examples/assets/google_fonts/Tiger.json`. -/
def tiger102 : Json F :=
  .arr [.obj [("i", .obj [("x", x r 667 3), ("y", n 1)]), ("o", .obj [("x", x r 167 3), ("y", x r 167 3)]),
  ("s", .arr [.obj [("c", .bool true), ("i", .arr [.arr [n 0, n 0], .arr [x r (-7339) 3, x r 2129 2], .arr [x
  r (-12339) 3, x r (-404) 3], .arr [x r 3549 3, x r (-18709) 3], .arr [n 0, n 0], .arr [x r 11774 3, x r
  (-121) 2]]), ("o", .arr [.arr [n 0, n 0], .arr [x r 4597 3, x r (-13225) 3], .arr [x r 12338 3, x r 403 3],
  .arr [x r (-3628) 3, x r 1871 2], .arr [n 0, n 0], .arr [x r (-9677) 3, x r 968 3]]), ("v", .arr [.arr [x r
  (-36814) 3, x r 61693 3], .arr [x r (-2137) 3, x r (-11613) 3], .arr [x r 24476 3, x r (-61289) 3], .arr [x
  r 32459 3, x r (-11452) 3], .arr [x r 14879 3, x r 57177 3], .arr [x r (-7863) 3, x r 59274 3]])]]), ("t", n
  30)], .obj [("i", .obj [("x", x r 833 3), ("y", x r 833 3)]), ("o", .obj [("x", x r 333 3), ("y", n 0)]),
  ("s", .arr [.obj [("c", .bool true), ("i", .arr [.arr [n 0, n 0], .arr [x r (-7339) 3, x r 2129 2], .arr [x
  r (-12339) 3, x r (-404) 3], .arr [x r 3549 3, x r (-18709) 3], .arr [n 0, n 0], .arr [x r 11774 3, x r
  (-121) 2]]), ("o", .arr [.arr [n 0, n 0], .arr [x r 4597 3, x r (-13225) 3], .arr [x r 12338 3, x r 403 3],
  .arr [x r (-3628) 3, x r 1871 2], .arr [n 0, n 0], .arr [x r (-9677) 3, x r 968 3]]), ("v", .arr [.arr [x r
  (-36814) 3, x r 71693 3], .arr [x r (-2137) 3, x r (-1613) 3], .arr [x r 24476 3, x r (-51289) 3], .arr [x r
  32459 3, x r (-1452) 3], .arr [x r 14879 3, x r 67177 3], .arr [x r (-7863) 3, x r 69274 3]])]]), ("t", n
  38)], .obj [("i", .obj [("x", x r 3 1), ("y", n 1)]), ("o", .obj [("x", x r 167 3), ("y", x r 167 3)]),
  ("s", .arr [.obj [("c", .bool true), ("i", .arr [.arr [n 0, n 0], .arr [x r (-7339) 3, x r 2129 2], .arr [x
  r (-12339) 3, x r (-404) 3], .arr [x r 3549 3, x r (-18709) 3], .arr [n 0, n 0], .arr [x r 11774 3, x r
  (-121) 2]]), ("o", .arr [.arr [n 0, n 0], .arr [x r 4597 3, x r (-13225) 3], .arr [x r 12338 3, x r 403 3],
  .arr [x r (-3628) 3, x r 1871 2], .arr [n 0, n 0], .arr [x r (-9677) 3, x r 968 3]]), ("v", .arr [.arr [x r
  (-36814) 3, x r 61693 3], .arr [x r (-2137) 3, x r (-11613) 3], .arr [x r 24476 3, x r (-61289) 3], .arr [x
  r 32459 3, x r (-11452) 3], .arr [x r 14879 3, x r 57177 3], .arr [x r (-7863) 3, x r 59274 3]])]]), ("t", n
  48)], .obj [("i", .obj [("x", x r 833 3), ("y", x r 833 3)]), ("o", .obj [("x", x r 7 1), ("y", n 0)]),
  ("s", .arr [.obj [("c", .bool true), ("i", .arr [.arr [n 0, n 0], .arr [x r (-7633) 3, x r 14692 3], .arr [x
  r (-11789) 3, x r (-3666) 3], .arr [x r 6677 3, x r (-23463) 3], .arr [n 0, n 0], .arr [x r 11667 3, x r
  1993 3]]), ("o", .arr [.arr [n 0, n 0], .arr [x r 7633 3, x r (-14692) 3], .arr [x r 11788 3, x r 3666 3],
  .arr [x r (-6677) 3, x r 23463 3], .arr [n 0, n 0], .arr [x r (-9587) 3, x r (-1637) 3]]), ("v", .arr [.arr
  [x r (-48814) 3, x r 74443 3], .arr [x r (-6537) 3, x r 17024 3], .arr [x r 26315 3, x r (-40548) 3], .arr
  [x r 29023 3, x r 24369 3], .arr [x r 14879 3, x r 77927 3], .arr [x r (-29387) 3, x r 77594 3]])]]), ("t",
  n 58)], .obj [("i", .obj [("x", x r 833 3), ("y", x r 833 3)]), ("o", .obj [("x", x r 167 3), ("y", x r 167
  3)]), ("s", .arr [.obj [("c", .bool true), ("i", .arr [.arr [n 0, n 0], .arr [x r (-7339) 3, x r 2129 2],
  .arr [x r (-12339) 3, x r (-404) 3], .arr [x r 3549 3, x r (-18709) 3], .arr [n 0, n 0], .arr [x r 11774 3,
  x r (-121) 2]]), ("o", .arr [.arr [n 0, n 0], .arr [x r 4597 3, x r (-13225) 3], .arr [x r 12338 3, x r 403
  3], .arr [x r (-3628) 3, x r 1871 2], .arr [n 0, n 0], .arr [x r (-9677) 3, x r 968 3]]), ("v", .arr [.arr
  [x r (-36814) 3, x r 61693 3], .arr [x r (-2137) 3, x r (-11613) 3], .arr [x r 24476 3, x r (-61289) 3],
  .arr [x r 32459 3, x r (-11452) 3], .arr [x r 14879 3, x r 57177 3], .arr [x r (-7863) 3, x r 59274 3]])]]),
  ("t", n 70)], .obj [("i", .obj [("x", x r 833 3), ("y", x r 833 3)]), ("o", .obj [("x", x r 167 3), ("y", x
  r 167 3)]), ("s", .arr [.obj [("c", .bool true), ("i", .arr [.arr [n 0, n 0], .arr [x r (-5233) 3, x r 26555
  3], .arr [x r (-12339) 3, x r (-404) 3], .arr [x r 3549 3, x r (-18709) 3], .arr [n 0, n 0], .arr [x r
  (-5541) 3, x r (-14942) 3]]), ("o", .arr [.arr [n 0, n 0], .arr [x r 5233 3, x r (-26555) 3], .arr [x r
  12338 3, x r 403 3], .arr [x r (-3628) 3, x r 1871 2], .arr [n 0, n 0], .arr [x r (-12041) 3, x r 8058 3]]),
  ("v", .arr [.arr [x r (-33814) 3, x r 126193 3], .arr [x r (-20137) 3, x r 65387 3], .arr [x r 11476 3, x r
  3211 3], .arr [x r 15959 3, x r 49048 3], .arr [x r 14879 3, x r 67177 3], .arr [x r 22637 3, x r 99774
  3]])]]), ("t", n 76)], .obj [("s", .arr [.obj [("c", .bool true), ("i", .arr [.arr [n 0, n 0], .arr [x r
  (-5233) 3, x r 26555 3], .arr [x r (-12339) 3, x r (-404) 3], .arr [x r 3549 3, x r (-18709) 3], .arr [n 0,
  n 0], .arr [x r (-5541) 3, x r (-14942) 3]]), ("o", .arr [.arr [n 0, n 0], .arr [x r 5233 3, x r (-26555)
  3], .arr [x r 12338 3, x r 403 3], .arr [x r (-3628) 3, x r 1871 2], .arr [n 0, n 0], .arr [x r (-12041) 3,
  x r 8058 3]]), ("v", .arr [.arr [x r (-33814) 3, x r 130193 3], .arr [x r (-20137) 3, x r 65387 3], .arr [x
  r 11476 3, x r 3211 3], .arr [x r 15959 3, x r 49048 3], .arr [x r 14879 3, x r 67177 3], .arr [x r 22637 3,
  x r 99774 3]])]]), ("t", n 246)]]

/-- A value in `examples/assets/google_fonts/Tiger.json`. -/
def tiger103 : Json F :=
  .arr [.obj [("i", .obj [("x", x r 667 3), ("y", n 1)]), ("o", .obj [("x", x r 167 3), ("y", x r 167 3)]),
  ("s", .arr [.obj [("c", .bool true), ("i", .arr [.arr [n 0, n 0], .arr [x r (-8791) 3, x r 23064 3], .arr [x
  r (-13549) 3, x r 3468 3], .arr [x r 871 2, x r (-28709) 3], .arr [n 0, n 0], .arr [x r 12823 3, x r (-1935)
  3]]), ("o", .arr [.arr [n 0, n 0], .arr [x r 879 2, x r (-23145) 3], .arr [x r 13951 3, x r (-3629) 3], .arr
  [x r (-8387) 3, x r 275 1], .arr [n 0, n 0], .arr [x r (-2629) 2, x r 3951 3]]), ("v", .arr [.arr [x r
  (-48628) 3, x r 71733 3], .arr [x r (-3225) 3, x r (-3508) 3], .arr [x r 34677 3, x r (-68104) 3], .arr [x r
  35886 3, x r (-625) 2], .arr [x r 12742 3, x r 59959 3], .arr [x r (-15081) 3, x r 64314 3]])]]), ("t", n
  30)], .obj [("i", .obj [("x", x r 833 3), ("y", x r 833 3)]), ("o", .obj [("x", x r 333 3), ("y", n 0)]),
  ("s", .arr [.obj [("c", .bool true), ("i", .arr [.arr [n 0, n 0], .arr [x r (-8791) 3, x r 23064 3], .arr [x
  r (-13549) 3, x r 3468 3], .arr [x r 871 2, x r (-28709) 3], .arr [n 0, n 0], .arr [x r 12823 3, x r (-1935)
  3]]), ("o", .arr [.arr [n 0, n 0], .arr [x r 879 2, x r (-23145) 3], .arr [x r 13951 3, x r (-3629) 3], .arr
  [x r (-8387) 3, x r 275 1], .arr [n 0, n 0], .arr [x r (-2629) 2, x r 3951 3]]), ("v", .arr [.arr [x r
  (-48628) 3, x r 81733 3], .arr [x r (-4725) 3, x r 4992 3], .arr [x r 34677 3, x r (-58104) 3], .arr [x r
  35886 3, x r 375 2], .arr [x r 12742 3, x r 69959 3], .arr [x r (-15081) 3, x r 74314 3]])]]), ("t", n 38)],
  .obj [("i", .obj [("x", x r 3 1), ("y", n 1)]), ("o", .obj [("x", x r 167 3), ("y", x r 167 3)]), ("s", .arr
  [.obj [("c", .bool true), ("i", .arr [.arr [n 0, n 0], .arr [x r (-8791) 3, x r 23064 3], .arr [x r (-13549)
  3, x r 3468 3], .arr [x r 871 2, x r (-28709) 3], .arr [n 0, n 0], .arr [x r 12823 3, x r (-1935) 3]]),
  ("o", .arr [.arr [n 0, n 0], .arr [x r 879 2, x r (-23145) 3], .arr [x r 13951 3, x r (-3629) 3], .arr [x r
  (-8387) 3, x r 275 1], .arr [n 0, n 0], .arr [x r (-2629) 2, x r 3951 3]]), ("v", .arr [.arr [x r (-48628)
  3, x r 71733 3], .arr [x r (-3225) 3, x r (-3508) 3], .arr [x r 34677 3, x r (-68104) 3], .arr [x r 35886 3,
  x r (-625) 2], .arr [x r 12742 3, x r 59959 3], .arr [x r (-15081) 3, x r 64314 3]])]]), ("t", n 48)], .obj
  [("i", .obj [("x", x r 833 3), ("y", x r 833 3)]), ("o", .obj [("x", x r 7 1), ("y", n 0)]), ("s", .arr
  [.obj [("c", .bool true), ("i", .arr [.arr [n 0, n 0], .arr [x r (-14578) 3, x r 19918 3], .arr [x r
  (-13983) 3, x r (-255) 3], .arr [x r 16023 3, x r (-25364) 3], .arr [n 0, n 0], .arr [x r 12875 3, x r 1548
  3]]), ("o", .arr [.arr [n 0, n 0], .arr [x r 14622 3, x r (-19979) 3], .arr [x r 14414 3, x r 207 3], .arr
  [x r (-1539) 2, x r 24284 3], .arr [n 0, n 0], .arr [x r (-26395) 3, x r (-3174) 3]]), ("v", .arr [.arr [x r
  (-70473) 3, x r 55327 3], .arr [x r (-6715) 3, x r (-5151) 3], .arr [x r 46985 3, x r (-57359) 3], .arr [x r
  3172 2, x r 2595 3], .arr [x r (-818) 2, x r 60277 3], .arr [x r (-36159) 3, x r 57086 3]])]]), ("t", n
  58)], .obj [("i", .obj [("x", x r 833 3), ("y", x r 833 3)]), ("o", .obj [("x", x r 167 3), ("y", x r 167
  3)]), ("s", .arr [.obj [("c", .bool true), ("i", .arr [.arr [n 0, n 0], .arr [x r (-8791) 3, x r 23064 3],
  .arr [x r (-13549) 3, x r 3468 3], .arr [x r 871 2, x r (-28709) 3], .arr [n 0, n 0], .arr [x r 12697 3, x r
  (-2639) 3]]), ("o", .arr [.arr [n 0, n 0], .arr [x r 879 2, x r (-23145) 3], .arr [x r 13951 3, x r (-3629)
  3], .arr [x r (-8387) 3, x r 275 1], .arr [n 0, n 0], .arr [x r (-26115) 3, x r 5429 3]]), ("v", .arr [.arr
  [x r (-49444) 3, x r 7613 2], .arr [x r (-3225) 3, x r (-3508) 3], .arr [x r 34677 3, x r (-68104) 3], .arr
  [x r 35886 3, x r (-625) 2], .arr [x r 12742 3, x r 59959 3], .arr [x r (-15831) 3, x r 66064 3]])]]), ("t",
  n 70)], .obj [("i", .obj [("x", x r 833 3), ("y", x r 833 3)]), ("o", .obj [("x", x r 167 3), ("y", x r 167
  3)]), ("s", .arr [.obj [("c", .bool true), ("i", .arr [.arr [n 0, n 0], .arr [x r (-8791) 3, x r 23064 3],
  .arr [x r (-13549) 3, x r 3468 3], .arr [x r 871 2, x r (-28709) 3], .arr [n 0, n 0], .arr [x r 9239 3, x r
  (-91) 1]]), ("o", .arr [.arr [n 0, n 0], .arr [x r 879 2, x r (-23145) 3], .arr [x r 13951 3, x r (-3629)
  3], .arr [x r (-8387) 3, x r 275 1], .arr [n 0, n 0], .arr [x r (-12365) 3, x r 12179 3]]), ("v", .arr [.arr
  [x r (-1254) 2, x r 174249 3], .arr [x r 10275 3, x r 96992 3], .arr [x r 34677 3, x r 11896 3], .arr [x r
  40886 3, x r 8675 2], .arr [x r 29742 3, x r 139459 3], .arr [x r 9169 3, x r 151814 3]])]]), ("t", n 76)],
  .obj [("s", .arr [.obj [("c", .bool true), ("i", .arr [.arr [n 0, n 0], .arr [x r (-8791) 3, x r 23064 3],
  .arr [x r (-13549) 3, x r 3468 3], .arr [x r 871 2, x r (-28709) 3], .arr [n 0, n 0], .arr [x r 1074 2, x r
  (-7268) 3]]), ("o", .arr [.arr [n 0, n 0], .arr [x r 879 2, x r (-23145) 3], .arr [x r 13951 3, x r (-3629)
  3], .arr [x r (-8387) 3, x r 275 1], .arr [n 0, n 0], .arr [x r (-18365) 3, x r 12429 3]]), ("v", .arr [.arr
  [x r (-1479) 2, x r 164999 3], .arr [x r 4275 3, x r 94492 3], .arr [x r 34677 3, x r 11896 3], .arr [x r
  40886 3, x r 8675 2], .arr [x r 29742 3, x r 139459 3], .arr [x r 8419 3, x r 150314 3]])]]), ("t", n 246)]]

/-- A value in `examples/assets/google_fonts/Tiger.json`. -/
def tiger104 : Json F :=
  .arr [.obj [("i", .obj [("x", x r 667 3), ("y", n 1)]), ("o", .obj [("x", x r 167 3), ("y", x r 167 3)]),
  ("s", .arr [.obj [("c", .bool true), ("i", .arr [.arr [n 0, n 0], .arr [x r 3548 3, x r (-12338) 3], .arr [x
  r (-629) 2, x r (-7177) 3], .arr [x r (-11936) 3, x r 2629 2], .arr [n 0, n 0], .arr [x r 13467 3, x r 11048
  3]]), ("o", .arr [.arr [n 0, n 0], .arr [x r (-363) 2, x r 12339 3], .arr [x r 8225 3, x r 9435 3], .arr [x
  r 11935 3, x r (-2629) 2], .arr [n 0, n 0], .arr [x r (-10484) 3, x r (-8629) 3]]), ("v", .arr [.arr [x r
  2943 3, x r (-7262) 2], .arr [x r (-6008) 3, x r (-524) 3], .arr [x r (-34153) 3, x r 63185 3], .arr [x r
  26572 3, x r 13266 3], .arr [x r 40443 3, x r (-39314) 3], .arr [x r 22379 3, x r (-59152) 3]])]]), ("t", n
  30)], .obj [("i", .obj [("x", x r 833 3), ("y", x r 833 3)]), ("o", .obj [("x", x r 333 3), ("y", n 0)]),
  ("s", .arr [.obj [("c", .bool true), ("i", .arr [.arr [n 0, n 0], .arr [x r 3548 3, x r (-12338) 3], .arr [x
  r (-629) 2, x r (-7177) 3], .arr [x r (-11936) 3, x r 2629 2], .arr [n 0, n 0], .arr [x r 13467 3, x r 11048
  3]]), ("o", .arr [.arr [n 0, n 0], .arr [x r (-363) 2, x r 12339 3], .arr [x r 8225 3, x r 9435 3], .arr [x
  r 11935 3, x r (-2629) 2], .arr [n 0, n 0], .arr [x r (-10484) 3, x r (-8629) 3]]), ("v", .arr [.arr [x r
  2943 3, x r (-6262) 2], .arr [x r (-6008) 3, x r 9476 3], .arr [x r (-34153) 3, x r 73185 3], .arr [x r
  26572 3, x r 23266 3], .arr [x r 40443 3, x r (-29314) 3], .arr [x r 22379 3, x r (-49152) 3]])]]), ("t", n
  38)], .obj [("i", .obj [("x", x r 3 1), ("y", n 1)]), ("o", .obj [("x", x r 167 3), ("y", x r 167 3)]),
  ("s", .arr [.obj [("c", .bool true), ("i", .arr [.arr [n 0, n 0], .arr [x r 3548 3, x r (-12338) 3], .arr [x
  r (-629) 2, x r (-7177) 3], .arr [x r (-11936) 3, x r 2629 2], .arr [n 0, n 0], .arr [x r 13467 3, x r 11048
  3]]), ("o", .arr [.arr [n 0, n 0], .arr [x r (-363) 2, x r 12339 3], .arr [x r 8225 3, x r 9435 3], .arr [x
  r 11935 3, x r (-2629) 2], .arr [n 0, n 0], .arr [x r (-10484) 3, x r (-8629) 3]]), ("v", .arr [.arr [x r
  4443 3, x r (-8512) 2], .arr [x r (-6008) 3, x r (-524) 3], .arr [x r (-34153) 3, x r 63185 3], .arr [x r
  26572 3, x r 13266 3], .arr [x r 43943 3, x r (-53564) 3], .arr [x r 25379 3, x r (-70652) 3]])]]), ("t", n
  48)], .obj [("i", .obj [("x", x r 833 3), ("y", x r 833 3)]), ("o", .obj [("x", x r 7 1), ("y", n 0)]),
  ("s", .arr [.obj [("c", .bool true), ("i", .arr [.arr [n 0, n 0], .arr [x r 3548 3, x r (-12338) 3], .arr [x
  r (-629) 2, x r (-7177) 3], .arr [x r (-11936) 3, x r 2629 2], .arr [n 0, n 0], .arr [x r 13467 3, x r 11048
  3]]), ("o", .arr [.arr [n 0, n 0], .arr [x r (-363) 2, x r 12339 3], .arr [x r 8225 3, x r 9435 3], .arr [x
  r 11935 3, x r (-2629) 2], .arr [n 0, n 0], .arr [x r (-10484) 3, x r (-8629) 3]]), ("v", .arr [.arr [x r
  313 2, x r (-5537) 2], .arr [x r (-5821) 3, x r 19976 3], .arr [x r (-33966) 3, x r 83685 3], .arr [x r
  26759 3, x r 33766 3], .arr [x r 4063 2, x r (-18814) 3], .arr [x r 22316 3, x r (-40652) 3]])]]), ("t", n
  58)], .obj [("i", .obj [("x", x r 833 3), ("y", x r 833 3)]), ("o", .obj [("x", x r 167 3), ("y", x r 167
  3)]), ("s", .arr [.obj [("c", .bool true), ("i", .arr [.arr [n 0, n 0], .arr [x r 3548 3, x r (-12338) 3],
  .arr [x r (-629) 2, x r (-7177) 3], .arr [x r (-11936) 3, x r 2629 2], .arr [n 0, n 0], .arr [x r 13467 3, x
  r 11048 3]]), ("o", .arr [.arr [n 0, n 0], .arr [x r (-363) 2, x r 12339 3], .arr [x r 8225 3, x r 9435 3],
  .arr [x r 11935 3, x r (-2629) 2], .arr [n 0, n 0], .arr [x r (-10484) 3, x r (-8629) 3]]), ("v", .arr [.arr
  [x r 2943 3, x r (-7262) 2], .arr [x r (-6008) 3, x r (-524) 3], .arr [x r (-34153) 3, x r 63185 3], .arr [x
  r 26572 3, x r 13266 3], .arr [x r 40443 3, x r (-39314) 3], .arr [x r 22379 3, x r (-59152) 3]])]]), ("t",
  n 70)], .obj [("i", .obj [("x", x r 833 3), ("y", x r 833 3)]), ("o", .obj [("x", x r 167 3), ("y", x r 167
  3)]), ("s", .arr [.obj [("c", .bool true), ("i", .arr [.arr [n 0, n 0], .arr [x r 3548 3, x r (-12338) 3],
  .arr [x r (-629) 2, x r (-7177) 3], .arr [x r (-11936) 3, x r 2629 2], .arr [n 0, n 0], .arr [x r 13467 3, x
  r 11048 3]]), ("o", .arr [.arr [n 0, n 0], .arr [x r (-363) 2, x r 12339 3], .arr [x r 8225 3, x r 9435 3],
  .arr [x r 11935 3, x r (-2629) 2], .arr [n 0, n 0], .arr [x r (-10484) 3, x r (-8629) 3]]), ("v", .arr [.arr
  [x r 3068 3, x r (-7212) 2], .arr [x r (-6008) 3, x r 9476 3], .arr [x r (-34153) 3, x r 73185 3], .arr [x r
  26572 3, x r 23266 3], .arr [x r 40443 3, x r (-29314) 3], .arr [x r 27129 3, x r (-55027) 3]])]]), ("t", n
  76)], .obj [("s", .arr [.obj [("c", .bool true), ("i", .arr [.arr [n 0, n 0], .arr [x r 3548 3, x r (-12338)
  3], .arr [x r (-629) 2, x r (-7177) 3], .arr [x r (-11936) 3, x r 2629 2], .arr [n 0, n 0], .arr [x r 13467
  3, x r 11048 3]]), ("o", .arr [.arr [n 0, n 0], .arr [x r (-363) 2, x r 12339 3], .arr [x r 8225 3, x r 9435
  3], .arr [x r 11935 3, x r (-2629) 2], .arr [n 0, n 0], .arr [x r (-10484) 3, x r (-8629) 3]]), ("v", .arr
  [.arr [x r 2943 3, x r (-6262) 2], .arr [x r (-6008) 3, x r 9476 3], .arr [x r (-34153) 3, x r 73185 3],
  .arr [x r 26572 3, x r 23266 3], .arr [x r 40443 3, x r (-29314) 3], .arr [x r 22379 3, x r (-49152)
  3]])]]), ("t", n 246)]]

/-- A value in `examples/assets/google_fonts/Tiger.json`. -/
def tiger105 : Json F :=
  .arr [.obj [("i", .obj [("x", x r 667 3), ("y", n 1)]), ("o", .obj [("x", x r 167 3), ("y", x r 167 3)]),
  ("s", .arr [.obj [("c", .bool true), ("i", .arr [.arr [x r (-9839) 3, x r (-1209) 3], .arr [x r (-7177) 3, x
  r 29516 3], .arr [n 0, n 0], .arr [x r 13145 3, x r 2984 3], .arr [n 0, n 0], .arr [x r 646 3, x r (-44757)
  3]]), ("o", .arr [.arr [x r 16128 3, x r 2097 3], .arr [x r 7177 3, x r (-29516) 3], .arr [n 0, n 0], .arr
  [x r (-15162) 3, x r (-3467) 3], .arr [n 0, n 0], .arr [x r (-403) 3, x r 23951 3]]), ("v", .arr [.arr [x r
  (-20281) 3, x r 77458 3], .arr [x r 18267 3, x r 2701 3], .arr [x r 30121 3, x r (-67862) 3], .arr [x r 4235
  3, x r (-74475) 3], .arr [x r (-24475) 3, x r (-79555) 3], .arr [x r (-22459) 3, x r (-7299) 3]])]]), ("t",
  n 30)], .obj [("i", .obj [("x", x r 833 3), ("y", x r 833 3)]), ("o", .obj [("x", x r 333 3), ("y", n 0)]),
  ("s", .arr [.obj [("c", .bool true), ("i", .arr [.arr [x r (-9839) 3, x r (-1209) 3], .arr [x r (-7177) 3, x
  r 29516 3], .arr [n 0, n 0], .arr [x r 13145 3, x r 2984 3], .arr [n 0, n 0], .arr [x r 646 3, x r (-44757)
  3]]), ("o", .arr [.arr [x r 16128 3, x r 2097 3], .arr [x r 7177 3, x r (-29516) 3], .arr [n 0, n 0], .arr
  [x r (-15162) 3, x r (-3467) 3], .arr [n 0, n 0], .arr [x r (-403) 3, x r 23951 3]]), ("v", .arr [.arr [x r
  (-20281) 3, x r 87458 3], .arr [x r 18267 3, x r 12701 3], .arr [x r 30121 3, x r (-57862) 3], .arr [x r
  4235 3, x r (-64475) 3], .arr [x r (-24475) 3, x r (-69555) 3], .arr [x r (-22459) 3, x r 2701 3]])]]),
  ("t", n 38)], .obj [("i", .obj [("x", x r 3 1), ("y", n 1)]), ("o", .obj [("x", x r 167 3), ("y", x r 167
  3)]), ("s", .arr [.obj [("c", .bool true), ("i", .arr [.arr [x r (-9839) 3, x r (-1209) 3], .arr [x r
  (-7177) 3, x r 29516 3], .arr [n 0, n 0], .arr [x r 13145 3, x r 2984 3], .arr [n 0, n 0], .arr [x r 646 3,
  x r (-44757) 3]]), ("o", .arr [.arr [x r 16128 3, x r 2097 3], .arr [x r 7177 3, x r (-29516) 3], .arr [n 0,
  n 0], .arr [x r (-15162) 3, x r (-3467) 3], .arr [n 0, n 0], .arr [x r (-403) 3, x r 23951 3]]), ("v", .arr
  [.arr [x r (-20281) 3, x r 77458 3], .arr [x r 18267 3, x r 2701 3], .arr [x r 31871 3, x r (-80112) 3],
  .arr [x r 6485 3, x r (-84225) 3], .arr [x r (-24975) 3, x r (-89805) 3], .arr [x r (-22459) 3, x r (-7299)
  3]])]]), ("t", n 48)], .obj [("i", .obj [("x", x r 833 3), ("y", x r 833 3)]), ("o", .obj [("x", x r 7 1),
  ("y", n 0)]), ("s", .arr [.obj [("c", .bool true), ("i", .arr [.arr [x r (-9839) 3, x r (-1209) 3], .arr [x
  r (-7177) 3, x r 29516 3], .arr [n 0, n 0], .arr [x r 13145 3, x r 2984 3], .arr [n 0, n 0], .arr [x r 646
  3, x r (-44757) 3]]), ("o", .arr [.arr [x r 16128 3, x r 2097 3], .arr [x r 7177 3, x r (-29516) 3], .arr [n
  0, n 0], .arr [x r (-15162) 3, x r (-3467) 3], .arr [n 0, n 0], .arr [x r (-403) 3, x r 23951 3]]), ("v",
  .arr [.arr [x r (-20222) 3, x r 97458 3], .arr [x r 18326 3, x r 22701 3], .arr [x r 3043 2, x r (-48612)
  3], .arr [x r 5044 3, x r (-65225) 3], .arr [x r (-24416) 3, x r (-60305) 3], .arr [x r (-224) 1, x r 12701
  3]])]]), ("t", n 58)], .obj [("i", .obj [("x", x r 833 3), ("y", x r 833 3)]), ("o", .obj [("x", x r 167 3),
  ("y", x r 167 3)]), ("s", .arr [.obj [("c", .bool true), ("i", .arr [.arr [x r (-9839) 3, x r (-1209) 3],
  .arr [x r (-7177) 3, x r 29516 3], .arr [n 0, n 0], .arr [x r 13145 3, x r 2984 3], .arr [n 0, n 0], .arr [x
  r 646 3, x r (-44757) 3]]), ("o", .arr [.arr [x r 16128 3, x r 2097 3], .arr [x r 7177 3, x r (-29516) 3],
  .arr [n 0, n 0], .arr [x r (-15162) 3, x r (-3467) 3], .arr [n 0, n 0], .arr [x r (-403) 3, x r 23951 3]]),
  ("v", .arr [.arr [x r (-20281) 3, x r 77458 3], .arr [x r 18267 3, x r 2701 3], .arr [x r 30621 3, x r
  (-71362) 3], .arr [x r 6485 3, x r (-86725) 3], .arr [x r (-24475) 3, x r (-82805) 3], .arr [x r (-22459) 3,
  x r (-7299) 3]])]]), ("t", n 70)], .obj [("i", .obj [("x", x r 833 3), ("y", x r 833 3)]), ("o", .obj [("x",
  x r 167 3), ("y", x r 167 3)]), ("s", .arr [.obj [("c", .bool true), ("i", .arr [.arr [x r (-9839) 3, x r
  (-1209) 3], .arr [x r (-7177) 3, x r 29516 3], .arr [n 0, n 0], .arr [x r 13145 3, x r 2984 3], .arr [n 0, n
  0], .arr [x r 646 3, x r (-44757) 3]]), ("o", .arr [.arr [x r 16128 3, x r 2097 3], .arr [x r 7177 3, x r
  (-29516) 3], .arr [n 0, n 0], .arr [x r (-15162) 3, x r (-3467) 3], .arr [n 0, n 0], .arr [x r (-403) 3, x r
  23951 3]]), ("v", .arr [.arr [x r (-20281) 3, x r 87458 3], .arr [x r 18267 3, x r 12701 3], .arr [x r 30871
  3, x r (-62237) 3], .arr [x r 636 2, x r (-77475) 3], .arr [x r (-30975) 3, x r (-68055) 3], .arr [x r
  (-22459) 3, x r 2701 3]])]]), ("t", n 76)], .obj [("i", .obj [("x", x r 833 3), ("y", x r 833 3)]), ("o",
  .obj [("x", x r 167 3), ("y", x r 167 3)]), ("s", .arr [.obj [("c", .bool true), ("i", .arr [.arr [x r
  (-9839) 3, x r (-1209) 3], .arr [x r (-7177) 3, x r 29516 3], .arr [n 0, n 0], .arr [x r 13415 3, x r 1398
  3], .arr [n 0, n 0], .arr [x r 646 3, x r (-44757) 3]]), ("o", .arr [.arr [x r 16128 3, x r 2097 3], .arr [x
  r 7177 3, x r (-29516) 3], .arr [n 0, n 0], .arr [x r (-15357) 3, x r (-1627) 3], .arr [n 0, n 0], .arr [x r
  (-403) 3, x r 23951 3]]), ("v", .arr [.arr [x r (-30281) 3, x r 79708 3], .arr [x r 8267 3, x r 4951 3],
  .arr [x r 19746 3, x r (-72049) 3], .arr [x r (-4953) 3, x r (-79975) 3], .arr [x r (-40475) 3, x r (-74055)
  3], .arr [x r (-32459) 3, x r (-5049) 3]])]]), ("t", n 77)], .obj [("i", .obj [("x", x r 833 3), ("y", x r
  833 3)]), ("o", .obj [("x", x r 167 3), ("y", x r 167 3)]), ("s", .arr [.obj [("c", .bool true), ("i", .arr
  [.arr [x r (-9839) 3, x r (-1209) 3], .arr [x r (-7177) 3, x r 29516 3], .arr [n 0, n 0], .arr [x r 13686 3,
  x r (-187) 3], .arr [n 0, n 0], .arr [x r 646 3, x r (-44757) 3]]), ("o", .arr [.arr [x r 16128 3, x r 2097
  3], .arr [x r 7177 3, x r (-29516) 3], .arr [n 0, n 0], .arr [x r (-15552) 3, x r 213 3], .arr [n 0, n 0],
  .arr [x r (-403) 3, x r 23951 3]]), ("v", .arr [.arr [x r (-30281) 3, x r 87458 3], .arr [x r 8267 3, x r
  12701 3], .arr [x r 18621 3, x r (-66362) 3], .arr [x r (-6265) 3, x r (-66975) 3], .arr [x r (-39975) 3, x
  r (-64555) 3], .arr [x r (-32459) 3, x r 2701 3]])]]), ("t", n 78)], .obj [("s", .arr [.obj [("c", .bool
  true), ("i", .arr [.arr [x r (-9839) 3, x r (-1209) 3], .arr [x r (-7177) 3, x r 29516 3], .arr [n 0, n 0],
  .arr [x r 13145 3, x r 2984 3], .arr [n 0, n 0], .arr [x r 646 3, x r (-44757) 3]]), ("o", .arr [.arr [x r
  16128 3, x r 2097 3], .arr [x r 7177 3, x r (-29516) 3], .arr [n 0, n 0], .arr [x r (-15162) 3, x r (-3467)
  3], .arr [n 0, n 0], .arr [x r (-403) 3, x r 23951 3]]), ("v", .arr [.arr [x r (-20281) 3, x r 87458 3],
  .arr [x r 18267 3, x r 12701 3], .arr [x r 30121 3, x r (-57862) 3], .arr [x r 4235 3, x r (-64475) 3], .arr
  [x r (-29975) 3, x r (-64555) 3], .arr [x r (-22459) 3, x r 2701 3]])]]), ("t", n 246)]]

/-- A value in `examples/assets/google_fonts/Tiger.json`. -/
def tiger106 : Json F :=
  .arr [.obj [("i", .obj [("x", x r 667 3), ("y", n 1)]), ("o", .obj [("x", x r 167 3), ("y", x r 167 3)]),
  ("s", .arr [.obj [("c", .bool true), ("i", .arr [.arr [n 0, n 0], .arr [x r (-1774) 3, x r (-46935) 3], .arr
  [x r (-9274) 3, n 0], .arr [x r (-4758) 3, x r 45887 3], .arr [n 0, n 0], .arr [x r 12742 3, x r 484 3]]),
  ("o", .arr [.arr [n 0, n 0], .arr [x r 121 2, x r 30725 3], .arr [x r 11935 3, n 0], .arr [x r 4758 3, x r
  (-45886) 3], .arr [n 0, n 0], .arr [x r (-15806) 3, x r (-483) 3]]), ("v", .arr [.arr [x r (-28548) 3, x r
  (-81652) 3], .arr [x r (-18065) 3, x r (-1814) 3], .arr [x r (-371) 2, x r 82216 3], .arr [x r 2379 2, x r
  (-4234) 3], .arr [x r 27419 3, x r (-79636) 3], .arr [x r 161 3, x r (-81733) 3]])]]), ("t", n 30)], .obj
  [("i", .obj [("x", x r 833 3), ("y", x r 833 3)]), ("o", .obj [("x", x r 333 3), ("y", n 0)]), ("s", .arr
  [.obj [("c", .bool true), ("i", .arr [.arr [n 0, n 0], .arr [x r (-1774) 3, x r (-46935) 3], .arr [x r
  (-9274) 3, n 0], .arr [x r (-4758) 3, x r 45887 3], .arr [n 0, n 0], .arr [x r 12742 3, x r 484 3]]), ("o",
  .arr [.arr [n 0, n 0], .arr [x r 121 2, x r 30725 3], .arr [x r 11935 3, n 0], .arr [x r 4758 3, x r
  (-45886) 3], .arr [n 0, n 0], .arr [x r (-15806) 3, x r (-483) 3]]), ("v", .arr [.arr [x r (-28548) 3, x r
  (-71652) 3], .arr [x r (-18065) 3, x r 8186 3], .arr [x r (-371) 2, x r 92216 3], .arr [x r 2379 2, x r 5766
  3], .arr [x r 27419 3, x r (-69636) 3], .arr [x r 161 3, x r (-71733) 3]])]]), ("t", n 38)], .obj [("i",
  .obj [("x", x r 3 1), ("y", n 1)]), ("o", .obj [("x", x r 167 3), ("y", x r 167 3)]), ("s", .arr [.obj
  [("c", .bool true), ("i", .arr [.arr [n 0, n 0], .arr [x r (-1774) 3, x r (-46935) 3], .arr [x r (-9274) 3,
  n 0], .arr [x r (-4758) 3, x r 45887 3], .arr [n 0, n 0], .arr [x r 12742 3, x r 484 3]]), ("o", .arr [.arr
  [n 0, n 0], .arr [x r 121 2, x r 30725 3], .arr [x r 11935 3, n 0], .arr [x r 4758 3, x r (-45886) 3], .arr
  [n 0, n 0], .arr [x r (-15806) 3, x r (-483) 3]]), ("v", .arr [.arr [x r (-29548) 3, x r (-87152) 3], .arr
  [x r (-18065) 3, x r (-1814) 3], .arr [x r (-371) 2, x r 82216 3], .arr [x r 2379 2, x r (-4234) 3], .arr [x
  r 26919 3, x r (-87136) 3], .arr [x r (-339) 3, x r (-90733) 3]])]]), ("t", n 48)], .obj [("i", .obj [("x",
  x r 833 3), ("y", x r 833 3)]), ("o", .obj [("x", x r 7 1), ("y", n 0)]), ("s", .arr [.obj [("c", .bool
  true), ("i", .arr [.arr [n 0, n 0], .arr [x r 2992 3, x r (-46873) 3], .arr [x r (-8941) 3, x r (-2463) 3],
  .arr [x r (-9384) 3, x r 45169 3], .arr [n 0, n 0], .arr [x r 12627 3, x r 1773 3]]), ("o", .arr [.arr [n 0,
  n 0], .arr [x r (-191) 2, x r 30689 3], .arr [x r 11506 3, x r 317 2], .arr [x r 9384 3, x r (-45168) 3],
  .arr [n 0, n 0], .arr [x r (-15676) 3, x r (-2082) 3]]), ("v", .arr [.arr [x r 4089 3, x r (-67654) 3], .arr
  [x r 3677 3, x r 15085 3], .arr [x r 4347 3, x r 99093 3], .arr [x r 45562 3, x r 16919 3], .arr [x r 59313
  3, x r (-57727) 3], .arr [x r 32658 3, x r (-72075) 3]])]]), ("t", n 58)], .obj [("i", .obj [("x", x r 833
  3), ("y", x r 833 3)]), ("o", .obj [("x", x r 167 3), ("y", x r 167 3)]), ("s", .arr [.obj [("c", .bool
  true), ("i", .arr [.arr [n 0, n 0], .arr [x r (-1774) 3, x r (-46935) 3], .arr [x r (-9274) 3, n 0], .arr [x
  r (-4758) 3, x r 45887 3], .arr [n 0, n 0], .arr [x r 12742 3, x r 484 3]]), ("o", .arr [.arr [n 0, n 0],
  .arr [x r 121 2, x r 30725 3], .arr [x r 11935 3, n 0], .arr [x r 4758 3, x r (-45886) 3], .arr [n 0, n 0],
  .arr [x r (-15806) 3, x r (-483) 3]]), ("v", .arr [.arr [x r (-28548) 3, x r (-81652) 3], .arr [x r (-18065)
  3, x r (-1814) 3], .arr [x r (-371) 2, x r 82216 3], .arr [x r 2379 2, x r (-4234) 3], .arr [x r 27419 3, x
  r (-79636) 3], .arr [x r 911 3, x r (-92233) 3]])]]), ("t", n 70)], .obj [("i", .obj [("x", x r 833 3),
  ("y", x r 833 3)]), ("o", .obj [("x", x r 167 3), ("y", x r 167 3)]), ("s", .arr [.obj [("c", .bool true),
  ("i", .arr [.arr [n 0, n 0], .arr [x r (-10375) 3, x r (-45808) 3], .arr [x r (-9163) 3, x r 143 2], .arr [x
  r 3762 3, x r 45979 3], .arr [n 0, n 0], .arr [x r 12049 3, x r (-4173) 3]]), ("o", .arr [.arr [n 0, n 0],
  .arr [x r 684 2, x r 29978 3], .arr [x r 11691 3, x r (-1824) 3], .arr [x r (-3762) 3, x r (-45978) 3], .arr
  [n 0, n 0], .arr [x r (-14904) 3, x r 5286 3]]), ("v", .arr [.arr [x r (-4055) 2, x r (-32757) 3], .arr [x r
  (-23054) 3, x r 43039 3], .arr [x r 6849 3, x r 124065 3], .arr [x r 17642 3, x r 32963 3], .arr [x r 12334
  3, x r (-51189) 3], .arr [x r (-16577) 3, x r (-51626) 3]])]]), ("t", n 76)], .obj [("i", .obj [("x", x r
  833 3), ("y", x r 833 3)]), ("o", .obj [("x", x r 167 3), ("y", x r 167 3)]), ("s", .arr [.obj [("c", .bool
  true), ("i", .arr [.arr [n 0, n 0], .arr [x r (-9641) 3, x r (-40553) 3], .arr [x r (-9163) 3, x r 143 2],
  .arr [x r 3762 3, x r 45979 3], .arr [n 0, n 0], .arr [x r 11458 3, x r (-8341) 3]]), ("o", .arr [.arr [n 0,
  n 0], .arr [x r 684 2, x r 29978 3], .arr [x r 11691 3, x r (-1824) 3], .arr [x r (-3762) 3, x r (-45978)
  3], .arr [n 0, n 0], .arr [x r (-12734) 3, x r 8723 3]]), ("v", .arr [.arr [x r (-5655) 2, x r (-16757) 3],
  .arr [x r (-30054) 3, x r 54539 3], .arr [x r 2099 3, x r 130065 3], .arr [x r 10392 3, x r 38713 3], .arr
  [x r (-2416) 3, x r (-47939) 3], .arr [x r (-32202) 3, x r (-45188) 3]])]]), ("t", n 77)], .obj [("i", .obj
  [("x", x r 833 3), ("y", x r 833 3)]), ("o", .obj [("x", x r 167 3), ("y", x r 167 3)]), ("s", .arr [.obj
  [("c", .bool true), ("i", .arr [.arr [n 0, n 0], .arr [x r (-8906) 3, x r (-35299) 3], .arr [x r (-9163) 3,
  x r 143 2], .arr [x r 3762 3, x r 45979 3], .arr [n 0, n 0], .arr [x r 10867 3, x r (-12508) 3]]), ("o",
  .arr [.arr [n 0, n 0], .arr [x r 684 2, x r 29978 3], .arr [x r 11691 3, x r (-1824) 3], .arr [x r (-3762)
  3, x r (-45978) 3], .arr [n 0, n 0], .arr [x r (-10563) 3, x r 12159 3]]), ("v", .arr [.arr [x r (-6255) 2,
  x r 14743 3], .arr [x r (-37054) 3, x r 66039 3], .arr [x r (-2651) 3, x r 136065 3], .arr [x r 3142 3, x r
  44463 3], .arr [x r (-14666) 3, x r (-36689) 3], .arr [x r (-35827) 3, x r (-16751) 3]])]]), ("t", n 78)],
  .obj [("s", .arr [.obj [("c", .bool true), ("i", .arr [.arr [n 0, n 0], .arr [x r (-10375) 3, x r (-45808)
  3], .arr [x r (-9163) 3, x r 143 2], .arr [x r 3762 3, x r 45979 3], .arr [n 0, n 0], .arr [x r 12049 3, x r
  (-4173) 3]]), ("o", .arr [.arr [n 0, n 0], .arr [x r 684 2, x r 29978 3], .arr [x r 11691 3, x r (-1824) 3],
  .arr [x r (-3762) 3, x r (-45978) 3], .arr [n 0, n 0], .arr [x r (-14904) 3, x r 5286 3]]), ("v", .arr [.arr
  [x r (-4055) 2, x r (-32757) 3], .arr [x r (-23054) 3, x r 43039 3], .arr [x r 6849 3, x r 124065 3], .arr
  [x r 17642 3, x r 32963 3], .arr [x r 12334 3, x r (-51189) 3], .arr [x r (-13827) 3, x r (-43251) 3]])]]),
  ("t", n 246)]]

/-- A value in `examples/assets/google_fonts/Tiger.json`. -/
def tiger107 : Json F :=
  .arr [.obj [("i", .obj [("x", x r 667 3), ("y", n 1)]), ("o", .obj [("x", x r 167 3), ("y", x r 167 3)]),
  ("s", .arr [.obj [("c", .bool true), ("i", .arr [.arr [n 0, n 0], .arr [x r (-879) 2, x r (-23871) 3], .arr
  [x r (-3146) 3, x r (-19112) 3], .arr [x r (-7904) 3, x r (-113) 2], .arr [x r (-2338) 3, x r 25081 3], .arr
  [x r 4355 3, x r 16774 3], .arr [n 0, n 0], .arr [x r 17742 3, x r (-968) 3]]), ("o", .arr [.arr [n 0, n 0],
  .arr [x r 879 2, x r 23951 3], .arr [x r 1693 3, x r 10242 3], .arr [x r 7983 3, x r 1209 3], .arr [x r 242
  2, x r (-26048) 3], .arr [x r (-4355) 3, x r (-16774) 3], .arr [n 0, n 0], .arr [x r (-15484) 3, x r 806
  3]]), ("v", .arr [.arr [x r (-39475) 3, x r (-74072) 3], .arr [x r (-14314) 3, x r (-25039) 3], .arr [x r
  6251 3, x r 43992 3], .arr [x r 2117 2, x r 77459 3], .arr [x r 37055 3, x r 31089 3], .arr [x r 31975 3, x
  r (-48992) 3], .arr [x r 22379 3, x r (-78426) 3], .arr [x r (-996) 2, x r (-777) 1]])]]), ("t", n 30)],
  .obj [("i", .obj [("x", x r 833 3), ("y", x r 833 3)]), ("o", .obj [("x", x r 333 3), ("y", n 0)]), ("s",
  .arr [.obj [("c", .bool true), ("i", .arr [.arr [n 0, n 0], .arr [x r (-879) 2, x r (-23871) 3], .arr [x r
  (-3146) 3, x r (-19112) 3], .arr [x r (-7904) 3, x r (-113) 2], .arr [x r (-2338) 3, x r 25081 3], .arr [x r
  4355 3, x r 16774 3], .arr [n 0, n 0], .arr [x r 17742 3, x r (-968) 3]]), ("o", .arr [.arr [n 0, n 0], .arr
  [x r 879 2, x r 23951 3], .arr [x r 1693 3, x r 10242 3], .arr [x r 7983 3, x r 1209 3], .arr [x r 242 2, x
  r (-26048) 3], .arr [x r (-4355) 3, x r (-16774) 3], .arr [n 0, n 0], .arr [x r (-15484) 3, x r 806 3]]),
  ("v", .arr [.arr [x r (-39475) 3, x r (-64072) 3], .arr [x r (-14314) 3, x r (-15039) 3], .arr [x r 6251 3,
  x r 53992 3], .arr [x r 2117 2, x r 87459 3], .arr [x r 37055 3, x r 41089 3], .arr [x r 31975 3, x r
  (-38992) 3], .arr [x r 22379 3, x r (-68426) 3], .arr [x r (-996) 2, x r (-677) 1]])]]), ("t", n 38)], .obj
  [("i", .obj [("x", x r 3 1), ("y", n 1)]), ("o", .obj [("x", x r 167 3), ("y", x r 167 3)]), ("s", .arr
  [.obj [("c", .bool true), ("i", .arr [.arr [n 0, n 0], .arr [x r (-879) 2, x r (-23871) 3], .arr [x r
  (-3146) 3, x r (-19112) 3], .arr [x r (-7904) 3, x r (-113) 2], .arr [x r (-2338) 3, x r 25081 3], .arr [x r
  4355 3, x r 16774 3], .arr [n 0, n 0], .arr [x r 17742 3, x r (-968) 3]]), ("o", .arr [.arr [n 0, n 0], .arr
  [x r 879 2, x r 23951 3], .arr [x r 1693 3, x r 10242 3], .arr [x r 7983 3, x r 1209 3], .arr [x r 242 2, x
  r (-26048) 3], .arr [x r (-4355) 3, x r (-16774) 3], .arr [n 0, n 0], .arr [x r (-15484) 3, x r 806 3]]),
  ("v", .arr [.arr [x r (-44225) 3, x r (-81572) 3], .arr [x r (-14314) 3, x r (-25039) 3], .arr [x r 6251 3,
  x r 43992 3], .arr [x r 2117 2, x r 77459 3], .arr [x r 37055 3, x r 31089 3], .arr [x r 31975 3, x r
  (-48992) 3], .arr [x r 19879 3, x r (-85926) 3], .arr [x r (-1271) 2, x r (-8595) 2]])]]), ("t", n 48)],
  .obj [("i", .obj [("x", x r 833 3), ("y", x r 833 3)]), ("o", .obj [("x", x r 7 1), ("y", n 0)]), ("s", .arr
  [.obj [("c", .bool true), ("i", .arr [.arr [n 0, n 0], .arr [x r (-2106) 3, x r (-25351) 3], .arr [x r 2031
  3, x r (-19262) 3], .arr [x r (-732) 2, x r (-3189) 3], .arr [x r (-8909) 3, x r 23562 3], .arr [x r (-257)
  3, x r 17328 3], .arr [n 0, n 0], .arr [x r 17362 3, x r 3779 3]]), ("o", .arr [.arr [n 0, n 0], .arr [x r
  2112 3, x r 25425 3], .arr [x r (-1088) 3, x r 10324 3], .arr [x r 7375 3, x r 3286 3], .arr [x r 9252 3, x
  r (-24469) 3], .arr [x r 257 3, x r (-17328) 3], .arr [n 0, n 0], .arr [x r (-15142) 3, x r (-3336) 3]]),
  ("v", .arr [.arr [x r 23636 3, x r (-82369) 3], .arr [x r 34869 3, x r (-28415) 3], .arr [x r 36358 3, x r
  43599 3], .arr [x r 41852 3, x r 79827 3], .arr [x r 69484 3, x r 39342 3], .arr [x r 85858 3, x r (-39211)
  3], .arr [x r 84674 3, x r (-69388) 3], .arr [x r 55055 3, x r (-81028) 3]])]]), ("t", n 58)], .obj [("i",
  .obj [("x", x r 833 3), ("y", x r 833 3)]), ("o", .obj [("x", x r 167 3), ("y", x r 167 3)]), ("s", .arr
  [.obj [("c", .bool true), ("i", .arr [.arr [n 0, n 0], .arr [x r (-879) 2, x r (-23871) 3], .arr [x r
  (-3146) 3, x r (-19112) 3], .arr [x r (-7904) 3, x r (-113) 2], .arr [x r (-2338) 3, x r 25081 3], .arr [x r
  4355 3, x r 16774 3], .arr [n 0, n 0], .arr [x r 17742 3, x r (-968) 3]]), ("o", .arr [.arr [n 0, n 0], .arr
  [x r 879 2, x r 23951 3], .arr [x r 1693 3, x r 10242 3], .arr [x r 7983 3, x r 1209 3], .arr [x r 242 2, x
  r (-26048) 3], .arr [x r (-4355) 3, x r (-16774) 3], .arr [n 0, n 0], .arr [x r (-15484) 3, x r 806 3]]),
  ("v", .arr [.arr [x r (-39475) 3, x r (-74072) 3], .arr [x r (-14314) 3, x r (-25039) 3], .arr [x r 6251 3,
  x r 43992 3], .arr [x r 2117 2, x r 77459 3], .arr [x r 37055 3, x r 31089 3], .arr [x r 31975 3, x r
  (-48992) 3], .arr [x r 22379 3, x r (-78426) 3], .arr [x r (-971) 2, x r (-8645) 2]])]]), ("t", n 70)], .obj
  [("i", .obj [("x", x r 833 3), ("y", x r 833 3)]), ("o", .obj [("x", x r 167 3), ("y", x r 167 3)]), ("s",
  .arr [.obj [("c", .bool true), ("i", .arr [.arr [n 0, n 0], .arr [x r (-16833) 3, x r (-19072) 3], .arr [x r
  (-5964) 3, x r (-18428) 3], .arr [x r (-7984) 3, x r 57 3], .arr [x r 1424 3, x r 25149 3], .arr [x r 10145
  3, x r 1405 2], .arr [n 0, n 0], .arr [x r 16181 3, x r (-734) 2]]), ("o", .arr [.arr [n 0, n 0], .arr [x r
  16882 3, x r 19128 3], .arr [x r 3197 3, x r 9877 3], .arr [x r 8074 3, x r 9 3], .arr [x r (-1479) 3, x r
  (-26118) 3], .arr [x r (-10145) 3, x r (-1405) 2], .arr [n 0, n 0], .arr [x r (-14136) 3, x r 637 2]]),
  ("v", .arr [.arr [x r (-45725) 3, x r 25303 3], .arr [x r (-695) 3, x r 56703 3], .arr [x r 2723 2, x r
  113407 3], .arr [x r 44755 3, x r 15404 2], .arr [x r 61072 3, x r 101823 3], .arr [x r 33748 3, x r 17586
  3], .arr [x r 11499 3, x r (-9485) 3], .arr [x r (-25247) 3, x r 1052 3]])]]), ("t", n 76)], .obj [("i",
  .obj [("x", x r 833 3), ("y", x r 833 3)]), ("o", .obj [("x", x r 167 3), ("y", x r 167 3)]), ("s", .arr
  [.obj [("c", .bool true), ("i", .arr [.arr [n 0, n 0], .arr [x r (-16833) 3, x r (-19072) 3], .arr [x r
  (-5964) 3, x r (-18428) 3], .arr [x r (-7984) 3, x r 57 3], .arr [x r 1424 3, x r 25149 3], .arr [x r 10145
  3, x r 1405 2], .arr [n 0, n 0], .arr [x r 15542 3, x r (-5472) 3]]), ("o", .arr [.arr [n 0, n 0], .arr [x r
  16882 3, x r 19128 3], .arr [x r 3197 3, x r 9877 3], .arr [x r 8074 3, x r 9 3], .arr [x r (-1479) 3, x r
  (-26118) 3], .arr [x r (-10145) 3, x r (-1405) 2], .arr [n 0, n 0], .arr [x r (-11839) 3, x r 4168 3]]),
  ("v", .arr [.arr [x r (-63563) 3, x r 68928 3], .arr [x r (-28282) 3, x r 102703 3], .arr [x r (-357) 3, x r
  159407 3], .arr [x r 27167 3, x r 20004 2], .arr [x r 33484 3, x r 147823 3], .arr [x r 616 2, x r 63586 3],
  .arr [x r (-2464) 3, x r 5164 2], .arr [x r (-30834) 3, x r 63552 3]])]]), ("t", n 78)], .obj [("s", .arr
  [.obj [("c", .bool true), ("i", .arr [.arr [n 0, n 0], .arr [x r (-16833) 3, x r (-19072) 3], .arr [x r
  (-5964) 3, x r (-18428) 3], .arr [x r (-7984) 3, x r 57 3], .arr [x r 1424 3, x r 25149 3], .arr [x r 10145
  3, x r 1405 2], .arr [n 0, n 0], .arr [x r 16181 3, x r (-734) 2]]), ("o", .arr [.arr [n 0, n 0], .arr [x r
  16882 3, x r 19128 3], .arr [x r 3197 3, x r 9877 3], .arr [x r 8074 3, x r 9 3], .arr [x r (-1479) 3, x r
  (-26118) 3], .arr [x r (-10145) 3, x r (-1405) 2], .arr [n 0, n 0], .arr [x r (-14136) 3, x r 637 2]]),
  ("v", .arr [.arr [x r (-42975) 3, x r 26428 3], .arr [x r (-695) 3, x r 56703 3], .arr [x r 2723 2, x r
  113407 3], .arr [x r 44755 3, x r 15404 2], .arr [x r 61072 3, x r 101823 3], .arr [x r 33748 3, x r 17586
  3], .arr [x r 14124 3, x r (-636) 2], .arr [x r (-15747) 3, x r 11052 3]])]]), ("t", n 246)]]

/-- A value in `examples/assets/google_fonts/Tiger.json`. -/
def tiger108 : Json F :=
  .arr [.obj [("i", .obj [("x", x r 667 3), ("y", n 1)]), ("o", .obj [("x", x r 167 3), ("y", x r 167 3)]),
  ("s", .arr [.obj [("c", .bool true), ("i", .arr [.arr [x r 3548 3, x r (-4354) 3], .arr [x r (-9032) 3, x r
  (-14033) 3], .arr [n 0, n 0], .arr [x r (-7177) 3, x r (-5161) 3], .arr [x r (-5242) 3, x r 14435 3], .arr
  [x r 121 2, x r 11129 3], .arr [x r 27177 3, x r 19436 3]]), ("o", .arr [.arr [x r (-7177) 3, x r 879 2],
  .arr [x r 8548 3, x r 13225 3], .arr [n 0, n 0], .arr [x r 8387 3, x r 5967 3], .arr [x r 5241 3, x r
  (-14435) 3], .arr [x r (-1209) 3, x r (-11129) 3], .arr [x r (-20806) 3, x r (-14758) 3]]), ("v", .arr [.arr
  [x r (-33104) 3, x r (-66209) 3], .arr [x r (-21573) 3, x r (-35483) 3], .arr [x r 5766 3, x r 2822 3], .arr
  [x r 10362 3, x r 64596 3], .arr [x r 34718 3, x r 39032 3], .arr [x r 39072 3, x r (-4839) 3], .arr [x r
  3104 3, x r (-53387) 3]])]]), ("t", n 30)], .obj [("i", .obj [("x", x r 833 3), ("y", x r 833 3)]), ("o",
  .obj [("x", x r 333 3), ("y", n 0)]), ("s", .arr [.obj [("c", .bool true), ("i", .arr [.arr [x r 3548 3, x r
  (-4354) 3], .arr [x r (-9032) 3, x r (-14033) 3], .arr [n 0, n 0], .arr [x r (-7177) 3, x r (-5161) 3], .arr
  [x r (-5242) 3, x r 14435 3], .arr [x r 121 2, x r 11129 3], .arr [x r 27177 3, x r 19436 3]]), ("o", .arr
  [.arr [x r (-7177) 3, x r 879 2], .arr [x r 8548 3, x r 13225 3], .arr [n 0, n 0], .arr [x r 8387 3, x r
  5967 3], .arr [x r 5241 3, x r (-14435) 3], .arr [x r (-1209) 3, x r (-11129) 3], .arr [x r (-20806) 3, x r
  (-14758) 3]]), ("v", .arr [.arr [x r (-33104) 3, x r (-56209) 3], .arr [x r (-21573) 3, x r (-25483) 3],
  .arr [x r 5766 3, x r 12822 3], .arr [x r 10362 3, x r 74596 3], .arr [x r 34718 3, x r 49032 3], .arr [x r
  39072 3, x r 5161 3], .arr [x r 3104 3, x r (-43387) 3]])]]), ("t", n 38)], .obj [("i", .obj [("x", x r 3
  1), ("y", n 1)]), ("o", .obj [("x", x r 167 3), ("y", x r 167 3)]), ("s", .arr [.obj [("c", .bool true),
  ("i", .arr [.arr [x r 3548 3, x r (-4354) 3], .arr [x r (-9032) 3, x r (-14033) 3], .arr [n 0, n 0], .arr [x
  r (-7177) 3, x r (-5161) 3], .arr [x r (-5242) 3, x r 14435 3], .arr [x r 121 2, x r 11129 3], .arr [x r
  27177 3, x r 19436 3]]), ("o", .arr [.arr [x r (-7177) 3, x r 879 2], .arr [x r 8548 3, x r 13225 3], .arr
  [n 0, n 0], .arr [x r 8387 3, x r 5967 3], .arr [x r 5241 3, x r (-14435) 3], .arr [x r (-1209) 3, x r
  (-11129) 3], .arr [x r (-20806) 3, x r (-14758) 3]]), ("v", .arr [.arr [x r (-33104) 3, x r (-66209) 3],
  .arr [x r (-21573) 3, x r (-35483) 3], .arr [x r 5766 3, x r 2822 3], .arr [x r 10362 3, x r 64596 3], .arr
  [x r 34718 3, x r 39032 3], .arr [x r 39072 3, x r (-4839) 3], .arr [x r 3104 3, x r (-53387) 3]])]]), ("t",
  n 48)], .obj [("i", .obj [("x", x r 833 3), ("y", x r 833 3)]), ("o", .obj [("x", x r 7 1), ("y", n 0)]),
  ("s", .arr [.obj [("c", .bool true), ("i", .arr [.arr [x r 458 2, x r (-3251) 3], .arr [x r (-5011) 3, x r
  (-15918) 3], .arr [n 0, n 0], .arr [x r (-5548) 3, x r (-6882) 3], .arr [x r (-8887) 3, x r 12524 3], .arr
  [x r (-1791) 3, x r 1105 2], .arr [x r 21038 3, x r 25957 3]]), ("o", .arr [.arr [x r (-9254) 3, x r 6568
  3], .arr [x r 4728 3, x r 15021 3], .arr [n 0, n 0], .arr [x r 6501 3, x r 798 2], .arr [x r 8887 3, x r
  (-12524) 3], .arr [x r 1791 3, x r (-1105) 2], .arr [x r (-16138) 3, x r (-19754) 3]]), ("v", .arr [.arr [x
  r 5424 3, x r (-88061) 3], .arr [x r 8381 3, x r (-55376) 3], .arr [x r 24563 3, x r (-11185) 3], .arr [x r
  12585 3, x r 49591 3], .arr [x r 42855 3, x r 31414 3], .arr [x r 58706 3, x r (-9724) 3], .arr [x r 36927
  3, x r (-66082) 3]])]]), ("t", n 58)], .obj [("i", .obj [("x", x r 833 3), ("y", x r 833 3)]), ("o", .obj
  [("x", x r 167 3), ("y", x r 167 3)]), ("s", .arr [.obj [("c", .bool true), ("i", .arr [.arr [x r 3548 3, x
  r (-4354) 3], .arr [x r (-9032) 3, x r (-14033) 3], .arr [n 0, n 0], .arr [x r (-7177) 3, x r (-5161) 3],
  .arr [x r (-5242) 3, x r 14435 3], .arr [x r 121 2, x r 11129 3], .arr [x r 27177 3, x r 19436 3]]), ("o",
  .arr [.arr [x r (-7177) 3, x r 879 2], .arr [x r 8548 3, x r 13225 3], .arr [n 0, n 0], .arr [x r 8387 3, x
  r 5967 3], .arr [x r 5241 3, x r (-14435) 3], .arr [x r (-1209) 3, x r (-11129) 3], .arr [x r (-20806) 3, x
  r (-14758) 3]]), ("v", .arr [.arr [x r (-33104) 3, x r (-66209) 3], .arr [x r (-21573) 3, x r (-35483) 3],
  .arr [x r 5766 3, x r 2822 3], .arr [x r 10362 3, x r 64596 3], .arr [x r 34718 3, x r 39032 3], .arr [x r
  39072 3, x r (-4839) 3], .arr [x r 3104 3, x r (-53387) 3]])]]), ("t", n 70)], .obj [("i", .obj [("x", x r
  833 3), ("y", x r 833 3)]), ("o", .obj [("x", x r 167 3), ("y", x r 167 3)]), ("s", .arr [.obj [("c", .bool
  true), ("i", .arr [.arr [x r 2888 3, x r (-3238) 3], .arr [x r (-7365) 3, x r (-10432) 3], .arr [n 0, n 0],
  .arr [x r (-7177) 3, x r (-5161) 3], .arr [x r (-5242) 3, x r 14435 3], .arr [x r 121 2, x r 11129 3], .arr
  [x r 15719 3, x r 8214 3]]), ("o", .arr [.arr [x r (-5836) 3, x r 6544 3], .arr [x r 6951 3, x r 9845 3],
  .arr [n 0, n 0], .arr [x r 8387 3, x r 5967 3], .arr [x r 5241 3, x r (-14435) 3], .arr [x r (-1209) 3, x r
  (-11129) 3], .arr [x r (-16919) 3, x r (-10986) 3]]), ("v", .arr [.arr [x r (-17763) 3, x r 35523 3], .arr
  [x r (-8385) 3, x r 58397 3], .arr [x r 5766 3, x r 82822 3], .arr [x r 10362 3, x r 144596 3], .arr [x r
  34718 3, x r 119032 3], .arr [x r 39072 3, x r 75161 3], .arr [x r 10682 3, x r 40569 3]])]]), ("t", n 76)],
  .obj [("i", .obj [("x", x r 833 3), ("y", x r 833 3)]), ("o", .obj [("x", x r 167 3), ("y", x r 167 3)]),
  ("s", .arr [.obj [("c", .bool true), ("i", .arr [.arr [x r 2892 3, x r (-3245) 3], .arr [x r (-7375) 3, x r
  (-10453) 3], .arr [n 0, n 0], .arr [x r (-7177) 3, x r (-5161) 3], .arr [x r (-3523) 3, x r 14948 3], .arr
  [x r 121 2, x r 11129 3], .arr [x r 15787 3, x r 828 2]]), ("o", .arr [.arr [x r (-5844) 3, x r 6557 3],
  .arr [x r 6961 3, x r 9865 3], .arr [n 0, n 0], .arr [x r 8387 3, x r 5967 3], .arr [x r 4183 3, x r (-1775)
  2], .arr [x r (-1209) 3, x r (-11129) 3], .arr [x r (-16942) 3, x r (-11009) 3]]), ("v", .arr [.arr [x r
  (-34853) 3, x r 47396 3], .arr [x r (-25463) 3, x r 70315 3], .arr [x r (-15234) 3, x r 87822 3], .arr [x r
  (-24638) 3, x r 123596 3], .arr [x r 2718 3, x r 93032 3], .arr [x r 11072 3, x r 74161 3], .arr [x r
  (-6363) 3, x r 52486 3]])]]), ("t", n 78)], .obj [("s", .arr [.obj [("c", .bool true), ("i", .arr [.arr [x r
  3548 3, x r (-4354) 3], .arr [x r (-9032) 3, x r (-14033) 3], .arr [n 0, n 0], .arr [x r (-7177) 3, x r
  (-5161) 3], .arr [x r (-5242) 3, x r 14435 3], .arr [x r 121 2, x r 11129 3], .arr [x r 27177 3, x r 19436
  3]]), ("o", .arr [.arr [x r (-7177) 3, x r 879 2], .arr [x r 8548 3, x r 13225 3], .arr [n 0, n 0], .arr [x
  r 8387 3, x r 5967 3], .arr [x r 5241 3, x r (-14435) 3], .arr [x r (-1209) 3, x r (-11129) 3], .arr [x r
  (-20806) 3, x r (-14758) 3]]), ("v", .arr [.arr [x r (-33104) 3, x r 13791 3], .arr [x r (-21573) 3, x r
  44517 3], .arr [x r 5766 3, x r 82822 3], .arr [x r 10362 3, x r 144596 3], .arr [x r 34718 3, x r 119032
  3], .arr [x r 39072 3, x r 75161 3], .arr [x r 3104 3, x r 26613 3]])]]), ("t", n 246)]]

/-- A value in `examples/assets/google_fonts/Tiger.json`. -/
def tiger109 : Json F :=
  .arr [.obj [("i", .obj [("x", x r 667 3), ("y", n 1)]), ("o", .obj [("x", x r 167 3), ("y", x r 167 3)]),
  ("s", .arr [.obj [("c", .bool true), ("i", .arr [.arr [n 0, x r (-5726) 3], .arr [n 0, n 0], .arr [x r
  (-7904) 3, x r 5644 3], .arr [x r 7581 3, x r 11936 3], .arr [x r 13225 3, x r 5565 3], .arr [x r 12339 3, x
  r (-2983) 3]]), ("o", .arr [.arr [n 0, x r 17581 3], .arr [n 0, n 0], .arr [x r 9596 3, x r (-6775) 3], .arr
  [x r (-11935) 3, x r (-1879) 2], .arr [x r (-11936) 3, x r (-508) 2], .arr [x r (-15483) 3, x r 3791 3]]),
  ("v", .arr [.arr [x r (-55846) 3, x r (-10847) 3], .arr [x r 1895 3, x r 4717 3], .arr [x r 4625 2, x r
  31411 3], .arr [x r 44636 3, x r 3104 3], .arr [x r 12299 3, x r (-31976) 3], .arr [x r (-35524) 3, x r
  (-27217) 3]])]]), ("t", n 30)], .obj [("i", .obj [("x", x r 833 3), ("y", x r 833 3)]), ("o", .obj [("x", x
  r 333 3), ("y", n 0)]), ("s", .arr [.obj [("c", .bool true), ("i", .arr [.arr [n 0, x r (-5726) 3], .arr [n
  0, n 0], .arr [x r (-7904) 3, x r 5644 3], .arr [x r 7581 3, x r 11936 3], .arr [x r 13225 3, x r 5565 3],
  .arr [x r 12339 3, x r (-2983) 3]]), ("o", .arr [.arr [n 0, x r 17581 3], .arr [n 0, n 0], .arr [x r 9596 3,
  x r (-6775) 3], .arr [x r (-11935) 3, x r (-1879) 2], .arr [x r (-11936) 3, x r (-508) 2], .arr [x r
  (-15483) 3, x r 3791 3]]), ("v", .arr [.arr [x r (-55846) 3, x r (-847) 3], .arr [x r 1895 3, x r 14717 3],
  .arr [x r 4625 2, x r 41411 3], .arr [x r 44636 3, x r 13104 3], .arr [x r 12299 3, x r (-21976) 3], .arr [x
  r (-35524) 3, x r (-17217) 3]])]]), ("t", n 38)], .obj [("i", .obj [("x", x r 3 1), ("y", n 1)]), ("o", .obj
  [("x", x r 167 3), ("y", x r 167 3)]), ("s", .arr [.obj [("c", .bool true), ("i", .arr [.arr [n 0, x r
  (-5726) 3], .arr [n 0, n 0], .arr [x r (-7904) 3, x r 5644 3], .arr [x r 7581 3, x r 11936 3], .arr [x r
  13225 3, x r 5565 3], .arr [x r 12339 3, x r (-2983) 3]]), ("o", .arr [.arr [n 0, x r 17581 3], .arr [n 0, n
  0], .arr [x r 9596 3, x r (-6775) 3], .arr [x r (-11935) 3, x r (-1879) 2], .arr [x r (-11936) 3, x r (-508)
  2], .arr [x r (-15483) 3, x r 3791 3]]), ("v", .arr [.arr [x r (-55846) 3, x r (-10847) 3], .arr [x r 1895
  3, x r 4717 3], .arr [x r 4625 2, x r 31411 3], .arr [x r 44636 3, x r 3104 3], .arr [x r 12299 3, x r
  (-31976) 3], .arr [x r (-35524) 3, x r (-27217) 3]])]]), ("t", n 48)], .obj [("i", .obj [("x", x r 833 3),
  ("y", x r 833 3)]), ("o", .obj [("x", x r 7 1), ("y", n 0)]), ("s", .arr [.obj [("c", .bool true), ("i",
  .arr [.arr [x r 1521 3, x r (-552) 2], .arr [n 0, n 0], .arr [x r (-9119) 3, x r 3342 3], .arr [x r 4139 3,
  x r 13521 3], .arr [x r 11272 3, x r 8878 3], .arr [x r 12688 3, x r 402 3]]), ("o", .arr [.arr [x r (-467)
  2, x r 16949 3], .arr [n 0, n 0], .arr [x r 11051 3, x r (-3983) 3], .arr [x r (-6515) 3, x r (-21285) 3],
  .arr [x r (-10158) 3, x r (-8068) 3], .arr [x r (-15934) 3, x r (-458) 3]]), ("v", .arr [.arr [x r (-46646)
  3, x r (-57606) 3], .arr [x r 4886 3, x r (-27263) 3], .arr [x r 40557 3, x r 10253 3], .arr [x r 4652 2, x
  r (-17465) 3], .arr [x r 24663 3, x r (-59875) 3], .arr [x r (-22706) 3, x r (-67991) 3]])]]), ("t", n 58)],
  .obj [("i", .obj [("x", x r 833 3), ("y", x r 833 3)]), ("o", .obj [("x", x r 167 3), ("y", x r 167 3)]),
  ("s", .arr [.obj [("c", .bool true), ("i", .arr [.arr [n 0, x r (-5726) 3], .arr [n 0, n 0], .arr [x r
  (-7904) 3, x r 5644 3], .arr [x r 7581 3, x r 11936 3], .arr [x r 13225 3, x r 5565 3], .arr [x r 12339 3, x
  r (-2983) 3]]), ("o", .arr [.arr [n 0, x r 17581 3], .arr [n 0, n 0], .arr [x r 9596 3, x r (-6775) 3], .arr
  [x r (-11935) 3, x r (-1879) 2], .arr [x r (-11936) 3, x r (-508) 2], .arr [x r (-15483) 3, x r 3791 3]]),
  ("v", .arr [.arr [x r (-55846) 3, x r (-10847) 3], .arr [x r 1895 3, x r 4717 3], .arr [x r 4625 2, x r
  31411 3], .arr [x r 44636 3, x r 3104 3], .arr [x r 12299 3, x r (-31976) 3], .arr [x r (-35524) 3, x r
  (-27217) 3]])]]), ("t", n 70)], .obj [("i", .obj [("x", x r 833 3), ("y", x r 833 3)]), ("o", .obj [("x", x
  r 167 3), ("y", x r 167 3)]), ("s", .arr [.obj [("c", .bool true), ("i", .arr [.arr [n 0, x r (-5726) 3],
  .arr [n 0, n 0], .arr [x r (-8824) 3, x r 4058 3], .arr [x r 7581 3, x r 11936 3], .arr [x r 13225 3, x r
  5565 3], .arr [x r 12339 3, x r (-2983) 3]]), ("o", .arr [.arr [n 0, x r 17581 3], .arr [n 0, n 0], .arr [x
  r 10698 3, x r (-4851) 3], .arr [x r (-11935) 3, x r (-1879) 2], .arr [x r (-11936) 3, x r (-508) 2], .arr
  [x r (-15483) 3, x r 3791 3]]), ("v", .arr [.arr [x r (-55846) 3, x r 69153 3], .arr [x r (-17105) 3, x r
  73217 3], .arr [x r 29641 3, x r 97839 3], .arr [x r 27636 3, x r 61104 3], .arr [x r (-1701) 3, x r 36524
  3], .arr [x r (-35524) 3, x r 52783 3]])]]), ("t", n 76)], .obj [("i", .obj [("x", x r 833 3), ("y", x r 833
  3)]), ("o", .obj [("x", x r 167 3), ("y", x r 167 3)]), ("s", .arr [.obj [("c", .bool true), ("i", .arr
  [.arr [n 0, x r (-5726) 3], .arr [n 0, n 0], .arr [x r (-8824) 3, x r 4058 3], .arr [x r 7581 3, x r 11936
  3], .arr [x r 13225 3, x r 5565 3], .arr [x r 12339 3, x r (-2983) 3]]), ("o", .arr [.arr [n 0, x r 17581
  3], .arr [n 0, n 0], .arr [x r 10698 3, x r (-4851) 3], .arr [x r (-11935) 3, x r (-1879) 2], .arr [x r
  (-11936) 3, x r (-508) 2], .arr [x r (-15483) 3, x r 3791 3]]), ("v", .arr [.arr [x r (-55846) 3, x r 69153
  3], .arr [x r (-16993) 3, x r 73285 3], .arr [x r (-2188) 3, x r 95078 3], .arr [x r 13736 3, x r 50234 3],
  .arr [x r (-1619) 3, x r 36592 3], .arr [x r (-35524) 3, x r 52783 3]])]]), ("t", n 78)], .obj [("s", .arr
  [.obj [("c", .bool true), ("i", .arr [.arr [n 0, x r (-5726) 3], .arr [n 0, n 0], .arr [x r (-8824) 3, x r
  4058 3], .arr [x r 7581 3, x r 11936 3], .arr [x r 13225 3, x r 5565 3], .arr [x r 12339 3, x r (-2983)
  3]]), ("o", .arr [.arr [n 0, x r 17581 3], .arr [n 0, n 0], .arr [x r 10698 3, x r (-4851) 3], .arr [x r
  (-11935) 3, x r (-1879) 2], .arr [x r (-11936) 3, x r (-508) 2], .arr [x r (-15483) 3, x r 3791 3]]), ("v",
  .arr [.arr [x r (-55846) 3, x r 69153 3], .arr [x r 1895 3, x r 84717 3], .arr [x r 58641 3, x r 138339 3],
  .arr [x r 44636 3, x r 83104 3], .arr [x r 12299 3, x r 48024 3], .arr [x r (-35524) 3, x r 52783 3]])]]),
  ("t", n 246)]]

/-- A value in `examples/assets/google_fonts/Tiger.json`. -/
def tiger110 : Json F :=
  .arr [.obj [("i", .obj [("x", x r 667 3), ("y", n 1)]), ("o", .obj [("x", x r 167 3), ("y", x r 167 3)]),
  ("s", .arr [.obj [("c", .bool true), ("i", .arr [.arr [x r (-14919) 3, x r 12258 3], .arr [x r 10564 3, x r
  (-8548) 3], .arr [x r 2097 3, x r (-20242) 3], .arr [x r (-7742) 3, x r (-15484) 3], .arr [x r 1291 3, x r
  (-1048) 3], .arr [x r 3951 3, x r 4032 3], .arr [n 0, n 0], .arr [x r 5564 3, n 0], .arr [x r 10403 3, x r
  21532 3], .arr [x r 13561 3, x r 19026 3]]), ("o", .arr [.arr [x r 42062 3, x r (-34282) 3], .arr [x r
  (-18225) 3, x r 14758 3], .arr [x r (-637) 2, x r 60644 3], .arr [x r 5484 3, x r 11129 3], .arr [x r
  (-6774) 3, x r 5727 3], .arr [x r (-3952) 3, x r (-3952) 3], .arr [n 0, n 0], .arr [x r (-758) 2, n 0], .arr
  [x r (-10403) 3, x r (-21532) 3], .arr [x r (-13561) 3, x r (-19024) 3]]), ("v", .arr [.arr [x r (-10268) 3,
  x r (-8243) 2], .arr [x r 66256 3, x r (-62803) 3], .arr [x r 38756 3, x r (-74) 1], .arr [x r 60127 3, x r
  68243 3], .arr [x r 65529 3, x r 110984 3], .arr [x r 3166 2, x r 87841 3], .arr [x r 14886 3, x r 70259 3],
  .arr [x r 8515 3, x r 84615 3], .arr [x r (-29792) 3, x r 42357 3], .arr [x r (-63259) 3, x r (-15063)
  3]])]]), ("t", n 30)], .obj [("i", .obj [("x", x r 833 3), ("y", x r 833 3)]), ("o", .obj [("x", x r 333 3),
  ("y", n 0)]), ("s", .arr [.obj [("c", .bool true), ("i", .arr [.arr [x r (-14919) 3, x r 12258 3], .arr [x r
  10564 3, x r (-8548) 3], .arr [x r 2097 3, x r (-20242) 3], .arr [x r (-7742) 3, x r (-15484) 3], .arr [x r
  1291 3, x r (-1048) 3], .arr [x r 3951 3, x r 4032 3], .arr [n 0, n 0], .arr [x r 5564 3, n 0], .arr [x r
  10403 3, x r 21532 3], .arr [x r 13561 3, x r 19026 3]]), ("o", .arr [.arr [x r 42062 3, x r (-34282) 3],
  .arr [x r (-18225) 3, x r 14758 3], .arr [x r (-637) 2, x r 60644 3], .arr [x r 5484 3, x r 11129 3], .arr
  [x r (-6774) 3, x r 5727 3], .arr [x r (-3952) 3, x r (-3952) 3], .arr [n 0, n 0], .arr [x r (-758) 2, n 0],
  .arr [x r (-10403) 3, x r (-21532) 3], .arr [x r (-13561) 3, x r (-19024) 3]]), ("v", .arr [.arr [x r
  (-10268) 3, x r (-7243) 2], .arr [x r 66256 3, x r (-52803) 3], .arr [x r 38756 3, x r 26 1], .arr [x r
  60127 3, x r 78243 3], .arr [x r 65529 3, x r 120984 3], .arr [x r 3166 2, x r 97841 3], .arr [x r 14886 3,
  x r 80259 3], .arr [x r 8515 3, x r 94615 3], .arr [x r (-29792) 3, x r 52357 3], .arr [x r (-63259) 3, x r
  (-5063) 3]])]]), ("t", n 38)], .obj [("i", .obj [("x", x r 3 1), ("y", n 1)]), ("o", .obj [("x", x r 167 3),
  ("y", x r 167 3)]), ("s", .arr [.obj [("c", .bool true), ("i", .arr [.arr [x r (-14919) 3, x r 12258 3],
  .arr [x r 10564 3, x r (-8548) 3], .arr [x r 2097 3, x r (-20242) 3], .arr [x r (-7742) 3, x r (-15484) 3],
  .arr [x r 1291 3, x r (-1048) 3], .arr [x r 3951 3, x r 4032 3], .arr [n 0, n 0], .arr [x r 5564 3, n 0],
  .arr [x r 10403 3, x r 21532 3], .arr [x r 13561 3, x r 19026 3]]), ("o", .arr [.arr [x r 42062 3, x r
  (-34282) 3], .arr [x r (-18225) 3, x r 14758 3], .arr [x r (-637) 2, x r 60644 3], .arr [x r 5484 3, x r
  11129 3], .arr [x r (-6774) 3, x r 5727 3], .arr [x r (-3952) 3, x r (-3952) 3], .arr [n 0, n 0], .arr [x r
  (-758) 2, n 0], .arr [x r (-10403) 3, x r (-21532) 3], .arr [x r (-13561) 3, x r (-19024) 3]]), ("v", .arr
  [.arr [x r (-10268) 3, x r (-8243) 2], .arr [x r 66256 3, x r (-62803) 3], .arr [x r 38756 3, x r (-74) 1],
  .arr [x r 60127 3, x r 68243 3], .arr [x r 65529 3, x r 110984 3], .arr [x r 3166 2, x r 87841 3], .arr [x r
  14886 3, x r 70259 3], .arr [x r 8515 3, x r 84615 3], .arr [x r (-29792) 3, x r 42357 3], .arr [x r
  (-63259) 3, x r (-15063) 3]])]]), ("t", n 48)], .obj [("i", .obj [("x", x r 833 3), ("y", x r 833 3)]),
  ("o", .obj [("x", x r 7 1), ("y", n 0)]), ("s", .arr [.obj [("c", .bool true), ("i", .arr [.arr [x r
  (-17639) 3, x r 7855 3], .arr [x r 12453 3, x r (-5439) 3], .arr [x r 7425 3, x r (-18947) 3], .arr [x r
  (-3351) 3, x r (-16984) 3], .arr [x r 1523 3, x r (-667) 3], .arr [x r 2738 3, x r 4937 3], .arr [n 0, n 0],
  .arr [x r 5364 3, x r 1478 3], .arr [x r 431 2, x r 23522 3], .arr [x r 8021 3, x r 21944 3]]), ("o", .arr
  [.arr [x r 49657 3, x r (-21878) 3], .arr [x r (-2149) 2, x r 9387 3], .arr [x r (-2225) 2, x r 56773 3],
  .arr [x r 2331 3, x r 12186 3], .arr [x r (-8052) 3, x r 3722 3], .arr [x r (-276) 2, x r (-486) 2], .arr [n
  0, n 0], .arr [x r (-7308) 3, x r (-2013) 3], .arr [x r (-431) 2, x r (-23522) 3], .arr [x r (-8021) 3, x r
  (-21943) 3]]), ("v", .arr [.arr [x r 25631 3, x r (-147999) 3], .arr [x r 111192 3, x r (-136752) 3], .arr
  [x r 52964 3, x r (-62644) 3], .arr [x r 53474 3, x r 15959 3], .arr [x r 4733 2, x r 586 1], .arr [x r
  20824 3, x r 27291 3], .arr [x r 9323 3, x r 5886 3], .arr [x r (-633) 3, x r 18033 3], .arr [x r (-26338)
  3, x r (-32882) 3], .arr [x r (-43351) 3, x r (-97128) 3]])]]), ("t", n 58)], .obj [("i", .obj [("x", x r
  833 3), ("y", x r 833 3)]), ("o", .obj [("x", x r 167 3), ("y", x r 167 3)]), ("s", .arr [.obj [("c", .bool
  true), ("i", .arr [.arr [x r (-14919) 3, x r 12258 3], .arr [x r 10564 3, x r (-8548) 3], .arr [x r 2097 3,
  x r (-20242) 3], .arr [x r (-6479) 3, x r (-16053) 3], .arr [x r 1371 3, x r (-941) 3], .arr [x r 3951 3, x
  r 4032 3], .arr [n 0, n 0], .arr [x r 5564 3, n 0], .arr [x r 10403 3, x r 21532 3], .arr [x r 13561 3, x r
  19026 3]]), ("o", .arr [.arr [x r 42062 3, x r (-34282) 3], .arr [x r (-18225) 3, x r 14758 3], .arr [x r
  (-637) 2, x r 60644 3], .arr [x r 4577 3, x r 11532 3], .arr [x r (-721) 2, x r 5167 3], .arr [x r (-3952)
  3, x r (-3952) 3], .arr [n 0, n 0], .arr [x r (-758) 2, n 0], .arr [x r (-10403) 3, x r (-21532) 3], .arr [x
  r (-13561) 3, x r (-19024) 3]]), ("v", .arr [.arr [x r (-10268) 3, x r (-8243) 2], .arr [x r 66256 3, x r
  (-62803) 3], .arr [x r 38756 3, x r (-74) 1], .arr [x r 62815 3, x r 61551 3], .arr [x r 64784 3, x r 104587
  3], .arr [x r 31659 3, x r 87841 3], .arr [x r 14886 3, x r 70259 3], .arr [x r 8515 3, x r 84615 3], .arr
  [x r (-29791) 3, x r 42357 3], .arr [x r (-45259) 3, x r (-31063) 3]])]]), ("t", n 70)], .obj [("i", .obj
  [("x", x r 833 3), ("y", x r 833 3)]), ("o", .obj [("x", x r 167 3), ("y", x r 167 3)]), ("s", .arr [.obj
  [("c", .bool true), ("i", .arr [.arr [x r (-14919) 3, x r 12258 3], .arr [x r 10564 3, x r (-8548) 3], .arr
  [x r 205 3, x r (-18379) 3], .arr [x r 4918 3, x r (-1118) 2], .arr [x r 449 2, x r (-4989) 3], .arr [n 0, n
  0], .arr [n 0, n 0], .arr [x r 8351 3, x r (-5201) 3], .arr [x r 9391 3, x r 3136 3], .arr [x r 13809 3, x r
  12541 3]]), ("o", .arr [.arr [x r 42062 3, x r (-34282) 3], .arr [x r (-18225) 3, x r 14758 3], .arr [x r
  (-205) 3, x r 18379 3], .arr [x r (-4918) 3, x r 1118 2], .arr [x r (-833) 2, x r 9255 3], .arr [n 0, n 0],
  .arr [n 0, n 0], .arr [x r (-5032) 3, x r 3134 3], .arr [x r (-16466) 3, x r (-5498) 3], .arr [x r (-17295)
  3, x r (-15707) 3]]), ("v", .arr [.arr [x r (-10268) 3, x r (-243) 2], .arr [x r 66256 3, x r 17197 3], .arr
  [x r 98756 3, x r 881 1], .arr [x r 92968 3, x r 136798 3], .arr [x r 6638 2, x r 158224 3], .arr [x r 45618
  3, x r 172945 3], .arr [x r 39654 3, x r 152277 3], .arr [x r 37199 3, x r 16268 2], .arr [x r (-3484) 3, x
  r 151477 3], .arr [x r (-50759) 3, x r 123938 3]])]]), ("t", n 76)], .obj [("s", .arr [.obj [("c", .bool
  true), ("i", .arr [.arr [x r (-14919) 3, x r 12258 3], .arr [x r 10564 3, x r (-8548) 3], .arr [x r 2097 3,
  x r (-20242) 3], .arr [x r (-4695) 3, x r (-16663) 3], .arr [x r 1653 3, x r 18 2], .arr [x r 977 3, x r 556
  2], .arr [n 0, n 0], .arr [x r 5465 3, x r 1046 3], .arr [x r 6172 3, x r 23103 3], .arr [x r 13561 3, x r
  19026 3]]), ("o", .arr [.arr [x r 42062 3, x r (-34282) 3], .arr [x r (-18225) 3, x r 14758 3], .arr [x r
  (-637) 2, x r 60644 3], .arr [x r 3295 3, x r 11961 3], .arr [x r (-8836) 3, x r (-783) 3], .arr [x r
  (-1024) 3, x r (-5494) 3], .arr [n 0, n 0], .arr [x r (-7445) 3, x r (-1424) 3], .arr [x r (-6172) 3, x r
  (-23103) 3], .arr [x r (-13561) 3, x r (-19024) 3]]), ("v", .arr [.arr [x r (-10268) 3, x r (-243) 2], .arr
  [x r 66256 3, x r 17197 3], .arr [x r 38756 3, x r 726 1], .arr [x r 70968 3, x r 153298 3], .arr [x r 6588
  2, x r 149724 3], .arr [x r 39618 3, x r 107445 3], .arr [x r 26154 3, x r 146777 3], .arr [x r 17199 3, x r
  15968 2], .arr [x r (-12484) 3, x r 110977 3], .arr [x r (-63259) 3, x r 64938 3]])]]), ("t", n 246)]]

/-- A value in `examples/assets/google_fonts/Tiger.json`. -/
def tiger111 : Json F :=
  .arr [.obj [("i", .obj [("x", x r 833 3), ("y", x r 833 3)]), ("o", .obj [("x", x r 167 3), ("y", x r 167
  3)]), ("s", .arr [.obj [("c", .bool true), ("i", .arr [.arr [x r (-323) 3, x r (-14354) 3], .arr [x r
  (-11935) 3, x r 807 3], .arr [x r 645 3, x r 5565 3], .arr [x r 742 2, x r 1693 3]]), ("o", .arr [.arr [x r
  403 3, x r 16371 3], .arr [x r 11936 3, x r (-806) 3], .arr [x r (-121) 2, x r (-10403) 3], .arr [x r
  (-11935) 3, x r (-2822) 3]]), ("v", .arr [.arr [x r (-14717) 3, x r 1008 3], .arr [x r 3104 3, x r 25927 3],
  .arr [x r 3911 3, x r 2379 3], .arr [x r 512 2, x r (-23911) 3]])]]), ("t", n 30)], .obj [("i", .obj [("x",
  x r 833 3), ("y", x r 833 3)]), ("o", .obj [("x", x r 167 3), ("y", x r 167 3)]), ("s", .arr [.obj [("c",
  .bool true), ("i", .arr [.arr [x r (-323) 3, x r (-14354) 3], .arr [x r (-11935) 3, x r 807 3], .arr [x r
  645 3, x r 5565 3], .arr [x r 742 2, x r 1693 3]]), ("o", .arr [.arr [x r 403 3, x r 16371 3], .arr [x r
  11936 3, x r (-806) 3], .arr [x r (-121) 2, x r (-10403) 3], .arr [x r (-11935) 3, x r (-2822) 3]]), ("v",
  .arr [.arr [x r (-14717) 3, x r 1008 3], .arr [x r 3104 3, x r 25927 3], .arr [x r 3911 3, x r 2379 3], .arr
  [x r 512 2, x r (-23911) 3]])]]), ("t", n 38)], .obj [("i", .obj [("x", x r 833 3), ("y", x r 833 3)]),
  ("o", .obj [("x", x r 167 3), ("y", x r 167 3)]), ("s", .arr [.obj [("c", .bool true), ("i", .arr [.arr [x r
  (-323) 3, x r (-14354) 3], .arr [x r (-11935) 3, x r 807 3], .arr [x r 645 3, x r 5565 3], .arr [x r 742 2,
  x r 1693 3]]), ("o", .arr [.arr [x r 403 3, x r 16371 3], .arr [x r 11936 3, x r (-806) 3], .arr [x r (-121)
  2, x r (-10403) 3], .arr [x r (-11935) 3, x r (-2822) 3]]), ("v", .arr [.arr [x r (-14717) 3, x r 1008 3],
  .arr [x r 3104 3, x r 25927 3], .arr [x r 3911 3, x r 2379 3], .arr [x r 512 2, x r (-23911) 3]])]]), ("t",
  n 48)], .obj [("i", .obj [("x", x r 833 3), ("y", x r 833 3)]), ("o", .obj [("x", x r 167 3), ("y", x r 167
  3)]), ("s", .arr [.obj [("c", .bool true), ("i", .arr [.arr [x r (-323) 3, x r (-14354) 3], .arr [x r
  (-11935) 3, x r 807 3], .arr [x r 645 3, x r 5565 3], .arr [x r 742 2, x r 1693 3]]), ("o", .arr [.arr [x r
  403 3, x r 16371 3], .arr [x r 11936 3, x r (-806) 3], .arr [x r (-121) 2, x r (-10403) 3], .arr [x r
  (-11935) 3, x r (-2822) 3]]), ("v", .arr [.arr [x r (-14717) 3, x r 1008 3], .arr [x r 3104 3, x r 25927 3],
  .arr [x r 3911 3, x r 2379 3], .arr [x r 512 2, x r (-23911) 3]])]]), ("t", n 70)], .obj [("s", .arr [.obj
  [("c", .bool true), ("i", .arr [.arr [x r (-323) 3, x r (-14354) 3], .arr [x r (-11935) 3, x r 807 3], .arr
  [x r 645 3, x r 5565 3], .arr [x r 742 2, x r 1693 3]]), ("o", .arr [.arr [x r 403 3, x r 16371 3], .arr [x
  r 11936 3, x r (-806) 3], .arr [x r (-121) 2, x r (-10403) 3], .arr [x r (-11935) 3, x r (-2822) 3]]), ("v",
  .arr [.arr [x r (-14717) 3, x r 1008 3], .arr [x r 3104 3, x r 25927 3], .arr [x r 3911 3, x r 2379 3], .arr
  [x r 512 2, x r (-23911) 3]])]]), ("t", n 246)]]

/-- A value in `examples/assets/google_fonts/Tiger.json`. -/
def tiger112 : Json F :=
  .obj [("c", .bool true), ("i", .arr [.arr [x r (-2742) 3, x r 1533 3], .arr [x r (-4508) 2, x r 5161 3],
  .arr [n 0, n 0], .arr [x r (-1992) 2, x r (-20323) 3], .arr [x r (-1532) 3, x r (-2823) 3], .arr [x r 2581
  3, x r (-6855) 3], .arr [x r (-968) 3, x r (-30806) 3], .arr [x r (-13951) 3, x r (-1613) 3], .arr [x r 879
  2, x r 5242 3], .arr [x r (-323) 3, x r 28951 3], .arr [x r (-121) 2, x r 7177 3], .arr [x r 1209 3, x r
  2822 3], .arr [x r 9677 3, x r 12016 3], .arr [x r 3628 3, x r 3227 3], .arr [x r 32015 3, x r (-371) 2],
  .arr [x r 12339 3, x r (-14193) 3]]), ("o", .arr [.arr [x r 2822 3, x r (-1612) 3], .arr [x r 39677 3, x r
  (-4597) 3], .arr [n 0, n 0], .arr [x r 19919 3, x r 20323 3], .arr [x r 1613 3, x r 2822 3], .arr [x r
  (-564) 3, x r 1613 3], .arr [x r 806 3, x r 27096 3], .arr [x r 13952 3, x r 1612 3], .arr [x r (-879) 2, x
  r (-5161) 3], .arr [x r 403 3, x r (-37984) 3], .arr [x r 121 2, x r (-7178) 3], .arr [x r (-121) 2, x r
  (-2823) 3], .arr [x r (-17016) 3, x r (-2121) 2], .arr [x r (-3629) 3, x r (-3225) 3], .arr [x r (-22581) 3,
  x r 258 2], .arr [x r (-3951) 3, x r 4516 3]]), ("v", .arr [.arr [x r (-77701) 3, x r (-84314) 3], .arr [x r
  (-1412) 3, x r (-97458) 3], .arr [x r 73104 3, x r (-104636) 3], .arr [x r 95039 3, x r (-60765) 3], .arr [x
  r 135683 3, x r (-22862) 3], .arr [x r 13528 2, x r 19395 3], .arr [x r 104797 3, x r 74556 3], .arr [x r
  143102 3, x r 11512 2], .arr [x r 154151 3, x r 111007 3], .arr [x r 122458 3, x r 73346 3], .arr [x r
  152457 3, x r 18992 3], .arr [x r 150038 3, x r (-32862) 3], .arr [x r 110119 3, x r (-73507) 3], .arr [x r
  94152 3, x r (-120604) 3], .arr [x r (-3589) 3, x r (-117377) 3], .arr [x r (-97298) 3, x r (-93426) 3]])]

/-- A value in `examples/assets/google_fonts/Tiger.json`. -/
def tiger113 : Json F :=
  .obj [("c", .bool true), ("i", .arr [.arr [x r (-2742) 3, x r 1533 3], .arr [x r (-4508) 2, x r 5161 3],
  .arr [n 0, n 0], .arr [x r (-1992) 2, x r (-20323) 3], .arr [x r (-1532) 3, x r (-2823) 3], .arr [x r 2581
  3, x r (-6855) 3], .arr [x r (-968) 3, x r (-30806) 3], .arr [x r (-13951) 3, x r (-1613) 3], .arr [x r 879
  2, x r 5242 3], .arr [x r (-323) 3, x r 28951 3], .arr [x r (-121) 2, x r 7177 3], .arr [x r 1209 3, x r
  2822 3], .arr [x r 9677 3, x r 12016 3], .arr [x r 3628 3, x r 3227 3], .arr [x r 32015 3, x r (-371) 2],
  .arr [x r 12339 3, x r (-14193) 3]]), ("o", .arr [.arr [x r 2822 3, x r (-1612) 3], .arr [x r 39677 3, x r
  (-4597) 3], .arr [n 0, n 0], .arr [x r 19919 3, x r 20323 3], .arr [x r 1613 3, x r 2822 3], .arr [x r
  (-564) 3, x r 1613 3], .arr [x r 806 3, x r 27096 3], .arr [x r 13952 3, x r 1612 3], .arr [x r (-879) 2, x
  r (-5161) 3], .arr [x r 403 3, x r (-37984) 3], .arr [x r 121 2, x r (-7178) 3], .arr [x r (-121) 2, x r
  (-2823) 3], .arr [x r (-17016) 3, x r (-2121) 2], .arr [x r (-3629) 3, x r (-3225) 3], .arr [x r (-22581) 3,
  x r 258 2], .arr [x r (-3951) 3, x r 4516 3]]), ("v", .arr [.arr [x r (-77701) 3, x r (-84314) 3], .arr [x r
  (-1412) 3, x r (-97458) 3], .arr [x r 73104 3, x r (-104636) 3], .arr [x r 95039 3, x r (-60765) 3], .arr [x
  r 135683 3, x r (-22862) 3], .arr [x r 13528 2, x r 19395 3], .arr [x r 104797 3, x r 74556 3], .arr [x r
  143102 3, x r 11512 2], .arr [x r 154151 3, x r 111007 3], .arr [x r 122458 3, x r 73346 3], .arr [x r
  152457 3, x r 18992 3], .arr [x r 150038 3, x r (-32862) 3], .arr [x r 110119 3, x r (-73507) 3], .arr [x r
  94152 3, x r (-120604) 3], .arr [x r (-3589) 3, x r (-117377) 3], .arr [x r (-97298) 3, x r (-93426) 3]])]

/-- A value in `examples/assets/google_fonts/Tiger.json`. -/
def tiger114 : Json F :=
  .obj [("c", .bool true), ("i", .arr [.arr [x r (-2742) 3, x r 1533 3], .arr [x r (-4508) 2, x r 5161 3],
  .arr [n 0, n 0], .arr [x r (-1992) 2, x r (-20323) 3], .arr [x r (-1532) 3, x r (-2823) 3], .arr [x r 2581
  3, x r (-6855) 3], .arr [x r (-968) 3, x r (-30806) 3], .arr [x r (-13951) 3, x r (-1613) 3], .arr [x r 879
  2, x r 5242 3], .arr [x r (-323) 3, x r 28951 3], .arr [x r (-121) 2, x r 7177 3], .arr [x r 1209 3, x r
  2822 3], .arr [x r 9677 3, x r 12016 3], .arr [x r 3628 3, x r 3227 3], .arr [x r 32015 3, x r (-371) 2],
  .arr [x r 12339 3, x r (-14193) 3]]), ("o", .arr [.arr [x r 2822 3, x r (-1612) 3], .arr [x r 39677 3, x r
  (-4597) 3], .arr [n 0, n 0], .arr [x r 19919 3, x r 20323 3], .arr [x r 1613 3, x r 2822 3], .arr [x r
  (-564) 3, x r 1613 3], .arr [x r 806 3, x r 27096 3], .arr [x r 13952 3, x r 1612 3], .arr [x r (-879) 2, x
  r (-5161) 3], .arr [x r 403 3, x r (-37984) 3], .arr [x r 121 2, x r (-7178) 3], .arr [x r (-121) 2, x r
  (-2823) 3], .arr [x r (-17016) 3, x r (-2121) 2], .arr [x r (-3629) 3, x r (-3225) 3], .arr [x r (-22581) 3,
  x r 258 2], .arr [x r (-3951) 3, x r 4516 3]]), ("v", .arr [.arr [x r (-77701) 3, x r (-74314) 3], .arr [x r
  (-1412) 3, x r (-87458) 3], .arr [x r 73104 3, x r (-94636) 3], .arr [x r 95039 3, x r (-50765) 3], .arr [x
  r 135683 3, x r (-12862) 3], .arr [x r 13528 2, x r 19395 3], .arr [x r 104797 3, x r 74556 3], .arr [x r
  143102 3, x r 11512 2], .arr [x r 154151 3, x r 111007 3], .arr [x r 122458 3, x r 73346 3], .arr [x r
  152457 3, x r 18992 3], .arr [x r 150038 3, x r (-22862) 3], .arr [x r 110119 3, x r (-63507) 3], .arr [x r
  94152 3, x r (-110604) 3], .arr [x r (-3589) 3, x r (-107377) 3], .arr [x r (-97298) 3, x r (-83426) 3]])]

/-- A value in `examples/assets/google_fonts/Tiger.json`. -/
def tiger115 : Json F :=
  .obj [("c", .bool true), ("i", .arr [.arr [x r (-2742) 3, x r 1533 3], .arr [x r (-4508) 2, x r 5161 3],
  .arr [n 0, n 0], .arr [x r (-1992) 2, x r (-20323) 3], .arr [x r (-1532) 3, x r (-2823) 3], .arr [x r 2581
  3, x r (-6855) 3], .arr [x r (-968) 3, x r (-30806) 3], .arr [x r (-13951) 3, x r (-1613) 3], .arr [x r 879
  2, x r 5242 3], .arr [x r (-323) 3, x r 28951 3], .arr [x r (-121) 2, x r 7177 3], .arr [x r 1209 3, x r
  2822 3], .arr [x r 9677 3, x r 12016 3], .arr [x r 3628 3, x r 3227 3], .arr [x r 32015 3, x r (-371) 2],
  .arr [x r 12339 3, x r (-14193) 3]]), ("o", .arr [.arr [x r 2822 3, x r (-1612) 3], .arr [x r 39677 3, x r
  (-4597) 3], .arr [n 0, n 0], .arr [x r 19919 3, x r 20323 3], .arr [x r 1613 3, x r 2822 3], .arr [x r
  (-564) 3, x r 1613 3], .arr [x r 806 3, x r 27096 3], .arr [x r 13952 3, x r 1612 3], .arr [x r (-879) 2, x
  r (-5161) 3], .arr [x r 403 3, x r (-37984) 3], .arr [x r 121 2, x r (-7178) 3], .arr [x r (-121) 2, x r
  (-2823) 3], .arr [x r (-17016) 3, x r (-2121) 2], .arr [x r (-3629) 3, x r (-3225) 3], .arr [x r (-22581) 3,
  x r 258 2], .arr [x r (-3951) 3, x r 4516 3]]), ("v", .arr [.arr [x r (-77701) 3, x r (-84314) 3], .arr [x r
  (-1412) 3, x r (-97458) 3], .arr [x r 73104 3, x r (-104636) 3], .arr [x r 95039 3, x r (-60765) 3], .arr [x
  r 135683 3, x r (-22862) 3], .arr [x r 13528 2, x r 19395 3], .arr [x r 104797 3, x r 74556 3], .arr [x r
  143102 3, x r 11512 2], .arr [x r 154151 3, x r 111007 3], .arr [x r 122458 3, x r 73346 3], .arr [x r
  152457 3, x r 18992 3], .arr [x r 150038 3, x r (-32862) 3], .arr [x r 110119 3, x r (-73507) 3], .arr [x r
  94152 3, x r (-120604) 3], .arr [x r (-3589) 3, x r (-117377) 3], .arr [x r (-97298) 3, x r (-93426) 3]])]

/-- A value in `examples/assets/google_fonts/Tiger.json`. -/
def tiger116 : Json F :=
  .obj [("c", .bool true), ("i", .arr [.arr [x r (-2905) 3, x r 1126 3], .arr [x r (-44951) 3, x r (-136) 2],
  .arr [n 0, n 0], .arr [x r (-1992) 2, x r (-20323) 3], .arr [x r (-1532) 3, x r (-2823) 3], .arr [x r 2581
  3, x r (-6855) 3], .arr [x r (-968) 3, x r (-30806) 3], .arr [x r (-13951) 3, x r (-1613) 3], .arr [x r 879
  2, x r 5242 3], .arr [x r (-323) 3, x r 28951 3], .arr [x r (-121) 2, x r 7177 3], .arr [x r 1209 3, x r
  2822 3], .arr [x r 14636 3, x r 20256 3], .arr [x r 412 2, x r 562 3], .arr [x r 31926 3, x r 945 3], .arr
  [x r 14132 3, x r (-12152) 3]]), ("o", .arr [.arr [x r 2998 3, x r (-1177) 3], .arr [x r 39567 3, x r 1172
  3], .arr [n 0, n 0], .arr [x r 19919 3, x r 20323 3], .arr [x r 1613 3, x r 2822 3], .arr [x r (-564) 3, x r
  1613 3], .arr [x r 806 3, x r 27096 3], .arr [x r 13952 3, x r 1612 3], .arr [x r (-879) 2, x r (-5161) 3],
  .arr [x r 403 3, x r (-37984) 3], .arr [x r 121 2, x r (-7178) 3], .arr [x r (-121) 2, x r (-2823) 3], .arr
  [x r (-1802) 2, x r (-24495) 3], .arr [x r (-1456) 2, x r 3387 3], .arr [x r (-22513) 3, x r (-703) 3], .arr
  [x r (-4521) 3, x r 3863 3]]), ("v", .arr [.arr [x r (-89443) 3, x r (-93117) 3], .arr [x r (-1275) 2, x r
  (-95085) 3], .arr [x r 73104 3, x r (-93453) 3], .arr [x r 90997 3, x r (-42845) 3], .arr [x r 131641 3, x r
  (-4942) 3], .arr [x r 128544 3, x r 26671 3], .arr [x r 104797 3, x r 74556 3], .arr [x r 143102 3, x r
  11512 2], .arr [x r 154151 3, x r 111007 3], .arr [x r 122458 3, x r 73346 3], .arr [x r 145721 3, x r 26268
  3], .arr [x r 148287 3, x r (-15211) 3], .arr [x r 111736 3, x r (-60572) 3], .arr [x r 87011 3, x r
  (-116023) 3], .arr [x r (-12033) 3, x r (-11493) 2], .arr [x r (-107357) 3, x r (-104858) 3]])]

/-- A value in `examples/assets/google_fonts/Tiger.json`. -/
def tiger117 : Json F :=
  .obj [("c", .bool true), ("i", .arr [.arr [x r (-3044) 3, x r 778 3], .arr [x r (-44841) 3, x r (-6938) 3],
  .arr [n 0, n 0], .arr [x r (-1992) 2, x r (-20323) 3], .arr [x r (-1532) 3, x r (-2823) 3], .arr [x r 2581
  3, x r (-6855) 3], .arr [x r (-968) 3, x r (-30806) 3], .arr [x r (-13951) 3, x r (-1613) 3], .arr [x r 879
  2, x r 5242 3], .arr [x r (-323) 3, x r 28951 3], .arr [x r (-121) 2, x r 7177 3], .arr [x r 1209 3, x r
  2822 3], .arr [x r 18879 3, x r 27305 3], .arr [x r 4542 3, x r (-1717) 3], .arr [x r 3185 2, x r 4927 3],
  .arr [x r 15666 3, x r (-10406) 3]]), ("o", .arr [.arr [x r 3149 3, x r (-805) 3], .arr [x r 39473 3, x r
  6107 3], .arr [n 0, n 0], .arr [x r 19919 3, x r 20323 3], .arr [x r 1613 3, x r 2822 3], .arr [x r (-564)
  3, x r 1613 3], .arr [x r 806 3, x r 27096 3], .arr [x r 13952 3, x r 1612 3], .arr [x r (-879) 2, x r
  (-5161) 3], .arr [x r 403 3, x r (-37984) 3], .arr [x r 121 2, x r (-7178) 3], .arr [x r (-121) 2, x r
  (-2823) 3], .arr [x r (-18879) 3, x r (-27305) 3], .arr [x r (-23912) 3, x r 9042 3], .arr [x r (-22455) 3,
  x r (-3511) 3], .arr [x r (-5009) 3, x r 3304 3]]), ("v", .arr [.arr [x r (-99489) 3, x r (-100647) 3], .arr
  [x r (-22449) 3, x r (-93055) 3], .arr [x r 73103 3, x r (-83886) 3], .arr [x r 87539 3, x r (-27515) 3],
  .arr [x r 128183 3, x r 10388 3], .arr [x r 12278 2, x r 32895 3], .arr [x r 104797 3, x r 74556 3], .arr [x
  r 143102 3, x r 11512 2], .arr [x r 154151 3, x r 111007 3], .arr [x r 122458 3, x r 73346 3], .arr [x r
  139957 3, x r 32492 3], .arr [x r 146788 3, x r (-112) 3], .arr [x r 113119 3, x r (-49507) 3], .arr [x r
  80902 3, x r (-112104) 3], .arr [x r (-19257) 3, x r (-112836) 3], .arr [x r (-115962) 3, x r (-114637)
  3]])]

/-- A value in `examples/assets/google_fonts/Tiger.json`. -/
def tiger118 : Json F :=
  .obj [("c", .bool true), ("i", .arr [.arr [x r (-2844) 3, x r 1335 3], .arr [x r (-4508) 2, x r 5161 3],
  .arr [n 0, n 0], .arr [x r (-1992) 2, x r (-20323) 3], .arr [x r (-1532) 3, x r (-2823) 3], .arr [x r 2581
  3, x r (-6855) 3], .arr [x r (-968) 3, x r (-30806) 3], .arr [x r (-13951) 3, x r (-1613) 3], .arr [x r 879
  2, x r 5242 3], .arr [x r (-323) 3, x r 28951 3], .arr [x r (-121) 2, x r 7177 3], .arr [x r 1209 3, x r
  2822 3], .arr [x r 9677 3, x r 12016 3], .arr [x r 3628 3, x r 3227 3], .arr [x r 32015 3, x r (-371) 2],
  .arr [x r 13434 3, x r (-13161) 3]]), ("o", .arr [.arr [x r 2942 3, x r (-1381) 3], .arr [x r 39677 3, x r
  (-4597) 3], .arr [n 0, n 0], .arr [x r 19919 3, x r 20323 3], .arr [x r 1613 3, x r 2822 3], .arr [x r
  (-564) 3, x r 1613 3], .arr [x r 806 3, x r 27096 3], .arr [x r 13952 3, x r 1612 3], .arr [x r (-879) 2, x
  r (-5161) 3], .arr [x r 403 3, x r (-37984) 3], .arr [x r 121 2, x r (-7178) 3], .arr [x r (-121) 2, x r
  (-2823) 3], .arr [x r (-17016) 3, x r (-2121) 2], .arr [x r (-3629) 3, x r (-3225) 3], .arr [x r (-22581) 3,
  x r 258 2], .arr [x r (-4299) 3, x r 4186 3]]), ("v", .arr [.arr [x r (-78498) 3, x r (-79897) 3], .arr [x r
  (-1411) 3, x r (-97458) 3], .arr [x r 73103 3, x r (-104636) 3], .arr [x r 95039 3, x r (-60765) 3], .arr [x
  r 135683 3, x r (-22862) 3], .arr [x r 13528 2, x r 19395 3], .arr [x r 104797 3, x r 74556 3], .arr [x r
  143102 3, x r 11512 2], .arr [x r 154151 3, x r 111007 3], .arr [x r 122458 3, x r 73346 3], .arr [x r
  152457 3, x r 18992 3], .arr [x r 150038 3, x r (-32862) 3], .arr [x r 110119 3, x r (-73507) 3], .arr [x r
  94152 3, x r (-120604) 3], .arr [x r (-3589) 3, x r (-117377) 3], .arr [x r (-97304) 3, x r (-90547) 3]])]

/-- A value in `examples/assets/google_fonts/Tiger.json`. -/
def tiger119 : Json F :=
  .obj [("c", .bool true), ("i", .arr [.arr [x r (-17012) 3, x r 3481 3], .arr [x r (-42714) 3, x r 12029 3],
  .arr [n 0, n 0], .arr [x r (-1992) 2, x r (-20323) 3], .arr [x r (-1532) 3, x r (-2823) 3], .arr [x r 2581
  3, x r (-6855) 3], .arr [x r (-968) 3, x r (-30806) 3], .arr [x r (-13951) 3, x r (-1613) 3], .arr [x r 879
  2, x r 5242 3], .arr [x r (-323) 3, x r 28951 3], .arr [x r (-121) 2, x r 7177 3], .arr [x r 1209 3, x r
  2822 3], .arr [x r 9677 3, x r 12016 3], .arr [x r 3628 3, x r 3227 3], .arr [x r 35172 3, x r (-15447) 3],
  .arr [x r 20244 3, x r (-835) 2]]), ("o", .arr [.arr [x r 20738 3, x r (-11769) 3], .arr [x r 37924 3, x r
  (-10769) 3], .arr [n 0, n 0], .arr [x r 19919 3, x r 20323 3], .arr [x r 1613 3, x r 2822 3], .arr [x r
  (-564) 3, x r 1613 3], .arr [x r 806 3, x r 27096 3], .arr [x r 13952 3, x r 1612 3], .arr [x r (-879) 2, x
  r (-5161) 3], .arr [x r 403 3, x r (-37984) 3], .arr [x r 121 2, x r (-7178) 3], .arr [x r (-121) 2, x r
  (-2823) 3], .arr [x r (-17016) 3, x r (-2121) 2], .arr [x r (-3629) 3, x r (-3225) 3], .arr [x r (-27876) 3,
  x r 9948 3], .arr [x r (-5144) 3, x r 2278 3]]), ("v", .arr [.arr [x r (-91247) 3, x r (-16792) 3], .arr [x
  r (-1412) 3, x r (-57458) 3], .arr [x r 73103 3, x r (-99636) 3], .arr [x r 95039 3, x r (-49515) 3], .arr
  [x r 135683 3, x r (-11612) 3], .arr [x r 13528 2, x r 19395 3], .arr [x r 104797 3, x r 74556 3], .arr [x r
  143102 3, x r 11512 2], .arr [x r 154151 3, x r 111007 3], .arr [x r 122458 3, x r 73346 3], .arr [x r
  152457 3, x r 18992 3], .arr [x r 150038 3, x r (-21612) 3], .arr [x r 110119 3, x r (-62257) 3], .arr [x r
  94152 3, x r (-115604) 3], .arr [x r (-2839) 3, x r (-80127) 3], .arr [x r (-98558) 3, x r (-27285) 3]])]

/-- A value in `examples/assets/google_fonts/Tiger.json`. -/
def tiger120 : Json F :=
  .obj [("c", .bool true), ("i", .arr [.arr [x r (-3125) 3, x r 324 3], .arr [x r (-40348) 3, x r 18896 3],
  .arr [n 0, n 0], .arr [x r (-1992) 2, x r (-20323) 3], .arr [x r (-1532) 3, x r (-2823) 3], .arr [x r 2581
  3, x r (-6855) 3], .arr [x r (-968) 3, x r (-30806) 3], .arr [x r (-13951) 3, x r (-1613) 3], .arr [x r 879
  2, x r 5242 3], .arr [x r (-323) 3, x r 28951 3], .arr [x r (-121) 2, x r 7177 3], .arr [x r 1209 3, x r
  2822 3], .arr [x r 9677 3, x r 12016 3], .arr [x r 3628 3, x r 3227 3], .arr [x r 38329 3, x r (-27185) 3],
  .arr [x r 27053 3, x r (-3538) 3]]), ("o", .arr [.arr [x r 27738 3, x r (-2874) 3], .arr [x r 36172 3, x r
  (-16941) 3], .arr [n 0, n 0], .arr [x r 19919 3, x r 20323 3], .arr [x r 1613 3, x r 2822 3], .arr [x r
  (-564) 3, x r 1613 3], .arr [x r 806 3, x r 27096 3], .arr [x r 13952 3, x r 1612 3], .arr [x r (-879) 2, x
  r (-5161) 3], .arr [x r 403 3, x r (-37984) 3], .arr [x r 121 2, x r (-7178) 3], .arr [x r (-121) 2, x r
  (-2823) 3], .arr [x r (-17016) 3, x r (-2121) 2], .arr [x r (-3629) 3, x r (-3225) 3], .arr [x r (-33171) 3,
  x r 17315 3], .arr [x r (-5989) 3, x r 37 2]]), ("v", .arr [.arr [x r (-83997) 3, x r 61813 3], .arr [x r
  (-1412) 3, x r (-17458) 3], .arr [x r 73103 3, x r (-94636) 3], .arr [x r 95039 3, x r (-38265) 3], .arr [x
  r 135683 3, x r (-362) 3], .arr [x r 13528 2, x r 19395 3], .arr [x r 104797 3, x r 74556 3], .arr [x r
  143102 3, x r 11512 2], .arr [x r 154151 3, x r 111007 3], .arr [x r 122458 3, x r 73346 3], .arr [x r
  152457 3, x r 18992 3], .arr [x r 150038 3, x r (-10362) 3], .arr [x r 110119 3, x r (-51007) 3], .arr [x r
  94152 3, x r (-110604) 3], .arr [x r (-2089) 3, x r (-42877) 3], .arr [x r (-91313) 3, x r 41477 3]])]

/-- A value in `examples/assets/google_fonts/Tiger.json`. -/
def tiger121 : Json F :=
  .obj [("c", .bool true), ("i", .arr [.arr [x r (-3125) 3, x r 324 3], .arr [x r (-40348) 3, x r 18896 3],
  .arr [n 0, n 0], .arr [x r (-1992) 2, x r (-20323) 3], .arr [x r (-1532) 3, x r (-2823) 3], .arr [x r 2581
  3, x r (-6855) 3], .arr [x r (-968) 3, x r (-30806) 3], .arr [x r (-13951) 3, x r (-1613) 3], .arr [x r 879
  2, x r 5242 3], .arr [x r (-323) 3, x r 28951 3], .arr [x r (-121) 2, x r 7177 3], .arr [x r 1209 3, x r
  2822 3], .arr [x r 9677 3, x r 12016 3], .arr [x r 3628 3, x r 3227 3], .arr [x r 38329 3, x r (-27185) 3],
  .arr [x r 27053 3, x r (-3538) 3]]), ("o", .arr [.arr [x r 27738 3, x r (-2874) 3], .arr [x r 36172 3, x r
  (-16941) 3], .arr [n 0, n 0], .arr [x r 19919 3, x r 20323 3], .arr [x r 1613 3, x r 2822 3], .arr [x r
  (-564) 3, x r 1613 3], .arr [x r 806 3, x r 27096 3], .arr [x r 13952 3, x r 1612 3], .arr [x r (-879) 2, x
  r (-5161) 3], .arr [x r 403 3, x r (-37984) 3], .arr [x r 121 2, x r (-7178) 3], .arr [x r (-121) 2, x r
  (-2823) 3], .arr [x r (-17016) 3, x r (-2121) 2], .arr [x r (-3629) 3, x r (-3225) 3], .arr [x r (-33171) 3,
  x r 17315 3], .arr [x r (-5989) 3, x r 37 2]]), ("v", .arr [.arr [x r (-113997) 3, x r 51813 3], .arr [x r
  (-1412) 3, x r (-17458) 3], .arr [x r 73103 3, x r (-94636) 3], .arr [x r 95039 3, x r (-38265) 3], .arr [x
  r 135683 3, x r (-362) 3], .arr [x r 13528 2, x r 19395 3], .arr [x r 104797 3, x r 74556 3], .arr [x r
  143102 3, x r 11512 2], .arr [x r 154151 3, x r 111007 3], .arr [x r 122458 3, x r 73346 3], .arr [x r
  152457 3, x r 18992 3], .arr [x r 150038 3, x r (-10362) 3], .arr [x r 110119 3, x r (-51007) 3], .arr [x r
  94152 3, x r (-110604) 3], .arr [x r (-2089) 3, x r (-42877) 3], .arr [x r (-121313) 3, x r 31477 3]])]

/-- A value in `examples/assets/google_fonts/Tiger.json`. -/
def tiger122 : Json F :=
  .obj [("hd", .bool false), ("ind", n 0), ("ix", n 1), ("ks", .obj [("a", n 1), ("ix", n 2), ("k", .arr [.obj
  [("i", .obj [("x", x r 833 3), ("y", x r 833 3)]), ("o", .obj [("x", x r 167 3), ("y", x r 167 3)]), ("s",
  .arr [tiger112 r]), ("t", n 0)], .obj [("i", .obj [("x", x r 667 3), ("y", n 1)]), ("o", .obj [("x", x r 167
  3), ("y", x r 167 3)]), ("s", .arr [tiger113 r]), ("t", n 30)], .obj [("i", .obj [("x", x r 833 3), ("y", x
  r 833 3)]), ("o", .obj [("x", x r 333 3), ("y", n 0)]), ("s", .arr [tiger114 r]), ("t", n 38)], .obj [("i",
  .obj [("x", x r 833 3), ("y", x r 833 3)]), ("o", .obj [("x", x r 167 3), ("y", x r 167 3)]), ("s", .arr
  [tiger115 r]), ("t", n 48)], .obj [("i", .obj [("x", x r 3 1), ("y", n 1)]), ("o", .obj [("x", x r 167 3),
  ("y", x r 167 3)]), ("s", .arr [tiger116 r]), ("t", n 52)], .obj [("i", .obj [("x", x r 833 3), ("y", x r
  833 3)]), ("o", .obj [("x", x r 7 1), ("y", n 0)]), ("s", .arr [tiger117 r]), ("t", n 58)], .obj [("i", .obj
  [("x", x r 833 3), ("y", x r 833 3)]), ("o", .obj [("x", x r 167 3), ("y", x r 167 3)]), ("s", .arr
  [tiger118 r]), ("t", n 70)], .obj [("i", .obj [("x", x r 833 3), ("y", x r 833 3)]), ("o", .obj [("x", x r
  167 3), ("y", x r 167 3)]), ("s", .arr [tiger119 r]), ("t", n 73)], .obj [("i", .obj [("x", x r 833 3),
  ("y", x r 833 3)]), ("o", .obj [("x", x r 167 3), ("y", x r 167 3)]), ("s", .arr [tiger120 r]), ("t", n
  76)], .obj [("s", .arr [tiger121 r]), ("t", n 246)]])]), ("mn", .str "ADBE Vector Shape - Group"), ("nm",
  .str "Path 1"), ("ty", .str "sh")]

/-- A value in `examples/assets/google_fonts/Tiger.json`. -/
def tiger123 : Json F :=
  .obj [("c", .bool true), ("i", .arr [.arr [x r (-61418) 3, x r (-72745) 3], .arr [x r (-4758) 3, x r (-8791)
  3], .arr [x r (-4758) 3, x r 5645 3], .arr [n 0, n 0], .arr [n 0, n 0], .arr [n 0, n 0], .arr [n 0, n 0],
  .arr [n 0, n 0], .arr [n 0, n 0], .arr [x r (-11936) 3, x r (-24758) 3], .arr [x r (-29676) 3, x r 483 3],
  .arr [n 0, x r 15968 3], .arr [x r (-3226) 3, x r 879 2], .arr [x r (-9516) 3, x r 55805 3], .arr [x r 33468
  3, x r 47822 3], .arr [x r 91209 3, x r 6855 3], .arr [x r 621 2, x r 371 2], .arr [x r 14317 3, x r 15108
  3]]), ("o", .arr [.arr [x r 31228 3, x r 36986 3], .arr [x r 2016 3, x r 3709 3], .arr [x r 4758 3, x r
  (-5645) 3], .arr [n 0, n 0], .arr [n 0, n 0], .arr [n 0, n 0], .arr [n 0, n 0], .arr [n 0, n 0], .arr [n 0,
  n 0], .arr [x r 12016 3, x r 24758 3], .arr [x r 52096 3, x r (-888) 3], .arr [n 0, x r (-15968) 3], .arr [x
  r 3145 3, x r (-879) 2], .arr [x r 9516 3, x r (-55806) 3], .arr [x r (-33547) 3, x r (-47903) 3], .arr [x r
  (-90241) 3, x r (-6774) 3], .arr [x r (-6129) 3, x r (-3709) 3], .arr [x r (-60443) 3, x r (-63781) 3]]),
  ("v", .arr [.arr [x r (-276354) 3, x r (-54741) 3], .arr [x r (-171738) 3, x r 71676 3], .arr [x r (-4432)
  2, x r 87159 3], .arr [x r 35437 3, x r 69578 3], .arr [x r 127129 3, x r 65627 3], .arr [x r 135919 3, x r
  100707 3], .arr [x r 183742 3, x r 146997 3], .arr [x r 186967 3, x r 192481 3], .arr [x r 163258 3, x r
  218367 3], .arr [x r 165355 3, x r 272802 3], .arr [x r 235676 3, x r 292238 3], .arr [x r 281966 3, x r
  207561 3], .arr [x r 285192 3, x r 120626 3], .arr [x r 328256 3, x r 144 3], .arr [x r 303901 3, x r
  (-155902) 3], .arr [x r 119307 3, x r (-227998) 3], .arr [x r (-53594) 3, x r (-225579) 3], .arr [x r
  (-70648) 3, x r (-2416) 1]])]

/-- A value in `examples/assets/google_fonts/Tiger.json`. -/
def tiger124 : Json F :=
  .obj [("c", .bool true), ("i", .arr [.arr [x r (-61418) 3, x r (-72745) 3], .arr [x r (-4758) 3, x r (-8791)
  3], .arr [x r (-4758) 3, x r 5645 3], .arr [n 0, n 0], .arr [n 0, n 0], .arr [n 0, n 0], .arr [n 0, n 0],
  .arr [n 0, n 0], .arr [n 0, n 0], .arr [x r (-11936) 3, x r (-24758) 3], .arr [x r (-29676) 3, x r 483 3],
  .arr [n 0, x r 15968 3], .arr [x r (-3226) 3, x r 879 2], .arr [x r (-9516) 3, x r 55805 3], .arr [x r 33468
  3, x r 47822 3], .arr [x r 91209 3, x r 6855 3], .arr [x r 621 2, x r 371 2], .arr [x r 14317 3, x r 15108
  3]]), ("o", .arr [.arr [x r 31228 3, x r 36986 3], .arr [x r 2016 3, x r 3709 3], .arr [x r 4758 3, x r
  (-5645) 3], .arr [n 0, n 0], .arr [n 0, n 0], .arr [n 0, n 0], .arr [n 0, n 0], .arr [n 0, n 0], .arr [n 0,
  n 0], .arr [x r 12016 3, x r 24758 3], .arr [x r 52096 3, x r (-888) 3], .arr [n 0, x r (-15968) 3], .arr [x
  r 3145 3, x r (-879) 2], .arr [x r 9516 3, x r (-55806) 3], .arr [x r (-33547) 3, x r (-47903) 3], .arr [x r
  (-90241) 3, x r (-6774) 3], .arr [x r (-6129) 3, x r (-3709) 3], .arr [x r (-60443) 3, x r (-63781) 3]]),
  ("v", .arr [.arr [x r (-276354) 3, x r (-54741) 3], .arr [x r (-171738) 3, x r 71676 3], .arr [x r (-4432)
  2, x r 87159 3], .arr [x r 35437 3, x r 69578 3], .arr [x r 127129 3, x r 65627 3], .arr [x r 135919 3, x r
  100707 3], .arr [x r 183742 3, x r 146997 3], .arr [x r 186967 3, x r 192481 3], .arr [x r 163258 3, x r
  218367 3], .arr [x r 165355 3, x r 272802 3], .arr [x r 235676 3, x r 292238 3], .arr [x r 281966 3, x r
  207561 3], .arr [x r 285192 3, x r 120626 3], .arr [x r 328256 3, x r 144 3], .arr [x r 303901 3, x r
  (-155902) 3], .arr [x r 119307 3, x r (-227998) 3], .arr [x r (-53594) 3, x r (-225579) 3], .arr [x r
  (-70648) 3, x r (-2416) 1]])]

/-- A value in `examples/assets/google_fonts/Tiger.json`. -/
def tiger125 : Json F :=
  .obj [("c", .bool true), ("i", .arr [.arr [x r (-61418) 3, x r (-72745) 3], .arr [x r (-4758) 3, x r (-8791)
  3], .arr [x r (-4758) 3, x r 5645 3], .arr [n 0, n 0], .arr [n 0, n 0], .arr [n 0, n 0], .arr [n 0, n 0],
  .arr [n 0, n 0], .arr [n 0, n 0], .arr [x r (-11936) 3, x r (-24758) 3], .arr [x r (-29676) 3, x r 483 3],
  .arr [n 0, x r 15968 3], .arr [x r (-3226) 3, x r 879 2], .arr [x r (-9516) 3, x r 55805 3], .arr [x r 33468
  3, x r 47822 3], .arr [x r 91209 3, x r 6855 3], .arr [x r 621 2, x r 371 2], .arr [x r 21786 3, x r 14495
  3]]), ("o", .arr [.arr [x r 31228 3, x r 36986 3], .arr [x r 2016 3, x r 3709 3], .arr [x r 4758 3, x r
  (-5645) 3], .arr [n 0, n 0], .arr [n 0, n 0], .arr [n 0, n 0], .arr [n 0, n 0], .arr [n 0, n 0], .arr [n 0,
  n 0], .arr [x r 12016 3, x r 24758 3], .arr [x r 52096 3, x r (-888) 3], .arr [n 0, x r (-15968) 3], .arr [x
  r 3145 3, x r (-879) 2], .arr [x r 9516 3, x r (-55806) 3], .arr [x r (-33547) 3, x r (-47903) 3], .arr [x r
  (-90241) 3, x r (-6774) 3], .arr [x r (-6129) 3, x r (-3709) 3], .arr [x r (-73158) 3, x r (-48675) 3]]),
  ("v", .arr [.arr [x r (-276354) 3, x r (-44741) 3], .arr [x r (-171738) 3, x r 81676 3], .arr [x r (-4432)
  2, x r 97159 3], .arr [x r 35437 3, x r 79577 3], .arr [x r 127129 3, x r 75626 3], .arr [x r 135919 3, x r
  110706 3], .arr [x r 183742 3, x r 156996 3], .arr [x r 186967 3, x r 19248 2], .arr [x r 163258 3, x r
  218367 3], .arr [x r 165355 3, x r 272802 3], .arr [x r 235676 3, x r 292238 3], .arr [x r 281966 3, x r
  207561 3], .arr [x r 285192 3, x r 130626 3], .arr [x r 328256 3, x r 10144 3], .arr [x r 303901 3, x r
  (-145902) 3], .arr [x r 119307 3, x r (-217998) 3], .arr [x r (-53594) 3, x r (-215579) 3], .arr [x r
  (-85148) 3, x r (-2371) 1]])]

/-- A value in `examples/assets/google_fonts/Tiger.json`. -/
def tiger126 : Json F :=
  .obj [("c", .bool true), ("i", .arr [.arr [x r (-61418) 3, x r (-72745) 3], .arr [x r (-4758) 3, x r (-8791)
  3], .arr [x r (-4758) 3, x r 5645 3], .arr [n 0, n 0], .arr [n 0, n 0], .arr [n 0, n 0], .arr [n 0, n 0],
  .arr [n 0, n 0], .arr [n 0, n 0], .arr [x r (-11936) 3, x r (-24758) 3], .arr [x r (-29676) 3, x r 483 3],
  .arr [n 0, x r 15968 3], .arr [x r (-3226) 3, x r 879 2], .arr [x r (-9516) 3, x r 55805 3], .arr [x r 33468
  3, x r 47822 3], .arr [x r 91209 3, x r 6855 3], .arr [x r 621 2, x r 371 2], .arr [x r 14317 3, x r 15108
  3]]), ("o", .arr [.arr [x r 31228 3, x r 36986 3], .arr [x r 2016 3, x r 3709 3], .arr [x r 4758 3, x r
  (-5645) 3], .arr [n 0, n 0], .arr [n 0, n 0], .arr [n 0, n 0], .arr [n 0, n 0], .arr [n 0, n 0], .arr [n 0,
  n 0], .arr [x r 12016 3, x r 24758 3], .arr [x r 52096 3, x r (-888) 3], .arr [n 0, x r (-15968) 3], .arr [x
  r 3145 3, x r (-879) 2], .arr [x r 9516 3, x r (-55806) 3], .arr [x r (-33547) 3, x r (-47903) 3], .arr [x r
  (-90241) 3, x r (-6774) 3], .arr [x r (-6129) 3, x r (-3709) 3], .arr [x r (-60443) 3, x r (-63781) 3]]),
  ("v", .arr [.arr [x r (-276354) 3, x r (-54741) 3], .arr [x r (-171738) 3, x r 71676 3], .arr [x r (-4432)
  2, x r 87159 3], .arr [x r 35437 3, x r 69578 3], .arr [x r 127129 3, x r 65627 3], .arr [x r 135919 3, x r
  100707 3], .arr [x r 183742 3, x r 146997 3], .arr [x r 186967 3, x r 192481 3], .arr [x r 163258 3, x r
  218367 3], .arr [x r 165355 3, x r 272802 3], .arr [x r 235676 3, x r 292238 3], .arr [x r 281966 3, x r
  207561 3], .arr [x r 285192 3, x r 120626 3], .arr [x r 328256 3, x r 144 3], .arr [x r 303901 3, x r
  (-155902) 3], .arr [x r 119307 3, x r (-227998) 3], .arr [x r (-53594) 3, x r (-225579) 3], .arr [x r
  (-70648) 3, x r (-2416) 1]])]

/-- A value in `examples/assets/google_fonts/Tiger.json`. -/
def tiger127 : Json F :=
  .obj [("c", .bool true), ("i", .arr [.arr [x r (-49815) 3, x r (-80129) 3], .arr [x r (-3417) 3, x r (-93)
  1], .arr [x r (-5474) 3, x r 4855 3], .arr [n 0, n 0], .arr [n 0, n 0], .arr [n 0, n 0], .arr [n 0, n 0],
  .arr [n 0, n 0], .arr [n 0, n 0], .arr [x r (-11936) 3, x r (-24758) 3], .arr [x r (-29675) 3, x r 519 3],
  .arr [x r 92 3, x r 15357 3], .arr [x r (-3226) 3, x r 879 2], .arr [x r (-9516) 3, x r 55805 3], .arr [x r
  33468 3, x r 47822 3], .arr [x r 90582 3, x r 11813 3], .arr [x r 5559 3, x r 4527 3], .arr [x r 11877 3, x
  r 16865 3]]), ("o", .arr [.arr [x r 25329 3, x r 4074 2], .arr [x r 1446 3, x r 3926 3], .arr [x r 5474 3, x
  r (-4854) 3], .arr [n 0, n 0], .arr [n 0, n 0], .arr [n 0, n 0], .arr [n 0, n 0], .arr [n 0, n 0], .arr [n
  0, n 0], .arr [x r 12016 3, x r 24758 3], .arr [x r 4852 2, x r (-864) 3], .arr [x r (-1) 1, x r (-15968)
  3], .arr [x r 3145 3, x r (-879) 2], .arr [x r 9516 3, x r (-55806) 3], .arr [x r (-33547) 3, x r (-47903)
  3], .arr [x r (-89621) 3, x r (-11684) 3], .arr [x r (-5479) 3, x r (-4515) 3], .arr [x r (-50142) 3, x r
  (-71199) 3]]), ("v", .arr [.arr [x r (-262321) 3, x r (-95271) 3], .arr [x r (-177828) 3, x r 43675 3], .arr
  [x r (-55094) 3, x r 771 1], .arr [x r 25636 3, x r 71277 3], .arr [x r 126321 3, x r 76001 3], .arr [x r
  134033 3, x r 114854 3], .arr [x r 181182 3, x r 165186 3], .arr [x r 18023 2, x r 199756 3], .arr [x r
  163258 3, x r 218367 3], .arr [x r 165355 3, x r 272801 3], .arr [x r 235676 3, x r 292238 3], .arr [x r
  280349 3, x r 21807 2], .arr [x r 277647 3, x r 15458 2], .arr [x r 328308 3, x r 11462 3], .arr [x r 304002
  3, x r (-144854) 3], .arr [x r 136474 3, x r (-216258) 3], .arr [x r (-19417) 3, x r (-230911) 3], .arr [x r
  (-33847) 3, x r (-249063) 3]])]

/-- A value in `examples/assets/google_fonts/Tiger.json`. -/
def tiger128 : Json F :=
  .obj [("c", .bool true), ("i", .arr [.arr [x r (-3989) 2, x r (-86445) 3], .arr [x r (-2269) 3, x r (-9735)
  3], .arr [x r (-6087) 3, x r 4178 3], .arr [n 0, n 0], .arr [n 0, n 0], .arr [n 0, n 0], .arr [n 0, n 0],
  .arr [n 0, n 0], .arr [n 0, n 0], .arr [x r (-11936) 3, x r (-24758) 3], .arr [x r (-29675) 3, x r 55 2],
  .arr [x r 172 3, x r 14834 3], .arr [x r (-3226) 3, x r 879 2], .arr [x r (-9516) 3, x r 55805 3], .arr [x r
  33468 3, x r 47822 3], .arr [x r 90046 3, x r 16055 3], .arr [x r 5001 3, x r 5226 3], .arr [x r 979 2, x r
  18368 3]]), ("o", .arr [.arr [x r 20282 3, x r 43952 3], .arr [x r 958 3, x r 4111 3], .arr [x r 6087 3, x r
  (-4178) 3], .arr [n 0, n 0], .arr [n 0, n 0], .arr [n 0, n 0], .arr [n 0, n 0], .arr [n 0, n 0], .arr [n 0,
  n 0], .arr [x r 12016 3, x r 24758 3], .arr [x r 45461 3, x r (-843) 3], .arr [x r (-185) 3, x r (-15967)
  3], .arr [x r 3145 3, x r (-879) 2], .arr [x r 9516 3, x r (-55806) 3], .arr [x r (-33547) 3, x r (-47903)
  3], .arr [x r (-8909) 2, x r (-15884) 3], .arr [x r (-4924) 3, x r (-5204) 3], .arr [x r (-4133) 2, x r
  (-77545) 3]]), ("v", .arr [.arr [x r (-250316) 3, x r (-129942) 3], .arr [x r (-183038) 3, x r 19723 3],
  .arr [x r (-6431) 2, x r 68495 3], .arr [x r 17252 3, x r 72731 3], .arr [x r 125629 3, x r 84877 3], .arr
  [x r 132419 3, x r 126956 3], .arr [x r 178992 3, x r 180747 3], .arr [x r 174467 3, x r 205981 3], .arr [x
  r 163258 3, x r 218367 3], .arr [x r 165355 3, x r 272802 3], .arr [x r 235676 3, x r 292238 3], .arr [x r
  278966 3, x r 227061 3], .arr [x r 271192 3, x r 183626 3], .arr [x r 328352 3, x r 21144 3], .arr [x r
  304089 3, x r (-135402) 3], .arr [x r 151159 3, x r (-206214) 3], .arr [x r 982 2, x r (-235472) 3], .arr [x
  r (-2366) 3, x r (-255448) 3]])]

/-- A value in `examples/assets/google_fonts/Tiger.json`. -/
def tiger129 : Json F :=
  .obj [("c", .bool true), ("i", .arr [.arr [x r (-61418) 3, x r (-72745) 3], .arr [x r (-4056) 3, x r (-9136)
  3], .arr [x r (-5194) 3, x r 5246 3], .arr [n 0, n 0], .arr [n 0, n 0], .arr [n 0, n 0], .arr [n 0, n 0],
  .arr [n 0, n 0], .arr [n 0, n 0], .arr [x r (-11936) 3, x r (-24758) 3], .arr [x r (-29676) 3, x r 483 3],
  .arr [n 0, x r 15968 3], .arr [x r (-3226) 3, x r 879 2], .arr [x r (-9516) 3, x r 55805 3], .arr [x r 33468
  3, x r 47822 3], .arr [x r 91209 3, x r 6855 3], .arr [x r 621 2, x r 371 2], .arr [x r 14317 3, x r 15108
  3]]), ("o", .arr [.arr [x r 31228 3, x r 36986 3], .arr [x r 1713 3, x r 3858 3], .arr [x r 5194 3, x r
  (-5247) 3], .arr [n 0, n 0], .arr [n 0, n 0], .arr [n 0, n 0], .arr [n 0, n 0], .arr [n 0, n 0], .arr [n 0,
  n 0], .arr [x r 12016 3, x r 24758 3], .arr [x r 52096 3, x r (-888) 3], .arr [n 0, x r (-15968) 3], .arr [x
  r 3145 3, x r (-879) 2], .arr [x r 9516 3, x r (-55806) 3], .arr [x r (-33547) 3, x r (-47903) 3], .arr [x r
  (-90241) 3, x r (-6774) 3], .arr [x r (-6129) 3, x r (-3709) 3], .arr [x r (-60443) 3, x r (-63781) 3]]),
  ("v", .arr [.arr [x r (-276354) 3, x r (-54741) 3], .arr [x r (-170421) 3, x r 65212 3], .arr [x r (-44648)
  3, x r 90832 3], .arr [x r 35437 3, x r 69577 3], .arr [x r 127129 3, x r 65627 3], .arr [x r 135919 3, x r
  100707 3], .arr [x r 183742 3, x r 146996 3], .arr [x r 186967 3, x r 192481 3], .arr [x r 163258 3, x r
  218367 3], .arr [x r 165355 3, x r 272802 3], .arr [x r 235676 3, x r 292238 3], .arr [x r 281966 3, x r
  207561 3], .arr [x r 285192 3, x r 120626 3], .arr [x r 328256 3, x r 144 3], .arr [x r 303901 3, x r
  (-155902) 3], .arr [x r 119307 3, x r (-227998) 3], .arr [x r (-53594) 3, x r (-225579) 3], .arr [x r
  (-70648) 3, x r (-2416) 1]])]

/-- A value in `examples/assets/google_fonts/Tiger.json`. -/
def tiger130 : Json F :=
  .obj [("c", .bool true), ("i", .arr [.arr [x r (-61418) 3, x r (-72745) 3], .arr [x r (-588) 3, x r (-9354)
  3], .arr [x r (-6285) 3, x r 2475 3], .arr [n 0, n 0], .arr [n 0, n 0], .arr [n 0, n 0], .arr [n 0, n 0],
  .arr [n 0, n 0], .arr [n 0, n 0], .arr [x r (-11936) 3, x r (-24758) 3], .arr [x r (-29676) 3, x r 483 3],
  .arr [x r 2451 3, x r 16057 3], .arr [x r (-714) 2, x r 13279 3], .arr [x r (-9516) 3, x r 55805 3], .arr [x
  r 33468 3, x r 47822 3], .arr [x r 90002 3, x r (-7546) 3], .arr [x r 17489 3, x r (-5382) 3], .arr [x r
  36301 3, x r (-699) 3]]), ("o", .arr [.arr [x r 31228 3, x r 36986 3], .arr [x r 248 3, x r 395 2], .arr [x
  r 11866 3, x r (-225) 2], .arr [n 0, n 0], .arr [n 0, n 0], .arr [n 0, n 0], .arr [n 0, n 0], .arr [n 0, n
  0], .arr [n 0, n 0], .arr [x r 12016 3, x r 24758 3], .arr [x r 52096 3, x r (-888) 3], .arr [x r (-5414) 3,
  x r (-25817) 3], .arr [x r 3145 3, x r (-879) 2], .arr [x r 9516 3, x r (-55806) 3], .arr [x r (-33547) 3, x
  r (-47903) 3], .arr [x r (-93455) 3, x r 8559 3], .arr [x r (-17449) 3, x r 5382 3], .arr [x r (-72495) 3, x
  r (-19919) 3]]), ("v", .arr [.arr [x r (-276354) 3, x r (-14742) 3], .arr [x r (-15524) 2, x r 88216 3],
  .arr [x r (-52774) 3, x r 15774 2], .arr [x r 35437 3, x r 109577 3], .arr [x r 127129 3, x r 70627 3], .arr
  [x r 135919 3, x r 111956 3], .arr [x r 183742 3, x r 158247 3], .arr [x r 186967 3, x r 192481 3], .arr [x
  r 163258 3, x r 218367 3], .arr [x r 165355 3, x r 272802 3], .arr [x r 235676 3, x r 292238 3], .arr [x r
  281966 3, x r 207561 3], .arr [x r 285192 3, x r 125626 3], .arr [x r 328256 3, x r 5144 3], .arr [x r
  303901 3, x r (-150902) 3], .arr [x r 119807 3, x r (-215498) 3], .arr [x r (-54094) 3, x r (-174829) 3],
  .arr [x r (-110148) 3, x r (-1671) 1]])]

/-- A value in `examples/assets/google_fonts/Tiger.json`. -/
def tiger131 : Json F :=
  .obj [("c", .bool true), ("i", .arr [.arr [x r (-61418) 3, x r (-72745) 3], .arr [x r 2881 3, x r (-9572)
  3], .arr [x r (-7377) 3, x r (-297) 3], .arr [n 0, n 0], .arr [n 0, n 0], .arr [n 0, n 0], .arr [n 0, n 0],
  .arr [n 0, n 0], .arr [n 0, n 0], .arr [x r (-11936) 3, x r (-24758) 3], .arr [x r (-29676) 3, x r 483 3],
  .arr [x r 4902 3, x r 16147 3], .arr [x r (-11054) 3, x r 17769 3], .arr [x r (-9516) 3, x r 55805 3], .arr
  [x r 33468 3, x r 47822 3], .arr [x r 88794 3, x r (-21946) 3], .arr [x r 28768 3, x r (-14474) 3], .arr [x
  r 58286 3, x r (-16505) 3]]), ("o", .arr [.arr [x r 31228 3, x r 36986 3], .arr [x r (-1217) 3, x r 4042 3],
  .arr [x r 18538 3, x r 746 3], .arr [n 0, n 0], .arr [n 0, n 0], .arr [n 0, n 0], .arr [n 0, n 0], .arr [n
  0, n 0], .arr [n 0, n 0], .arr [x r 12016 3, x r 24758 3], .arr [x r 52096 3, x r (-888) 3], .arr [x r
  (-10828) 3, x r (-35666) 3], .arr [x r 3145 3, x r (-879) 2], .arr [x r 9516 3, x r (-55806) 3], .arr [x r
  (-33547) 3, x r (-47903) 3], .arr [x r (-9667) 2, x r 23893 3], .arr [x r (-28768) 3, x r 14474 3], .arr [x
  r (-84547) 3, x r 23942 3]]), ("v", .arr [.arr [x r (-276354) 3, x r 25258 3], .arr [x r (-14006) 2, x r
  11122 2], .arr [x r (-43901) 3, x r 228148 3], .arr [x r 35437 3, x r 149578 3], .arr [x r 127129 3, x r
  75627 3], .arr [x r 135919 3, x r 123206 3], .arr [x r 183742 3, x r 169497 3], .arr [x r 186967 3, x r
  192481 3], .arr [x r 163258 3, x r 218366 3], .arr [x r 165355 3, x r 272801 3], .arr [x r 235676 3, x r
  292238 3], .arr [x r 281966 3, x r 207561 3], .arr [x r 285192 3, x r 130626 3], .arr [x r 328256 3, x r
  10144 3], .arr [x r 303901 3, x r (-145902) 3], .arr [x r 120307 3, x r (-202998) 3], .arr [x r (-54594) 3,
  x r (-124079) 3], .arr [x r (-149648) 3, x r (-926) 1]])]

/-- A value in `examples/assets/google_fonts/Tiger.json`. -/
def tiger132 : Json F :=
  .obj [("c", .bool true), ("i", .arr [.arr [x r (-61418) 3, x r (-72745) 3], .arr [x r 2881 3, x r (-9572)
  3], .arr [x r (-7377) 3, x r (-297) 3], .arr [n 0, n 0], .arr [n 0, n 0], .arr [n 0, n 0], .arr [n 0, n 0],
  .arr [n 0, n 0], .arr [n 0, n 0], .arr [x r (-11936) 3, x r (-24758) 3], .arr [x r (-29676) 3, x r 483 3],
  .arr [x r 4902 3, x r 16147 3], .arr [x r (-11054) 3, x r 17769 3], .arr [x r (-9516) 3, x r 55805 3], .arr
  [x r 33468 3, x r 47822 3], .arr [x r 88794 3, x r (-21946) 3], .arr [x r 131819 3, x r (-10026) 3], .arr [x
  r 58286 3, x r (-16505) 3]]), ("o", .arr [.arr [x r 31228 3, x r 36986 3], .arr [x r (-1217) 3, x r 4042 3],
  .arr [x r 18538 3, x r 746 3], .arr [n 0, n 0], .arr [n 0, n 0], .arr [n 0, n 0], .arr [n 0, n 0], .arr [n
  0, n 0], .arr [n 0, n 0], .arr [x r 12016 3, x r 24758 3], .arr [x r 52096 3, x r (-888) 3], .arr [x r
  (-10828) 3, x r (-35666) 3], .arr [x r 3145 3, x r (-879) 2], .arr [x r 9516 3, x r (-55806) 3], .arr [x r
  (-33547) 3, x r (-47903) 3], .arr [x r (-9667) 2, x r 23893 3], .arr [x r (-32111) 3, x r 2442 3], .arr [x r
  (-84547) 3, x r 23942 3]]), ("v", .arr [.arr [x r (-276354) 3, x r 25258 3], .arr [x r (-140134) 3, x r
  111252 3], .arr [x r (-44077) 3, x r 22809 2], .arr [x r 35437 3, x r 149578 3], .arr [x r 127129 3, x r
  75627 3], .arr [x r 135919 3, x r 123206 3], .arr [x r 183742 3, x r 169497 3], .arr [x r 186967 3, x r
  192481 3], .arr [x r 163258 3, x r 218366 3], .arr [x r 165355 3, x r 272801 3], .arr [x r 235676 3, x r
  292238 3], .arr [x r 281966 3, x r 207561 3], .arr [x r 285192 3, x r 130626 3], .arr [x r 328256 3, x r
  10144 3], .arr [x r 303901 3, x r (-145902) 3], .arr [x r 120307 3, x r (-202998) 3], .arr [x r (-75182) 3,
  x r (-81079) 3], .arr [x r (-173648) 3, x r (-946) 1]])]

/-- A value in `examples/assets/google_fonts/Tiger.json`. -/
def tiger133 : Json F :=
  .obj [("c", .bool true), ("i", .arr [.arr [x r (-61418) 3, x r (-72745) 3], .arr [x r 2881 3, x r (-9572)
  3], .arr [x r (-7377) 3, x r (-297) 3], .arr [n 0, n 0], .arr [n 0, n 0], .arr [n 0, n 0], .arr [n 0, n 0],
  .arr [n 0, n 0], .arr [n 0, n 0], .arr [x r (-11936) 3, x r (-24758) 3], .arr [x r (-29676) 3, x r 483 3],
  .arr [x r 4902 3, x r 16147 3], .arr [x r (-11054) 3, x r 17769 3], .arr [x r (-9516) 3, x r 55805 3], .arr
  [x r 33468 3, x r 47822 3], .arr [x r 88794 3, x r (-21946) 3], .arr [x r 28768 3, x r (-14474) 3], .arr [x
  r 58285 3, x r (-16505) 3]]), ("o", .arr [.arr [x r 31228 3, x r 36986 3], .arr [x r (-1217) 3, x r 4042 3],
  .arr [x r 18538 3, x r 746 3], .arr [n 0, n 0], .arr [n 0, n 0], .arr [n 0, n 0], .arr [n 0, n 0], .arr [n
  0, n 0], .arr [n 0, n 0], .arr [x r 12016 3, x r 24758 3], .arr [x r 52096 3, x r (-888) 3], .arr [x r
  (-10828) 3, x r (-35666) 3], .arr [x r 3145 3, x r (-879) 2], .arr [x r 9516 3, x r (-55806) 3], .arr [x r
  (-33547) 3, x r (-47903) 3], .arr [x r (-96669) 3, x r 23893 3], .arr [x r (-28768) 3, x r 14474 3], .arr [x
  r (-84547) 3, x r 23942 3]]), ("v", .arr [.arr [x r (-276354) 3, x r 25258 3], .arr [x r (-15256) 2, x r
  11672 2], .arr [x r (-73901) 3, x r 218148 3], .arr [x r 35437 3, x r 149578 3], .arr [x r 127129 3, x r
  75627 3], .arr [x r 135919 3, x r 123206 3], .arr [x r 183742 3, x r 169497 3], .arr [x r 186967 3, x r
  192481 3], .arr [x r 163258 3, x r 218366 3], .arr [x r 165355 3, x r 272801 3], .arr [x r 235676 3, x r
  292238 3], .arr [x r 281966 3, x r 207561 3], .arr [x r 285192 3, x r 130626 3], .arr [x r 328256 3, x r
  10144 3], .arr [x r 303901 3, x r (-145902) 3], .arr [x r 120307 3, x r (-202998) 3], .arr [x r (-54594) 3,
  x r (-124079) 3], .arr [x r (-149648) 3, x r (-926) 1]])]

/-- A value in `examples/assets/google_fonts/Tiger.json`. -/
def tiger134 : Json F :=
  .obj [("a", n 1), ("ix", n 2), ("k", .arr [.obj [("i", .obj [("x", x r 833 3), ("y", x r 833 3)]), ("o",
  .obj [("x", x r 167 3), ("y", x r 167 3)]), ("s", .arr [tiger123 r]), ("t", n 0)], .obj [("i", .obj [("x", x
  r 667 3), ("y", n 1)]), ("o", .obj [("x", x r 167 3), ("y", x r 167 3)]), ("s", .arr [tiger124 r]), ("t", n
  30)], .obj [("i", .obj [("x", x r 833 3), ("y", x r 833 3)]), ("o", .obj [("x", x r 333 3), ("y", n 0)]),
  ("s", .arr [tiger125 r]), ("t", n 38)], .obj [("i", .obj [("x", x r 833 3), ("y", x r 833 3)]), ("o", .obj
  [("x", x r 167 3), ("y", x r 167 3)]), ("s", .arr [tiger126 r]), ("t", n 48)], .obj [("i", .obj [("x", x r 3
  1), ("y", n 1)]), ("o", .obj [("x", x r 167 3), ("y", x r 167 3)]), ("s", .arr [tiger127 r]), ("t", n 52)],
  .obj [("i", .obj [("x", x r 833 3), ("y", x r 833 3)]), ("o", .obj [("x", x r 7 1), ("y", n 0)]), ("s", .arr
  [tiger128 r]), ("t", n 58)], .obj [("i", .obj [("x", x r 833 3), ("y", x r 833 3)]), ("o", .obj [("x", x r
  167 3), ("y", x r 167 3)]), ("s", .arr [tiger129 r]), ("t", n 70)], .obj [("i", .obj [("x", x r 833 3),
  ("y", x r 833 3)]), ("o", .obj [("x", x r 167 3), ("y", x r 167 3)]), ("s", .arr [tiger130 r]), ("t", n
  73)], .obj [("i", .obj [("x", x r 833 3), ("y", x r 833 3)]), ("o", .obj [("x", x r 167 3), ("y", x r 167
  3)]), ("s", .arr [tiger131 r]), ("t", n 76)], .obj [("i", .obj [("x", x r 833 3), ("y", x r 833 3)]), ("o",
  .obj [("x", x r 167 3), ("y", x r 167 3)]), ("s", .arr [tiger132 r]), ("t", n 78)], .obj [("s", .arr
  [tiger133 r]), ("t", n 246)]])]

/-- A value in `examples/assets/google_fonts/Tiger.json`. -/
def tiger135 : Json F :=
  .arr [.obj [("bm", n 0), ("cix", n 2), ("hd", .bool false), ("it", .arr [.obj [("hd", .bool false), ("ind",
  n 0), ("ix", n 1), ("ks", .obj [("a", n 1), ("ix", n 2), ("k", tiger100 r)]), ("mn", .str
  "ADBE Vector Shape - Group"), ("nm", .str "Path 1"), ("ty", .str "sh")], .obj [("bm", n 0), ("c", .obj
  [("a", n 0), ("ix", n 4), ("k", .arr [x r 2 1, x r 19199999641 11, x r 184000007779 12, n 1])]), ("hd",
  .bool false), ("mn", .str "ADBE Vector Graphic - Fill"), ("nm", .str "Fill 1"), ("o", .obj [("a", n 0),
  ("ix", n 5), ("k", n 100)]), ("r", n 1), ("ty", .str "fl")], .obj [("a", .obj [("a", n 0), ("ix", n 1),
  ("k", .arr [n 0, n 0])]), ("nm", .str "Transform"), ("o", .obj [("a", n 0), ("ix", n 7), ("k", n 100)]),
  ("p", .obj [("a", n 0), ("ix", n 2), ("k", .arr [x r 537812 3, x r 408234 3])]), ("r", .obj [("a", n 0),
  ("ix", n 6), ("k", n 0)]), ("s", .obj [("a", n 0), ("ix", n 3), ("k", .arr [n 100, n 100])]), ("sa", .obj
  [("a", n 0), ("ix", n 5), ("k", n 0)]), ("sk", .obj [("a", n 0), ("ix", n 4), ("k", n 0)]), ("ty", .str
  "tr")]]), ("ix", n 1), ("mn", .str "ADBE Vector Group"), ("nm", .str "Group 1"), ("np", n 2), ("ty", .str
  "gr")], .obj [("bm", n 0), ("cix", n 2), ("hd", .bool false), ("it", .arr [.obj [("hd", .bool false),
  ("ind", n 0), ("ix", n 1), ("ks", .obj [("a", n 1), ("ix", n 2), ("k", tiger101 r)]), ("mn", .str
  "ADBE Vector Shape - Group"), ("nm", .str "Path 1"), ("ty", .str "sh")], .obj [("bm", n 0), ("c", .obj
  [("a", n 0), ("ix", n 4), ("k", .arr [x r 2 1, x r 19199999641 11, x r 184000007779 12, n 1])]), ("hd",
  .bool false), ("mn", .str "ADBE Vector Graphic - Fill"), ("nm", .str "Fill 1"), ("o", .obj [("a", n 0),
  ("ix", n 5), ("k", n 100)]), ("r", n 1), ("ty", .str "fl")], .obj [("a", .obj [("a", n 0), ("ix", n 1),
  ("k", .arr [n 0, n 0])]), ("nm", .str "Transform"), ("o", .obj [("a", n 0), ("ix", n 7), ("k", n 100)]),
  ("p", .obj [("a", n 0), ("ix", n 2), ("k", .arr [x r 554908 3, x r 310372 3])]), ("r", .obj [("a", n 0),
  ("ix", n 6), ("k", n 0)]), ("s", .obj [("a", n 0), ("ix", n 3), ("k", .arr [n 100, n 100])]), ("sa", .obj
  [("a", n 0), ("ix", n 5), ("k", n 0)]), ("sk", .obj [("a", n 0), ("ix", n 4), ("k", n 0)]), ("ty", .str
  "tr")]]), ("ix", n 2), ("mn", .str "ADBE Vector Group"), ("nm", .str "Group 2"), ("np", n 2), ("ty", .str
  "gr")], .obj [("bm", n 0), ("cix", n 2), ("hd", .bool false), ("it", .arr [.obj [("hd", .bool false),
  ("ind", n 0), ("ix", n 1), ("ks", .obj [("a", n 1), ("ix", n 2), ("k", tiger102 r)]), ("mn", .str
  "ADBE Vector Shape - Group"), ("nm", .str "Path 1"), ("ty", .str "sh")], .obj [("bm", n 0), ("c", .obj
  [("a", n 0), ("ix", n 4), ("k", .arr [x r 2 1, x r 19199999641 11, x r 184000007779 12, n 1])]), ("hd",
  .bool false), ("mn", .str "ADBE Vector Graphic - Fill"), ("nm", .str "Fill 1"), ("o", .obj [("a", n 0),
  ("ix", n 5), ("k", n 100)]), ("r", n 1), ("ty", .str "fl")], .obj [("a", .obj [("a", n 0), ("ix", n 1),
  ("k", .arr [n 0, n 0])]), ("nm", .str "Transform"), ("o", .obj [("a", n 0), ("ix", n 7), ("k", n 100)]),
  ("p", .obj [("a", n 0), ("ix", n 2), ("k", .arr [x r 439063 3, x r 320694 3])]), ("r", .obj [("a", n 0),
  ("ix", n 6), ("k", n 0)]), ("s", .obj [("a", n 0), ("ix", n 3), ("k", .arr [n 100, n 100])]), ("sa", .obj
  [("a", n 0), ("ix", n 5), ("k", n 0)]), ("sk", .obj [("a", n 0), ("ix", n 4), ("k", n 0)]), ("ty", .str
  "tr")]]), ("ix", n 3), ("mn", .str "ADBE Vector Group"), ("nm", .str "Group 3"), ("np", n 2), ("ty", .str
  "gr")], .obj [("bm", n 0), ("cix", n 2), ("hd", .bool false), ("it", .arr [.obj [("hd", .bool false),
  ("ind", n 0), ("ix", n 1), ("ks", .obj [("a", n 1), ("ix", n 2), ("k", tiger103 r)]), ("mn", .str
  "ADBE Vector Shape - Group"), ("nm", .str "Path 1"), ("ty", .str "sh")], .obj [("bm", n 0), ("c", .obj
  [("a", n 0), ("ix", n 4), ("k", .arr [x r 2 1, x r 19199999641 11, x r 184000007779 12, n 1])]), ("hd",
  .bool false), ("mn", .str "ADBE Vector Graphic - Fill"), ("nm", .str "Fill 1"), ("o", .obj [("a", n 0),
  ("ix", n 5), ("k", n 100)]), ("r", n 1), ("ty", .str "fl")], .obj [("a", .obj [("a", n 0), ("ix", n 1),
  ("k", .arr [n 0, n 0])]), ("nm", .str "Transform"), ("o", .obj [("a", n 0), ("ix", n 7), ("k", n 100)]),
  ("p", .obj [("a", n 0), ("ix", n 2), ("k", .arr [x r 351605 3, x r 326783 3])]), ("r", .obj [("a", n 0),
  ("ix", n 6), ("k", n 0)]), ("s", .obj [("a", n 0), ("ix", n 3), ("k", .arr [n 100, n 100])]), ("sa", .obj
  [("a", n 0), ("ix", n 5), ("k", n 0)]), ("sk", .obj [("a", n 0), ("ix", n 4), ("k", n 0)]), ("ty", .str
  "tr")]]), ("ix", n 4), ("mn", .str "ADBE Vector Group"), ("nm", .str "Group 4"), ("np", n 2), ("ty", .str
  "gr")], .obj [("bm", n 0), ("cix", n 2), ("hd", .bool false), ("it", .arr [.obj [("hd", .bool false),
  ("ind", n 0), ("ix", n 1), ("ks", .obj [("a", n 1), ("ix", n 2), ("k", tiger104 r)]), ("mn", .str
  "ADBE Vector Shape - Group"), ("nm", .str "Path 1"), ("ty", .str "sh")], .obj [("bm", n 0), ("c", .obj
  [("a", n 0), ("ix", n 4), ("k", .arr [x r 2 1, x r 19199999641 11, x r 184000007779 12, n 1])]), ("hd",
  .bool false), ("mn", .str "ADBE Vector Graphic - Fill"), ("nm", .str "Fill 1"), ("o", .obj [("a", n 0),
  ("ix", n 5), ("k", n 100)]), ("r", n 1), ("ty", .str "fl")], .obj [("a", .obj [("a", n 0), ("ix", n 1),
  ("k", .arr [n 0, n 0])]), ("nm", .str "Transform"), ("o", .obj [("a", n 0), ("ix", n 7), ("k", n 100)]),
  ("p", .obj [("a", n 0), ("ix", n 2), ("k", .arr [x r 600029 3, x r 186059 3])]), ("r", .obj [("a", n 0),
  ("ix", n 6), ("k", n 0)]), ("s", .obj [("a", n 0), ("ix", n 3), ("k", .arr [n 100, n 100])]), ("sa", .obj
  [("a", n 0), ("ix", n 5), ("k", n 0)]), ("sk", .obj [("a", n 0), ("ix", n 4), ("k", n 0)]), ("ty", .str
  "tr")]]), ("ix", n 5), ("mn", .str "ADBE Vector Group"), ("nm", .str "Group 5"), ("np", n 2), ("ty", .str
  "gr")], .obj [("bm", n 0), ("cix", n 2), ("hd", .bool false), ("it", .arr [.obj [("hd", .bool false),
  ("ind", n 0), ("ix", n 1), ("ks", .obj [("a", n 1), ("ix", n 2), ("k", tiger105 r)]), ("mn", .str
  "ADBE Vector Shape - Group"), ("nm", .str "Path 1"), ("ty", .str "sh")], .obj [("bm", n 0), ("c", .obj
  [("a", n 0), ("ix", n 4), ("k", .arr [x r 2 1, x r 19199999641 11, x r 184000007779 12, n 1])]), ("hd",
  .bool false), ("mn", .str "ADBE Vector Graphic - Fill"), ("nm", .str "Fill 1"), ("o", .obj [("a", n 0),
  ("ix", n 5), ("k", n 100)]), ("r", n 1), ("ty", .str "fl")], .obj [("a", .obj [("a", n 0), ("ix", n 1),
  ("k", .arr [n 0, n 0])]), ("nm", .str "Transform"), ("o", .obj [("a", n 0), ("ix", n 7), ("k", n 100)]),
  ("p", .obj [("a", n 0), ("ix", n 2), ("k", .arr [x r 528739 3, x r 162188 3])]), ("r", .obj [("a", n 0),
  ("ix", n 6), ("k", n 0)]), ("s", .obj [("a", n 0), ("ix", n 3), ("k", .arr [n 100, n 100])]), ("sa", .obj
  [("a", n 0), ("ix", n 5), ("k", n 0)]), ("sk", .obj [("a", n 0), ("ix", n 4), ("k", n 0)]), ("ty", .str
  "tr")]]), ("ix", n 6), ("mn", .str "ADBE Vector Group"), ("nm", .str "Group 6"), ("np", n 2), ("ty", .str
  "gr")], .obj [("bm", n 0), ("cix", n 2), ("hd", .bool false), ("it", .arr [.obj [("hd", .bool false),
  ("ind", n 0), ("ix", n 1), ("ks", .obj [("a", n 1), ("ix", n 2), ("k", tiger106 r)]), ("mn", .str
  "ADBE Vector Shape - Group"), ("nm", .str "Path 1"), ("ty", .str "sh")], .obj [("bm", n 0), ("c", .obj
  [("a", n 0), ("ix", n 4), ("k", .arr [x r 2 1, x r 19199999641 11, x r 184000007779 12, n 1])]), ("hd",
  .bool false), ("mn", .str "ADBE Vector Graphic - Fill"), ("nm", .str "Fill 1"), ("o", .obj [("a", n 0),
  ("ix", n 5), ("k", n 100)]), ("r", n 1), ("ty", .str "fl")], .obj [("a", .obj [("a", n 0), ("ix", n 1),
  ("k", .arr [n 0, n 0])]), ("nm", .str "Transform"), ("o", .obj [("a", n 0), ("ix", n 7), ("k", n 100)]),
  ("p", .obj [("a", n 0), ("ix", n 2), ("k", .arr [x r 43112 2, x r 156785 3])]), ("r", .obj [("a", n 0),
  ("ix", n 6), ("k", n 0)]), ("s", .obj [("a", n 0), ("ix", n 3), ("k", .arr [n 100, n 100])]), ("sa", .obj
  [("a", n 0), ("ix", n 5), ("k", n 0)]), ("sk", .obj [("a", n 0), ("ix", n 4), ("k", n 0)]), ("ty", .str
  "tr")]]), ("ix", n 7), ("mn", .str "ADBE Vector Group"), ("nm", .str "Group 7"), ("np", n 2), ("ty", .str
  "gr")], .obj [("bm", n 0), ("cix", n 2), ("hd", .bool false), ("it", .arr [.obj [("hd", .bool false),
  ("ind", n 0), ("ix", n 1), ("ks", .obj [("a", n 1), ("ix", n 2), ("k", tiger107 r)]), ("mn", .str
  "ADBE Vector Shape - Group"), ("nm", .str "Path 1"), ("ty", .str "sh")], .obj [("bm", n 0), ("c", .obj
  [("a", n 0), ("ix", n 4), ("k", .arr [x r 2 1, x r 19199999641 11, x r 184000007779 12, n 1])]), ("hd",
  .bool false), ("mn", .str "ADBE Vector Graphic - Fill"), ("nm", .str "Fill 1"), ("o", .obj [("a", n 0),
  ("ix", n 5), ("k", n 100)]), ("r", n 1), ("ty", .str "fl")], .obj [("a", .obj [("a", n 0), ("ix", n 1),
  ("k", .arr [n 0, n 0])]), ("nm", .str "Transform"), ("o", .obj [("a", n 0), ("ix", n 7), ("k", n 100)]),
  ("p", .obj [("a", n 0), ("ix", n 2), ("k", .arr [x r 329952 3, x r 154446 3])]), ("r", .obj [("a", n 0),
  ("ix", n 6), ("k", n 0)]), ("s", .obj [("a", n 0), ("ix", n 3), ("k", .arr [n 100, n 100])]), ("sa", .obj
  [("a", n 0), ("ix", n 5), ("k", n 0)]), ("sk", .obj [("a", n 0), ("ix", n 4), ("k", n 0)]), ("ty", .str
  "tr")]]), ("ix", n 8), ("mn", .str "ADBE Vector Group"), ("nm", .str "Group 8"), ("np", n 2), ("ty", .str
  "gr")], .obj [("bm", n 0), ("cix", n 2), ("hd", .bool false), ("it", .arr [.obj [("hd", .bool false),
  ("ind", n 0), ("ix", n 1), ("ks", .obj [("a", n 1), ("ix", n 2), ("k", tiger108 r)]), ("mn", .str
  "ADBE Vector Shape - Group"), ("nm", .str "Path 1"), ("ty", .str "sh")], .obj [("bm", n 0), ("c", .obj
  [("a", n 0), ("ix", n 4), ("k", .arr [x r 2 1, x r 19199999641 11, x r 184000007779 12, n 1])]), ("hd",
  .bool false), ("mn", .str "ADBE Vector Graphic - Fill"), ("nm", .str "Fill 1"), ("o", .obj [("a", n 0),
  ("ix", n 5), ("k", n 100)]), ("r", n 1), ("ty", .str "fl")], .obj [("a", .obj [("a", n 0), ("ix", n 1),
  ("k", .arr [n 0, n 0])]), ("nm", .str "Transform"), ("o", .obj [("a", n 0), ("ix", n 7), ("k", n 100)]),
  ("p", .obj [("a", n 0), ("ix", n 2), ("k", .arr [x r 285759 3, x r 244243 3])]), ("r", .obj [("a", n 0),
  ("ix", n 6), ("k", n 0)]), ("s", .obj [("a", n 0), ("ix", n 3), ("k", .arr [n 100, n 100])]), ("sa", .obj
  [("a", n 0), ("ix", n 5), ("k", n 0)]), ("sk", .obj [("a", n 0), ("ix", n 4), ("k", n 0)]), ("ty", .str
  "tr")]]), ("ix", n 9), ("mn", .str "ADBE Vector Group"), ("nm", .str "Group 9"), ("np", n 2), ("ty", .str
  "gr")], .obj [("bm", n 0), ("cix", n 2), ("hd", .bool false), ("it", .arr [.obj [("hd", .bool false),
  ("ind", n 0), ("ix", n 1), ("ks", .obj [("a", n 1), ("ix", n 2), ("k", tiger109 r)]), ("mn", .str
  "ADBE Vector Shape - Group"), ("nm", .str "Path 1"), ("ty", .str "sh")], .obj [("bm", n 0), ("c", .obj
  [("a", n 0), ("ix", n 4), ("k", .arr [x r 2 1, x r 19199999641 11, x r 184000007779 12, n 1])]), ("hd",
  .bool false), ("mn", .str "ADBE Vector Graphic - Fill"), ("nm", .str "Fill 1"), ("o", .obj [("a", n 0),
  ("ix", n 5), ("k", n 100)]), ("r", n 1), ("ty", .str "fl")], .obj [("a", .obj [("a", n 0), ("ix", n 1),
  ("k", .arr [n 0, n 0])]), ("nm", .str "Transform"), ("o", .obj [("a", n 0), ("ix", n 7), ("k", n 100)]),
  ("p", .obj [("a", n 0), ("ix", n 2), ("k", .arr [x r 231082 3, x r 309767 3])]), ("r", .obj [("a", n 0),
  ("ix", n 6), ("k", n 0)]), ("s", .obj [("a", n 0), ("ix", n 3), ("k", .arr [n 100, n 100])]), ("sa", .obj
  [("a", n 0), ("ix", n 5), ("k", n 0)]), ("sk", .obj [("a", n 0), ("ix", n 4), ("k", n 0)]), ("ty", .str
  "tr")]]), ("ix", n 10), ("mn", .str "ADBE Vector Group"), ("nm", .str "Group 10"), ("np", n 2), ("ty", .str
  "gr")], .obj [("bm", n 0), ("cix", n 2), ("hd", .bool false), ("it", .arr [.obj [("hd", .bool false),
  ("ind", n 0), ("ix", n 1), ("ks", .obj [("a", n 1), ("ix", n 2), ("k", tiger110 r)]), ("mn", .str
  "ADBE Vector Shape - Group"), ("nm", .str "Path 1"), ("ty", .str "sh")], .obj [("bm", n 0), ("c", .obj
  [("a", n 0), ("ix", n 4), ("k", .arr [x r 991999966491 12, x r 929000016755 12, x r 8 1, n 1])]), ("hd",
  .bool false), ("mn", .str "ADBE Vector Graphic - Fill"), ("nm", .str "Fill 1"), ("o", .obj [("a", n 0),
  ("ix", n 5), ("k", n 100)]), ("r", n 1), ("ty", .str "fl")], .obj [("a", .obj [("a", n 0), ("ix", n 1),
  ("k", .arr [n 0, n 0])]), ("nm", .str "Transform"), ("o", .obj [("a", n 0), ("ix", n 7), ("k", n 100)]),
  ("p", .obj [("a", n 0), ("ix", n 2), ("k", .arr [x r 102609 3, x r 292047 3])]), ("r", .obj [("a", n 0),
  ("ix", n 6), ("k", n 0)]), ("s", .obj [("a", n 0), ("ix", n 3), ("k", .arr [n 100, n 100])]), ("sa", .obj
  [("a", n 0), ("ix", n 5), ("k", n 0)]), ("sk", .obj [("a", n 0), ("ix", n 4), ("k", n 0)]), ("ty", .str
  "tr")]]), ("ix", n 11), ("mn", .str "ADBE Vector Group"), ("nm", .str "Group 11"), ("np", n 2), ("ty", .str
  "gr")], .obj [("bm", n 0), ("cix", n 2), ("hd", .bool false), ("it", .arr [.obj [("hd", .bool false),
  ("ind", n 0), ("ix", n 1), ("ks", .obj [("a", n 1), ("ix", n 2), ("k", tiger111 r)]), ("mn", .str
  "ADBE Vector Shape - Group"), ("nm", .str "Path 1"), ("ty", .str "sh")], .obj [("bm", n 0), ("c", .obj
  [("a", n 0), ("ix", n 4), ("k", .arr [x r 995999983245 12, x r 416000007181 12, x r 122000002394 12, n
  1])]), ("hd", .bool false), ("mn", .str "ADBE Vector Graphic - Fill"), ("nm", .str "Fill 1"), ("o", .obj
  [("a", n 0), ("ix", n 5), ("k", n 100)]), ("r", n 1), ("ty", .str "fl")], .obj [("a", .obj [("a", n 0),
  ("ix", n 1), ("k", .arr [n 0, n 0])]), ("nm", .str "Transform"), ("o", .obj [("a", n 0), ("ix", n 7), ("k",
  n 100)]), ("p", .obj [("a", n 0), ("ix", n 2), ("k", .arr [x r 540513 3, x r 573715 3])]), ("r", .obj [("a",
  n 0), ("ix", n 6), ("k", n 0)]), ("s", .obj [("a", n 0), ("ix", n 3), ("k", .arr [n 100, n 100])]), ("sa",
  .obj [("a", n 0), ("ix", n 5), ("k", n 0)]), ("sk", .obj [("a", n 0), ("ix", n 4), ("k", n 0)]), ("ty", .str
  "tr")]]), ("ix", n 12), ("mn", .str "ADBE Vector Group"), ("nm", .str "Group 14"), ("np", n 2), ("ty", .str
  "gr")], .obj [("bm", n 0), ("cix", n 2), ("hd", .bool false), ("it", .arr [tiger122 r, .obj [("bm", n 0),
  ("c", .obj [("a", n 0), ("ix", n 4), ("k", .arr [x r 732999973671 12, x r 365000017952 12, x r 258999992819
  12, n 1])]), ("hd", .bool false), ("mn", .str "ADBE Vector Graphic - Fill"), ("nm", .str "Fill 1"), ("o",
  .obj [("a", n 0), ("ix", n 5), ("k", n 100)]), ("r", n 1), ("ty", .str "fl")], .obj [("a", .obj [("a", n 0),
  ("ix", n 1), ("k", .arr [n 0, n 0])]), ("nm", .str "Transform"), ("o", .obj [("a", n 0), ("ix", n 7), ("k",
  n 100)]), ("p", .obj [("a", n 0), ("ix", n 2), ("k", .arr [x r 380919 3, x r 482587 3])]), ("r", .obj [("a",
  n 0), ("ix", n 6), ("k", n 0)]), ("s", .obj [("a", n 0), ("ix", n 3), ("k", .arr [n 100, n 100])]), ("sa",
  .obj [("a", n 0), ("ix", n 5), ("k", n 0)]), ("sk", .obj [("a", n 0), ("ix", n 4), ("k", n 0)]), ("ty", .str
  "tr")]]), ("ix", n 13), ("mn", .str "ADBE Vector Group"), ("nm", .str "Group 15"), ("np", n 2), ("ty", .str
  "gr")], .obj [("bm", n 0), ("cix", n 2), ("hd", .bool false), ("it", .arr [.obj [("hd", .bool false),
  ("ind", n 0), ("ix", n 1), ("ks", tiger134 r), ("mn", .str "ADBE Vector Shape - Group"), ("nm", .str
  "Path 1"), ("ty", .str "sh")], .obj [("bm", n 0), ("c", .obj [("a", n 0), ("ix", n 4), ("k", .arr [n 1, x r
  588000009574 12, x r 75 3, n 1])]), ("hd", .bool false), ("mn", .str "ADBE Vector Graphic - Fill"), ("nm",
  .str "Fill 1"), ("o", .obj [("a", n 0), ("ix", n 5), ("k", n 100)]), ("r", n 1), ("ty", .str "fl")], .obj
  [("a", .obj [("a", n 0), ("ix", n 1), ("k", .arr [n 0, n 0])]), ("nm", .str "Transform"), ("o", .obj [("a",
  n 0), ("ix", n 7), ("k", n 100)]), ("p", .obj [("a", n 0), ("ix", n 2), ("k", .arr [x r 338022 3, x r 305631
  3])]), ("r", .obj [("a", n 0), ("ix", n 6), ("k", n 0)]), ("s", .obj [("a", n 0), ("ix", n 3), ("k", .arr [n
  100, n 100])]), ("sa", .obj [("a", n 0), ("ix", n 5), ("k", n 0)]), ("sk", .obj [("a", n 0), ("ix", n 4),
  ("k", n 0)]), ("ty", .str "tr")]]), ("ix", n 14), ("mn", .str "ADBE Vector Group"), ("nm", .str "Group 18"),
  ("np", n 2), ("ty", .str "gr")]]

/-- A value in `examples/assets/google_fonts/Tiger.json`. -/
def tiger136 : Json F :=
  .arr [.obj [("hd", .bool false), ("ind", n 0), ("ix", n 1), ("ks", .obj [("a", n 0), ("ix", n 2), ("k", .obj
  [("c", .bool true), ("i", .arr [.arr [x r 293 2, x r (-4792) 3], .arr [x r (-10875) 3, x r (-12658) 3], .arr
  [n 0, n 0], .arr [x r (-781) 2, x r (-414) 2], .arr [x r (-3236) 3, x r 15012 3], .arr [x r 3128 3, x r
  12181 3], .arr [x r 29561 3, x r 15572 3]]), ("o", .arr [.arr [x r (-5919) 3, x r 9682 3], .arr [x r 10262
  3, x r 11944 3], .arr [n 0, n 0], .arr [x r 9119 3, x r 4775 3], .arr [x r 3236 3, x r (-15012) 3], .arr [x
  r (-2784) 3, x r (-10843) 3], .arr [x r (-22615) 3, x r (-11801) 3]]), ("v", .arr [.arr [x r (-9608) 3, x r
  (-3792) 2], .arr [x r 5983 3, x r (-9041) 3], .arr [x r 38262 3, x r 25204 3], .arr [x r 5119 2, x r 85785
  3], .arr [x r 71855 3, x r 57155 3], .arr [x r 67542 3, x r 11949 3], .arr [x r 28005 3, x r (-30125)
  3]])])]), ("mn", .str "ADBE Vector Shape - Group"), ("nm", .str "Path 1"), ("ty", .str "sh")], .obj [("bm",
  n 0), ("c", .obj [("a", n 0), ("ix", n 4), ("k", .arr [x r 2 1, x r 19199999641 11, x r 184000007779 12, n
  1])]), ("hd", .bool false), ("mn", .str "ADBE Vector Graphic - Fill"), ("nm", .str "Fill 1"), ("o", .obj
  [("a", n 0), ("ix", n 5), ("k", n 100)]), ("r", n 1), ("ty", .str "fl")], .obj [("a", .obj [("a", n 0),
  ("ix", n 1), ("k", .arr [n 0, n 0])]), ("nm", .str "Transform"), ("o", .obj [("a", n 0), ("ix", n 7), ("k",
  n 100)]), ("p", .obj [("a", n 0), ("ix", n 2), ("k", .arr [x r 285759 3, x r 244243 3])]), ("r", .obj [("a",
  n 0), ("ix", n 6), ("k", n 0)]), ("s", .obj [("a", n 0), ("ix", n 3), ("k", .arr [n 100, n 100])]), ("sa",
  .obj [("a", n 0), ("ix", n 5), ("k", n 0)]), ("sk", .obj [("a", n 0), ("ix", n 4), ("k", n 0)]), ("ty", .str
  "tr")]]

/-- A value in `examples/assets/google_fonts/Tiger.json`. -/
def tiger137 : Json F :=
  .arr [.obj [("hd", .bool false), ("ind", n 0), ("ix", n 1), ("ks", .obj [("a", n 0), ("ix", n 2), ("k", .obj
  [("c", .bool true), ("i", .arr [.arr [x r (-1118) 3, x r (-5616) 3], .arr [n 0, n 0], .arr [x r (-6649) 3, x
  r 7079 3], .arr [x r 9766 3, x r 10225 3], .arr [x r 14057 3, x r 2875 3], .arr [x r 11519 3, x r (-5335)
  3]]), ("o", .arr [.arr [x r 3434 3, x r 17242 3], .arr [n 0, n 0], .arr [x r 8088 3, x r (-8519) 3], .arr [x
  r (-15375) 3, x r (-16097) 3], .arr [x r (-12698) 3, x r (-2651) 3], .arr [x r (-14445) 3, x r 6742 3]]),
  ("v", .arr [.arr [x r (-14916) 3, x r 30898 3], .arr [x r 44752 3, x r 34886 3], .arr [x r 93467 3, x r
  52403 3], .arr [x r 86355 3, x r 24956 3], .arr [x r 4779 2, x r (-3133) 3], .arr [x r 1817 3, x r 10874
  3]])])]), ("mn", .str "ADBE Vector Shape - Group"), ("nm", .str "Path 1"), ("ty", .str "sh")], .obj [("bm",
  n 0), ("c", .obj [("a", n 0), ("ix", n 4), ("k", .arr [x r 2 1, x r 19199999641 11, x r 184000007779 12, n
  1])]), ("hd", .bool false), ("mn", .str "ADBE Vector Graphic - Fill"), ("nm", .str "Fill 1"), ("o", .obj
  [("a", n 0), ("ix", n 5), ("k", n 100)]), ("r", n 1), ("ty", .str "fl")], .obj [("a", .obj [("a", n 0),
  ("ix", n 1), ("k", .arr [n 0, n 0])]), ("nm", .str "Transform"), ("o", .obj [("a", n 0), ("ix", n 7), ("k",
  n 100)]), ("p", .obj [("a", n 0), ("ix", n 2), ("k", .arr [x r 231082 3, x r 309767 3])]), ("r", .obj [("a",
  n 0), ("ix", n 6), ("k", n 0)]), ("s", .obj [("a", n 0), ("ix", n 3), ("k", .arr [n 100, n 100])]), ("sa",
  .obj [("a", n 0), ("ix", n 5), ("k", n 0)]), ("sk", .obj [("a", n 0), ("ix", n 4), ("k", n 0)]), ("ty", .str
  "tr")]]

/-- A value in `examples/assets/google_fonts/Tiger.json`. -/
def tiger138 : Json F :=
  .arr [.obj [("hd", .bool false), ("ind", n 0), ("ix", n 1), ("ks", .obj [("a", n 0), ("ix", n 2), ("k", .obj
  [("c", .bool true), ("i", .arr [.arr [x r (-14659) 3, x r 12568 3], .arr [x r 1038 2, x r (-8771) 3], .arr
  [x r 1702 3, x r (-20279) 3], .arr [x r 1376 3, x r (-17257) 3], .arr [x r 1619 3, x r (-378) 3], .arr [x r
  1789 3, x r 5354 3], .arr [n 0, n 0], .arr [x r 16726 3, x r (-1227) 3], .arr [x r 16226 3, x r 38261 3],
  .arr [x r 5242 3, x r 18916 3]]), ("o", .arr [.arr [x r 41335 3, x r (-35155) 3], .arr [x r (-17912) 3, x r
  15136 3], .arr [x r (-51) 1, x r 60764 3], .arr [x r 5462 3, x r 23009 3], .arr [x r (-8597) 3, x r 2187 3],
  .arr [x r (-1825) 3, x r (-5283) 3], .arr [n 0, n 0], .arr [x r (-16726) 3, x r 1227 3], .arr [x r (-9337)
  3, x r (-22015) 3], .arr [x r (-6239) 3, x r (-22514) 3]]), ("v", .arr [.arr [x r 18612 3, x r (-66272) 3],
  .arr [x r 95529 3, x r (-48252) 3], .arr [x r 69194 3, x r 7715 3], .arr [x r 123341 3, x r 76654 3], .arr
  [x r 115071 3, x r 126833 3], .arr [x r 93977 3, x r 10488 2], .arr [x r 84131 3, x r 76507 3], .arr [x r
  73776 3, x r 111251 3], .arr [x r 27093 3, x r 58774 3], .arr [x r (-32958) 3, x r 2189 3]])])]), ("mn",
  .str "ADBE Vector Shape - Group"), ("nm", .str "Path 1"), ("ty", .str "sh")], .obj [("bm", n 0), ("c", .obj
  [("a", n 0), ("ix", n 4), ("k", .arr [x r 991999966491 12, x r 929000016755 12, x r 8 1, n 1])]), ("hd",
  .bool false), ("mn", .str "ADBE Vector Graphic - Fill"), ("nm", .str "Fill 1"), ("o", .obj [("a", n 0),
  ("ix", n 5), ("k", n 100)]), ("r", n 1), ("ty", .str "fl")], .obj [("a", .obj [("a", n 0), ("ix", n 1),
  ("k", .arr [n 0, n 0])]), ("nm", .str "Transform"), ("o", .obj [("a", n 0), ("ix", n 7), ("k", n 100)]),
  ("p", .obj [("a", n 0), ("ix", n 2), ("k", .arr [x r 102609 3, x r 292047 3])]), ("r", .obj [("a", n 0),
  ("ix", n 6), ("k", n 0)]), ("s", .obj [("a", n 0), ("ix", n 3), ("k", .arr [n 100, n 100])]), ("sa", .obj
  [("a", n 0), ("ix", n 5), ("k", n 0)]), ("sk", .obj [("a", n 0), ("ix", n 4), ("k", n 0)]), ("ty", .str
  "tr")]]

/-- A value in `examples/assets/google_fonts/Tiger.json`. -/
def tiger139 : Json F :=
  .obj [("hd", .bool false), ("ind", n 0), ("ix", n 1), ("ks", .obj [("a", n 1), ("ix", n 2), ("k", .arr [.obj
  [("i", .obj [("x", x r 833 3), ("y", x r 833 3)]), ("o", .obj [("x", x r 167 3), ("y", x r 167 3)]), ("s",
  .arr [.obj [("c", .bool true), ("i", .arr [.arr [x r (-62928) 3, x r (-71443) 3], .arr [x r (-451) 3, x r
  (-9986) 3], .arr [x r (-6748) 3, x r 2995 3], .arr [x r 19769 3, x r 7983 2], .arr [x r 5871 2, x r 12014
  3]]), ("o", .arr [.arr [x r 31995 3, x r 36325 3], .arr [x r 191 3, x r 4217 3], .arr [x r 6748 3, x r
  (-2995) 3], .arr [x r (-17231) 3, x r (-7017) 2], .arr [x r (-86087) 3, x r (-17616) 3]]), ("v", .arr [.arr
  [x r (-238007) 3, x r 6799 3], .arr [x r (-110757) 3, x r 89304 3], .arr [x r (-20323) 3, x r 98967 3], .arr
  [x r 31869 3, x r (-65936) 3], .arr [x r (-94073) 3, x r (-15312) 2]])]]), ("t", n 250)], .obj [("s", .arr
  [.obj [("c", .bool true), ("i", .arr [.arr [x r (-62928) 3, x r (-71443) 3], .arr [x r (-451) 3, x r (-9986)
  3], .arr [x r (-6748) 3, x r 2995 3], .arr [x r 6286 3, x r 3579 3], .arr [x r 2671 2, x r 20014 3]]), ("o",
  .arr [.arr [x r 31995 3, x r 36325 3], .arr [x r 191 3, x r 4217 3], .arr [x r 6748 3, x r (-2995) 3], .arr
  [x r (-9754) 3, x r 542 3], .arr [x r (-70321) 3, x r (-52691) 3]]), ("v", .arr [.arr [x r (-238007) 3, x r
  6799 3], .arr [x r (-110757) 3, x r 89304 3], .arr [x r (-3467) 3, x r 160097 3], .arr [x r (-27131) 3, x r
  (-210936) 3], .arr [x r (-92073) 3, x r (-22912) 2]])]]), ("t", n 254)]])]), ("mn", .str
  "ADBE Vector Shape - Group"), ("nm", .str "Path 1"), ("ty", .str "sh")]

/-- A value in `examples/assets/google_fonts/Tiger.json`. -/
def tiger140 : Json F :=
  .obj [("ao", n 0), ("bm", n 0), ("ddd", n 0), ("ind", n 7), ("ip", n 250), ("ks", .obj [("a", .obj [("a", n
  0), ("ix", n 1), ("k", .arr [x r 338022 3, x r 305632 3, n 0]), ("l", n 2)]), ("o", .obj [("a", n 0), ("ix",
  n 11), ("k", n 100)]), ("p", .obj [("a", n 1), ("ix", n 2), ("k", .arr [.obj [("i", .obj [("x", x r 833 3),
  ("y", x r 833 3)]), ("o", .obj [("x", x r 167 3), ("y", x r 167 3)]), ("s", .arr [x r 468362 3, x r 738106
  3, n 0]), ("t", n 250), ("ti", .arr [n 0, n 0, n 0]), ("to", .arr [n 0, n 0, n 0])], .obj [("s", .arr [x r
  495362 3, x r 672106 3, n 0]), ("t", n 254)]]), ("l", n 2)]), ("r", .obj [("a", n 1), ("ix", n 10), ("k",
  .arr [.obj [("i", .obj [("x", .arr [x r 833 3]), ("y", .arr [x r 833 3])]), ("o", .obj [("x", .arr [x r 167
  3]), ("y", .arr [x r 167 3])]), ("s", .arr [x r (-22538) 3]), ("t", n 250)], .obj [("s", .arr [n 0]), ("t",
  n 254)]])]), ("s", .obj [("a", n 0), ("ix", n 6), ("k", .arr [n 100, n 100, n 100]), ("l", n 2)])]), ("nm",
  .str "body transi"), ("op", n 254), ("shapes", .arr [.obj [("bm", n 0), ("cix", n 2), ("hd", .bool false),
  ("it", tiger136 r), ("ix", n 1), ("mn", .str "ADBE Vector Group"), ("nm", .str "Group 9"), ("np", n 2),
  ("ty", .str "gr")], .obj [("bm", n 0), ("cix", n 2), ("hd", .bool false), ("it", tiger137 r), ("ix", n 2),
  ("mn", .str "ADBE Vector Group"), ("nm", .str "Group 10"), ("np", n 2), ("ty", .str "gr")], .obj [("bm", n
  0), ("cix", n 2), ("hd", .bool false), ("it", tiger138 r), ("ix", n 3), ("mn", .str "ADBE Vector Group"),
  ("nm", .str "Group 11"), ("np", n 2), ("ty", .str "gr")], .obj [("bm", n 0), ("cix", n 2), ("hd", .bool
  false), ("it", .arr [tiger139 r, .obj [("bm", n 0), ("c", .obj [("a", n 0), ("ix", n 4), ("k", .arr [n 1, x
  r 588000009574 12, x r 75 3, n 1])]), ("hd", .bool false), ("mn", .str "ADBE Vector Graphic - Fill"), ("nm",
  .str "Fill 1"), ("o", .obj [("a", n 0), ("ix", n 5), ("k", n 100)]), ("r", n 1), ("ty", .str "fl")], .obj
  [("a", .obj [("a", n 0), ("ix", n 1), ("k", .arr [n 0, n 0])]), ("nm", .str "Transform"), ("o", .obj [("a",
  n 0), ("ix", n 7), ("k", n 100)]), ("p", .obj [("a", n 0), ("ix", n 2), ("k", .arr [x r 338022 3, x r 305631
  3])]), ("r", .obj [("a", n 0), ("ix", n 6), ("k", n 0)]), ("s", .obj [("a", n 0), ("ix", n 3), ("k", .arr [n
  100, n 100])]), ("sa", .obj [("a", n 0), ("ix", n 5), ("k", n 0)]), ("sk", .obj [("a", n 0), ("ix", n 4),
  ("k", n 0)]), ("ty", .str "tr")]]), ("ix", n 4), ("mn", .str "ADBE Vector Group"), ("nm", .str "Group 18"),
  ("np", n 2), ("ty", .str "gr")]]), ("sr", n 1), ("st", n 254), ("ty", n 4)]

/-- A value in `examples/assets/google_fonts/Tiger.json`. -/
def tiger141 : Json F :=
  .arr [.obj [("i", .obj [("x", x r 3 1), ("y", n 1)]), ("o", .obj [("x", x r 167 3), ("y", x r 167 3)]),
  ("s", .arr [.obj [("c", .bool true), ("i", .arr [.arr [x r (-14659) 3, x r 12568 3], .arr [x r 1038 2, x r
  (-8771) 3], .arr [x r 1702 3, x r (-20279) 3], .arr [x r 1376 3, x r (-17257) 3], .arr [x r 1619 3, x r
  (-378) 3], .arr [x r 1789 3, x r 5354 3], .arr [n 0, n 0], .arr [x r 16726 3, x r (-1227) 3], .arr [x r
  16226 3, x r 38261 3], .arr [x r 5242 3, x r 18916 3]]), ("o", .arr [.arr [x r 41335 3, x r (-35155) 3],
  .arr [x r (-17912) 3, x r 15136 3], .arr [x r (-51) 1, x r 60764 3], .arr [x r 5462 3, x r 23009 3], .arr [x
  r (-8597) 3, x r 2187 3], .arr [x r (-1825) 3, x r (-5283) 3], .arr [n 0, n 0], .arr [x r (-16726) 3, x r
  1227 3], .arr [x r (-9337) 3, x r (-22015) 3], .arr [x r (-6239) 3, x r (-22514) 3]]), ("v", .arr [.arr [x r
  18612 3, x r (-66272) 3], .arr [x r 95529 3, x r (-48252) 3], .arr [x r 69194 3, x r 7715 3], .arr [x r
  123341 3, x r 76654 3], .arr [x r 115071 3, x r 126833 3], .arr [x r 93977 3, x r 10488 2], .arr [x r 84131
  3, x r 76507 3], .arr [x r 73776 3, x r 111251 3], .arr [x r 27093 3, x r 58774 3], .arr [x r (-32958) 3, x
  r 2189 3]])]]), ("t", n 254)], .obj [("i", .obj [("x", x r 667 3), ("y", n 1)]), ("o", .obj [("x", x r 7 1),
  ("y", n 0)]), ("s", .arr [.obj [("c", .bool true), ("i", .arr [.arr [x r (-16217) 3, x r 10481 3], .arr [x r
  11465 3, x r (-7295) 3], .arr [x r 4414 3, x r (-19866) 3], .arr [x r (-593) 2, x r (-16264) 3], .arr [x r
  1315 3, x r (-1017) 3], .arr [x r 3855 3, x r 4124 3], .arr [n 0, n 0], .arr [x r 5436 3, x r (-1187) 3],
  .arr [x r 10932 3, x r 40096 3], .arr [x r 265 2, x r 1945 2]]), ("o", .arr [.arr [x r 45689 3, x r (-29275)
  3], .arr [x r (-19786) 3, x r 12589 3], .arr [x r (-13227) 3, x r 59526 3], .arr [x r 14543 3, x r 18649 3],
  .arr [x r (-6907) 3, x r 5566 3], .arr [x r (-3858) 3, x r (-4044) 3], .arr [n 0, n 0], .arr [x r (-15817)
  3, x r 3453 3], .arr [x r (-629) 2, x r (-23071) 3], .arr [x r (-3154) 3, x r (-23149) 3]]), ("v", .arr
  [.arr [x r 2771 2, x r (-135373) 3], .arr [x r 101504 3, x r (-107169) 3], .arr [x r 6788 2, x r (-55254)
  3], .arr [x r 94008 3, x r 4683 2], .arr [x r 98247 3, x r 87977 3], .arr [x r 6993 2, x r 76794 3], .arr [x
  r 53331 3, x r 64186 3], .arr [x r 54367 3, x r 86526 3], .arr [x r (-9882) 3, x r 3882 3], .arr [x r (-326)
  1, x r (-74471) 3]])]]), ("t", n 260)], .obj [("i", .obj [("x", x r 667 3), ("y", n 1)]), ("o", .obj [("x",
  x r 333 3), ("y", n 0)]), ("s", .arr [.obj [("c", .bool true), ("i", .arr [.arr [x r (-14919) 3, x r 12258
  3], .arr [x r 10564 3, x r (-8548) 3], .arr [x r 2097 3, x r (-20242) 3], .arr [x r (-7742) 3, x r (-15484)
  3], .arr [x r 1291 3, x r (-1048) 3], .arr [x r 3951 3, x r 4032 3], .arr [n 0, n 0], .arr [x r 5564 3, n
  0], .arr [x r 10403 3, x r 21532 3], .arr [x r 13561 3, x r 19026 3]]), ("o", .arr [.arr [x r 42062 3, x r
  (-34282) 3], .arr [x r (-18225) 3, x r 14758 3], .arr [x r (-637) 2, x r 60644 3], .arr [x r 5484 3, x r
  11129 3], .arr [x r (-6774) 3, x r 5727 3], .arr [x r (-3952) 3, x r (-3952) 3], .arr [n 0, n 0], .arr [x r
  (-758) 2, n 0], .arr [x r (-10403) 3, x r (-21532) 3], .arr [x r (-13561) 3, x r (-19024) 3]]), ("v", .arr
  [.arr [x r (-10268) 3, x r (-7243) 2], .arr [x r 66256 3, x r (-52803) 3], .arr [x r 38756 3, x r 26 1],
  .arr [x r 60127 3, x r 74243 3], .arr [x r 65529 3, x r 116984 3], .arr [x r 3166 2, x r 97841 3], .arr [x r
  14886 3, x r 80259 3], .arr [x r 8515 3, x r 94615 3], .arr [x r (-29792) 3, x r 52357 3], .arr [x r
  (-63259) 3, x r (-5063) 3]])]]), ("t", n 272)], .obj [("s", .arr [.obj [("c", .bool true), ("i", .arr [.arr
  [x r (-14919) 3, x r 12258 3], .arr [x r 10564 3, x r (-8548) 3], .arr [x r 2097 3, x r (-20242) 3], .arr [x
  r (-7742) 3, x r (-15484) 3], .arr [x r 1291 3, x r (-1048) 3], .arr [x r 3951 3, x r 4032 3], .arr [n 0, n
  0], .arr [x r 5564 3, n 0], .arr [x r 10403 3, x r 21532 3], .arr [x r 13561 3, x r 19026 3]]), ("o", .arr
  [.arr [x r 42062 3, x r (-34282) 3], .arr [x r (-18225) 3, x r 14758 3], .arr [x r (-637) 2, x r 60644 3],
  .arr [x r 5484 3, x r 11129 3], .arr [x r (-6774) 3, x r 5727 3], .arr [x r (-3952) 3, x r (-3952) 3], .arr
  [n 0, n 0], .arr [x r (-758) 2, n 0], .arr [x r (-10403) 3, x r (-21532) 3], .arr [x r (-13561) 3, x r
  (-19024) 3]]), ("v", .arr [.arr [x r (-10268) 3, x r (-8243) 2], .arr [x r 66256 3, x r (-62803) 3], .arr [x
  r 38756 3, x r (-74) 1], .arr [x r 60127 3, x r 68243 3], .arr [x r 65529 3, x r 110984 3], .arr [x r 3166
  2, x r 87841 3], .arr [x r 14886 3, x r 70259 3], .arr [x r 8515 3, x r 84615 3], .arr [x r (-29792) 3, x r
  42357 3], .arr [x r (-63259) 3, x r (-15063) 3]])]]), ("t", n 288)]]

/-- A value in `examples/assets/google_fonts/Tiger.json`. -/
def tiger142 : Json F :=
  .arr [.obj [("i", .obj [("x", x r 667 3), ("y", n 1)]), ("o", .obj [("x", x r 7 1), ("y", n 0)]), ("s", .arr
  [.obj [("c", .bool true), ("i", .arr [.arr [x r (-323) 3, x r (-14354) 3], .arr [x r (-11935) 3, x r 807 3],
  .arr [x r 645 3, x r 5565 3], .arr [x r 742 2, x r 1693 3]]), ("o", .arr [.arr [x r 403 3, x r 16371 3],
  .arr [x r 11936 3, x r (-806) 3], .arr [x r (-121) 2, x r (-10403) 3], .arr [x r (-11935) 3, x r (-2822)
  3]]), ("v", .arr [.arr [x r (-12717) 3, x r 8 3], .arr [x r 5104 3, x r 24927 3], .arr [x r 5911 3, x r 1379
  3], .arr [x r 712 2, x r (-24911) 3]])]]), ("t", n 260)], .obj [("i", .obj [("x", x r 667 3), ("y", n 1)]),
  ("o", .obj [("x", x r 333 3), ("y", n 0)]), ("s", .arr [.obj [("c", .bool true), ("i", .arr [.arr [x r
  (-323) 3, x r (-14354) 3], .arr [x r (-11935) 3, x r 807 3], .arr [x r 645 3, x r 5565 3], .arr [x r 742 2,
  x r 1693 3]]), ("o", .arr [.arr [x r 403 3, x r 16371 3], .arr [x r 11936 3, x r (-806) 3], .arr [x r (-121)
  2, x r (-10403) 3], .arr [x r (-11935) 3, x r (-2822) 3]]), ("v", .arr [.arr [x r (-14717) 3, x r 1008 3],
  .arr [x r 3104 3, x r 25927 3], .arr [x r 3911 3, x r 2379 3], .arr [x r 512 2, x r (-23911) 3]])]]), ("t",
  n 272)], .obj [("s", .arr [.obj [("c", .bool true), ("i", .arr [.arr [x r (-323) 3, x r (-14354) 3], .arr [x
  r (-11935) 3, x r 807 3], .arr [x r 645 3, x r 5565 3], .arr [x r 742 2, x r 1693 3]]), ("o", .arr [.arr [x
  r 403 3, x r 16371 3], .arr [x r 11936 3, x r (-806) 3], .arr [x r (-121) 2, x r (-10403) 3], .arr [x r
  (-11935) 3, x r (-2822) 3]]), ("v", .arr [.arr [x r (-14717) 3, x r 1008 3], .arr [x r 3104 3, x r 25927 3],
  .arr [x r 3911 3, x r 2379 3], .arr [x r 512 2, x r (-23911) 3]])]]), ("t", n 288)]]

/-- A value in `examples/assets/google_fonts/Tiger.json`. -/
def tiger143 : Json F :=
  .obj [("c", .bool true), ("i", .arr [.arr [x r 6012 3, x r (-6179) 3], .arr [x r (-25896) 3, x r 19464 3],
  .arr [x r (-18654) 3, x r 1759 2], .arr [x r (-3135) 3, x r 208 3], .arr [x r (-47776) 3, x r 23452 3], .arr
  [n 0, n 0], .arr [x r (-13184) 3, x r (-25219) 3], .arr [x r (-649) 3, x r (-3146) 3], .arr [x r 2581 3, x r
  (-6855) 3], .arr [x r (-968) 3, x r (-30806) 3], .arr [x r (-13951) 3, x r (-1613) 3], .arr [x r 879 2, x r
  5242 3], .arr [x r (-323) 3, x r 28951 3], .arr [x r (-121) 2, x r 7177 3], .arr [x r 8493 3, x r 15282 3],
  .arr [x r 5785 3, x r 14303 3], .arr [x r 3239 3, x r 3617 3], .arr [x r 3193 2, x r (-4379) 3], .arr [x r
  17304 3, x r (-7366) 3], .arr [x r 8536 3, x r (-7771) 3], .arr [x r 21009 3, x r (-11872) 3]]), ("o", .arr
  [.arr [x r (-4512) 3, x r 4638 3], .arr [x r 25896 3, x r (-19464) 3], .arr [x r 18713 3, x r (-17645) 3],
  .arr [x r 3243 3, x r (-215) 3], .arr [x r 22469 3, x r 9375 3], .arr [n 0, n 0], .arr [x r 13184 3, x r
  25218 3], .arr [x r 10128 3, x r 16365 3], .arr [x r (-564) 3, x r 1613 3], .arr [x r 806 3, x r 27096 3],
  .arr [x r 13952 3, x r 1612 3], .arr [x r (-879) 2, x r (-5161) 3], .arr [x r 403 3, x r (-37984) 3], .arr
  [x r 121 2, x r (-7178) 3], .arr [x r (-1492) 3, x r (-2685) 3], .arr [x r (-10148) 3, x r (-25227) 3], .arr
  [x r (-3239) 3, x r (-3617) 3], .arr [x r (-22522) 3, x r 3052 3], .arr [x r (-5528) 3, x r 2333 3], .arr [x
  r (-14068) 3, x r 12807 3], .arr [x r (-17737) 3, x r 10149 3]]), ("v", .arr [.arr [x r (-230303) 3, x r
  99902 3], .arr [x r (-174444) 3, x r 96949 3], .arr [x r (-93724) 3, x r 37333 3], .arr [x r (-40813) 3, x r
  (-12443) 3], .arr [x r 39652 3, x r (-99934) 3], .arr [x r 70085 3, x r (-94029) 3], .arr [x r 80679 3, x r
  (-39472) 3], .arr [x r 108613 3, x r 3573 3], .arr [x r 12328 2, x r 27895 3], .arr [x r 104797 3, x r 74556
  3], .arr [x r 143102 3, x r 11512 2], .arr [x r 154151 3, x r 111007 3], .arr [x r 122458 3, x r 73346 3],
  .arr [x r 140457 3, x r 27492 3], .arr [x r 125248 3, x r 3156 3], .arr [x r 98802 3, x r (-47303) 3], .arr
  [x r 90814 3, x r (-122499) 3], .arr [x r 38393 3, x r (-128562) 3], .arr [x r (-53842) 3, x r (-24531) 3],
  .arr [x r (-131618) 3, x r 43581 3], .arr [x r (-185948) 3, x r 87509 3]])]

/-- A value in `examples/assets/google_fonts/Tiger.json`. -/
def tiger144 : Json F :=
  .obj [("c", .bool true), ("i", .arr [.arr [x r 778 3, x r (-8586) 3], .arr [x r (-7856) 3, x r 31428 3],
  .arr [x r (-3412) 3, x r 25411 3], .arr [x r (-2764) 3, x r 1494 3], .arr [x r (-50496) 3, x r 16812 3],
  .arr [n 0, n 0], .arr [x r (-13184) 3, x r (-25219) 3], .arr [x r (-649) 3, x r (-3146) 3], .arr [x r 2581
  3, x r (-6855) 3], .arr [x r (-968) 3, x r (-30806) 3], .arr [x r (-13951) 3, x r (-1613) 3], .arr [x r 879
  2, x r 5242 3], .arr [x r (-323) 3, x r 28951 3], .arr [x r (-121) 2, x r 7177 3], .arr [x r 8493 3, x r
  15282 3], .arr [x r 5785 3, x r 14303 3], .arr [x r 3239 3, x r 3617 3], .arr [x r 32229 3, x r (-44) 3],
  .arr [x r 12669 3, x r (-13899) 3], .arr [x r 1736 3, x r (-11412) 3], .arr [x r 8842 3, x r (-22453) 3]]),
  ("o", .arr [.arr [x r (-584) 3, x r 6444 3], .arr [x r 7856 3, x r (-31428) 3], .arr [x r 3422 3, x r
  (-25492) 3], .arr [x r 2859 3, x r (-1545) 3], .arr [x r 21004 3, x r 12312 3], .arr [n 0, n 0], .arr [x r
  13184 3, x r 25218 3], .arr [x r 10128 3, x r 16365 3], .arr [x r (-564) 3, x r 1613 3], .arr [x r 806 3, x
  r 27096 3], .arr [x r 13952 3, x r 1612 3], .arr [x r (-879) 2, x r (-5161) 3], .arr [x r 403 3, x r
  (-37984) 3], .arr [x r 121 2, x r (-7178) 3], .arr [x r (-1492) 3, x r (-2685) 3], .arr [x r (-10148) 3, x r
  (-25227) 3], .arr [x r (-3238) 3, x r (-3617) 3], .arr [x r (-22728) 3, x r (-5) 3], .arr [x r (-4056) 3, x
  r 4422 3], .arr [x r (-2861) 3, x r 18808 3], .arr [x r (-7386) 3, x r 19054 3]]), ("v", .arr [.arr [x r
  (-123145) 3, x r 100303 3], .arr [x r (-81616) 3, x r 6283 2], .arr [x r (-58798) 3, x r (-54178) 3], .arr
  [x r (-47408) 3, x r (-106899) 3], .arr [x r 22237 3, x r (-110374) 3], .arr [x r 70085 3, x r (-94029) 3],
  .arr [x r 80679 3, x r (-39471) 3], .arr [x r 108613 3, x r 3573 3], .arr [x r 12328 2, x r 27895 3], .arr
  [x r 104797 3, x r 74556 3], .arr [x r 143102 3, x r 11512 2], .arr [x r 154151 3, x r 111007 3], .arr [x r
  122458 3, x r 73346 3], .arr [x r 140457 3, x r 27492 3], .arr [x r 125248 3, x r 3156 3], .arr [x r 98802
  3, x r (-47303) 3], .arr [x r 90813 3, x r (-122499) 3], .arr [x r 2484 2, x r (-138911) 3], .arr [x r
  (-64286) 3, x r (-112468) 3], .arr [x r (-81961) 3, x r (-5597) 3], .arr [x r (-96497) 3, x r 62742 3]])]

/-- A value in `examples/assets/google_fonts/Tiger.json`. -/
def tiger145 : Json F :=
  .obj [("c", .bool true), ("i", .arr [.arr [x r 5108 3, x r (-6925) 3], .arr [x r (-23038) 3, x r 2271 2],
  .arr [x r (-3256) 3, x r 2543 2], .arr [x r (-2758) 3, x r 1504 3], .arr [x r (-49065) 3, x r 13734 3], .arr
  [n 0, n 0], .arr [x r (-14964) 3, x r (-23925) 3], .arr [x r (-883) 3, x r (-306) 2], .arr [x r 2581 3, x r
  (-6855) 3], .arr [x r (-968) 3, x r (-30806) 3], .arr [x r (-13951) 3, x r (-1613) 3], .arr [x r 879 2, x r
  5242 3], .arr [x r (-323) 3, x r 28951 3], .arr [x r (-121) 2, x r 7177 3], .arr [x r 6568 3, x r 1199 2],
  .arr [x r 6813 3, x r 13698 3], .arr [x r 3342 3, x r 3514 3], .arr [x r 32173 3, x r (-1013) 3], .arr [x r
  12582 3, x r (-13977) 3], .arr [x r 1661 3, x r (-11423) 3], .arr [x r 1926 2, x r (-14525) 3]]), ("o", .arr
  [.arr [x r (-3833) 3, x r 5197 3], .arr [x r 23038 3, x r (-2271) 2], .arr [x r 3264 3, x r (-25511) 3],
  .arr [x r 2849 3, x r (-1563) 3], .arr [x r 25938 3, x r 7844 3], .arr [n 0, n 0], .arr [x r 14964 3, x r
  23925 3], .arr [x r 7878 3, x r 12787 3], .arr [x r (-564) 3, x r 1613 3], .arr [x r 806 3, x r 27096 3],
  .arr [x r 13952 3, x r 1612 3], .arr [x r (-879) 2, x r (-5161) 3], .arr [x r 403 3, x r (-37984) 3], .arr
  [x r 121 2, x r (-7178) 3], .arr [x r (-1417) 3, x r (-2721) 3], .arr [x r (-11963) 3, x r (-24166) 3], .arr
  [x r (-3342) 3, x r (-3513) 3], .arr [x r (-22689) 3, x r 678 3], .arr [x r (-4028) 3, x r 4447 3], .arr [x
  r (-2744) 3, x r 18824 3], .arr [x r (-16242) 3, x r 12388 3]]), ("v", .arr [.arr [x r (-169092) 3, x r
  103181 3], .arr [x r (-113725) 3, x r 93028 3], .arr [x r (-68745) 3, x r (-49185) 3], .arr [x r (-55412) 3,
  x r (-98289) 3], .arr [x r 15988 3, x r (-104319) 3], .arr [x r 70882 3, x r (-96832) 3], .arr [x r 84474 3,
  x r (-44041) 3], .arr [x r 115766 3, x r (-2355) 3], .arr [x r 126451 3, x r 25649 3], .arr [x r 104797 3, x
  r 74556 3], .arr [x r 143102 3, x r 11512 2], .arr [x r 154151 3, x r 111007 3], .arr [x r 122458 3, x r
  73346 3], .arr [x r 143628 3, x r 25246 3], .arr [x r 131798 3, x r (-5304) 3], .arr [x r 101792 3, x r
  (-5317) 2], .arr [x r 91696 3, x r (-119356) 3], .arr [x r 17328 3, x r (-130579) 3], .arr [x r (-73009) 3,
  x r (-104794) 3], .arr [x r (-91076) 3, x r (-463) 3], .arr [x r (-126587) 3, x r 85122 3]])]

/-- A value in `examples/assets/google_fonts/Tiger.json`. -/
def tiger146 : Json F :=
  .obj [("c", .bool true), ("i", .arr [.arr [x r 2016 3, x r (-8387) 3], .arr [x r (-12742) 3, x r 29919 3],
  .arr [x r (-2822) 3, x r 25483 3], .arr [x r (-2742) 3, x r 1533 3], .arr [x r (-4508) 2, x r 5161 3], .arr
  [n 0, n 0], .arr [x r (-1992) 2, x r (-20323) 3], .arr [x r (-1532) 3, x r (-2823) 3], .arr [x r 2581 3, x r
  (-6855) 3], .arr [x r (-968) 3, x r (-30806) 3], .arr [x r (-13951) 3, x r (-1613) 3], .arr [x r 879 2, x r
  5242 3], .arr [x r (-323) 3, x r 28951 3], .arr [x r (-121) 2, x r 7177 3], .arr [x r 1209 3, x r 2822 3],
  .arr [x r 9677 3, x r 12016 3], .arr [x r 3628 3, x r 3227 3], .arr [x r 32015 3, x r (-371) 2], .arr [x r
  12339 3, x r (-14193) 3], .arr [x r 1452 3, x r (-11452) 3], .arr [x r 125 1, x r (-20886) 3]]), ("o", .arr
  [.arr [x r (-1532) 3, x r 629 2], .arr [x r 12741 3, x r (-29919) 3], .arr [x r 2823 3, x r (-25565) 3],
  .arr [x r 2822 3, x r (-1612) 3], .arr [x r 39677 3, x r (-4597) 3], .arr [n 0, n 0], .arr [x r 19919 3, x r
  20323 3], .arr [x r 1613 3, x r 2822 3], .arr [x r (-564) 3, x r 1613 3], .arr [x r 806 3, x r 27096 3],
  .arr [x r 13952 3, x r 1612 3], .arr [x r (-879) 2, x r (-5161) 3], .arr [x r 403 3, x r (-37984) 3], .arr
  [x r 121 2, x r (-7178) 3], .arr [x r (-121) 2, x r (-2823) 3], .arr [x r (-17016) 3, x r (-2121) 2], .arr
  [x r (-3629) 3, x r (-3225) 3], .arr [x r (-22581) 3, x r 258 2], .arr [x r (-3951) 3, x r 4516 3], .arr [x
  r (-2419) 3, x r 1887 2], .arr [x r (-10484) 3, x r 17742 3]]), ("v", .arr [.arr [x r (-16141) 2, x r 117539
  3], .arr [x r (-112378) 3, x r 86733 3], .arr [x r (-96443) 3, x r (-35281) 3], .arr [x r (-77701) 3, x r
  (-74314) 3], .arr [x r (-1412) 3, x r (-87458) 3], .arr [x r 73104 3, x r (-104636) 3], .arr [x r 95039 3, x
  r (-56765) 3], .arr [x r 135683 3, x r (-18862) 3], .arr [x r 13528 2, x r 19395 3], .arr [x r 104797 3, x r
  74556 3], .arr [x r 143102 3, x r 11512 2], .arr [x r 154151 3, x r 111007 3], .arr [x r 122458 3, x r 73346
  3], .arr [x r 152457 3, x r 18992 3], .arr [x r 150038 3, x r (-28862) 3], .arr [x r 110119 3, x r (-69507)
  3], .arr [x r 94152 3, x r (-110604) 3], .arr [x r (-3589) 3, x r (-107377) 3], .arr [x r (-97298) 3, x r
  (-83426) 3], .arr [x r (-116459) 3, x r 13831 3], .arr [x r (-128023) 3, x r 84394 3]])]

/-- A value in `examples/assets/google_fonts/Tiger.json`. -/
def tiger147 : Json F :=
  .obj [("c", .bool true), ("i", .arr [.arr [x r 2016 3, x r (-8387) 3], .arr [x r (-12742) 3, x r 29919 3],
  .arr [x r (-2822) 3, x r 25483 3], .arr [x r (-2742) 3, x r 1533 3], .arr [x r (-4508) 2, x r 5161 3], .arr
  [n 0, n 0], .arr [x r (-1992) 2, x r (-20323) 3], .arr [x r (-1532) 3, x r (-2823) 3], .arr [x r 2581 3, x r
  (-6855) 3], .arr [x r (-968) 3, x r (-30806) 3], .arr [x r (-13951) 3, x r (-1613) 3], .arr [x r 879 2, x r
  5242 3], .arr [x r (-323) 3, x r 28951 3], .arr [x r (-121) 2, x r 7177 3], .arr [x r 1209 3, x r 2822 3],
  .arr [x r 9677 3, x r 12016 3], .arr [x r 3628 3, x r 3227 3], .arr [x r 32015 3, x r (-371) 2], .arr [x r
  12339 3, x r (-14193) 3], .arr [x r 1452 3, x r (-11452) 3], .arr [x r 125 1, x r (-20886) 3]]), ("o", .arr
  [.arr [x r (-1532) 3, x r 629 2], .arr [x r 12741 3, x r (-29919) 3], .arr [x r 2823 3, x r (-25565) 3],
  .arr [x r 2822 3, x r (-1612) 3], .arr [x r 39677 3, x r (-4597) 3], .arr [n 0, n 0], .arr [x r 19919 3, x r
  20323 3], .arr [x r 1613 3, x r 2822 3], .arr [x r (-564) 3, x r 1613 3], .arr [x r 806 3, x r 27096 3],
  .arr [x r 13952 3, x r 1612 3], .arr [x r (-879) 2, x r (-5161) 3], .arr [x r 403 3, x r (-37984) 3], .arr
  [x r 121 2, x r (-7178) 3], .arr [x r (-121) 2, x r (-2823) 3], .arr [x r (-17016) 3, x r (-2121) 2], .arr
  [x r (-3629) 3, x r (-3225) 3], .arr [x r (-22581) 3, x r 258 2], .arr [x r (-3951) 3, x r 4516 3], .arr [x
  r (-2419) 3, x r 1887 2], .arr [x r (-10484) 3, x r 17742 3]]), ("v", .arr [.arr [x r (-16141) 2, x r 117539
  3], .arr [x r (-112378) 3, x r 86733 3], .arr [x r (-90443) 3, x r (-35281) 3], .arr [x r (-77701) 3, x r
  (-84314) 3], .arr [x r (-1412) 3, x r (-97458) 3], .arr [x r 73104 3, x r (-104636) 3], .arr [x r 95039 3, x
  r (-60765) 3], .arr [x r 135683 3, x r (-22862) 3], .arr [x r 13528 2, x r 19395 3], .arr [x r 104797 3, x r
  74556 3], .arr [x r 143102 3, x r 11512 2], .arr [x r 154151 3, x r 111007 3], .arr [x r 122458 3, x r 73346
  3], .arr [x r 152457 3, x r 18992 3], .arr [x r 150038 3, x r (-32862) 3], .arr [x r 110119 3, x r (-73507)
  3], .arr [x r 94152 3, x r (-120604) 3], .arr [x r (-3589) 3, x r (-117377) 3], .arr [x r (-97298) 3, x r
  (-93426) 3], .arr [x r (-112459) 3, x r 13831 3], .arr [x r (-128023) 3, x r 84394 3]])]

/-- A value in `examples/assets/google_fonts/Tiger.json`. -/
def tiger148 : Json F :=
  .arr [.obj [("hd", .bool false), ("ind", n 0), ("ix", n 1), ("ks", .obj [("a", n 1), ("ix", n 2), ("k", .arr
  [.obj [("i", .obj [("x", x r 3 1), ("y", n 1)]), ("o", .obj [("x", x r 167 3), ("y", x r 167 3)]), ("s",
  .arr [tiger143 r]), ("t", n 254)], .obj [("i", .obj [("x", x r 833 3), ("y", x r 833 3)]), ("o", .obj [("x",
  x r 7 1), ("y", n 0)]), ("s", .arr [tiger144 r]), ("t", n 260)], .obj [("i", .obj [("x", x r 667 3), ("y", n
  1)]), ("o", .obj [("x", x r 167 3), ("y", x r 167 3)]), ("s", .arr [tiger145 r]), ("t", n 266)], .obj [("i",
  .obj [("x", x r 667 3), ("y", n 1)]), ("o", .obj [("x", x r 333 3), ("y", n 0)]), ("s", .arr [tiger146 r]),
  ("t", n 272)], .obj [("s", .arr [tiger147 r]), ("t", n 288)]])]), ("mn", .str "ADBE Vector Shape - Group"),
  ("nm", .str "Path 1"), ("ty", .str "sh")], .obj [("bm", n 0), ("c", .obj [("a", n 0), ("ix", n 4), ("k",
  .arr [x r 732999973671 12, x r 365000017952 12, x r 258999992819 12, n 1])]), ("hd", .bool false), ("mn",
  .str "ADBE Vector Graphic - Fill"), ("nm", .str "Fill 1"), ("o", .obj [("a", n 0), ("ix", n 5), ("k", n
  100)]), ("r", n 1), ("ty", .str "fl")], .obj [("a", .obj [("a", n 0), ("ix", n 1), ("k", .arr [n 0, n 0])]),
  ("nm", .str "Transform"), ("o", .obj [("a", n 0), ("ix", n 7), ("k", n 100)]), ("p", .obj [("a", n 0),
  ("ix", n 2), ("k", .arr [x r 380919 3, x r 482587 3])]), ("r", .obj [("a", n 0), ("ix", n 6), ("k", n 0)]),
  ("s", .obj [("a", n 0), ("ix", n 3), ("k", .arr [n 100, n 100])]), ("sa", .obj [("a", n 0), ("ix", n 5),
  ("k", n 0)]), ("sk", .obj [("a", n 0), ("ix", n 4), ("k", n 0)]), ("ty", .str "tr")]]

/-- A value in `examples/assets/google_fonts/Tiger.json`. -/
def tiger149 : Json F :=
  .arr [.obj [("i", .obj [("x", x r 3 1), ("y", n 1)]), ("o", .obj [("x", x r 167 3), ("y", x r 167 3)]),
  ("s", .arr [.obj [("c", .bool true), ("i", .arr [.arr [x r 7411 3, x r 10052 3], .arr [x r 8853 3, x r
  (-2101) 2], .arr [x r (-7971) 3, x r (-797) 3], .arr [x r (-689) 3, x r 6299 3]]), ("o", .arr [.arr [x r
  (-3686) 3, m (-5)], .arr [x r (-712) 2, x r 17017 3], .arr [x r 442 2, x r 442 3], .arr [x r 1153 3, x r
  (-10538) 3]]), ("v", .arr [.arr [x r (-30339) 3, x r (-63512) 3], .arr [x r (-53669) 3, x r (-47246) 3],
  .arr [x r (-45573) 3, x r (-16538) 3], .arr [x r (-39947) 3, x r (-39683) 3]])]]), ("t", n 254)], .obj
  [("i", .obj [("x", x r 833 3), ("y", x r 833 3)]), ("o", .obj [("x", x r 7 1), ("y", n 0)]), ("s", .arr
  [.obj [("c", .bool true), ("i", .arr [.arr [x r 12087 3, x r 3141 3], .arr [x r (-6355) 3, x r (-21895) 3],
  .arr [x r (-6693) 3, x r 4401 3], .arr [x r 3432 3, x r 5327 3]]), ("o", .arr [.arr [x r (-6012) 3, x r
  (-1562) 3], .arr [x r 5187 3, x r 17703 3], .arr [x r 3711 3, x r (-2441) 3], .arr [x r (-5741) 3, x r
  (-8912) 3]]), ("v", .arr [.arr [x r 386 1, x r (-28701) 3], .arr [x r 30723 3, x r (-1374) 3], .arr [x r
  5635 2, x r 1738 2], .arr [x r 46144 3, x r (-414) 2]])]]), ("t", n 260)], .obj [("i", .obj [("x", x r 667
  3), ("y", n 1)]), ("o", .obj [("x", x r 167 3), ("y", x r 167 3)]), ("s", .arr [.obj [("c", .bool true),
  ("i", .arr [.arr [x r 8433 3, x r 9323 3], .arr [x r 6676 3, x r (-21612) 3], .arr [x r (-8039) 3, x r (-93)
  3], .arr [x r (-4) 2, x r 6306 3]]), ("o", .arr [.arr [x r (-4193) 3, x r (-4636) 3], .arr [x r (-5357) 3, x
  r 17501 3], .arr [x r 4457 3, x r 51 3], .arr [x r 67 3, x r (-10553) 3]]), ("v", .arr [.arr [x r 21035 3, x
  r (-56653) 3], .arr [x r (-58) 2, x r (-3848) 2], .arr [x r 1066 2, x r (-8732) 3], .arr [x r 13895 3, x r
  (-32179) 3]])]]), ("t", n 266)], .obj [("i", .obj [("x", x r 667 3), ("y", n 1)]), ("o", .obj [("x", x r 333
  3), ("y", n 0)]), ("s", .arr [.obj [("c", .bool true), ("i", .arr [.arr [x r 11371 3, x r 6613 3], .arr [x r
  161 3, x r (-22822) 3], .arr [x r (-8145) 3, x r 2178 3], .arr [x r 1855 3, x r 6128 3]]), ("o", .arr [.arr
  [x r (-5645) 3, x r (-3307) 3], .arr [x r (-81) 3, x r 18467 3], .arr [x r 4516 3, x r (-1209) 3], .arr [x r
  (-3145) 3, x r (-10242) 3]]), ("v", .arr [.arr [x r 25 1, x r (-24112) 3], .arr [x r (-1379) 2, x r (-402)
  3], .arr [x r 6613 3, x r 25242 3], .arr [x r 2742 3, x r 1614 3]])]]), ("t", n 272)], .obj [("s", .arr
  [.obj [("c", .bool true), ("i", .arr [.arr [x r 11371 3, x r 6613 3], .arr [x r 161 3, x r (-22822) 3], .arr
  [x r (-8145) 3, x r 2178 3], .arr [x r 1855 3, x r 6128 3]]), ("o", .arr [.arr [x r (-5645) 3, x r (-3307)
  3], .arr [x r (-81) 3, x r 18467 3], .arr [x r 4516 3, x r (-1209) 3], .arr [x r (-3145) 3, x r (-10242)
  3]]), ("v", .arr [.arr [x r 25 1, x r (-24112) 3], .arr [x r (-1379) 2, x r (-402) 3], .arr [x r 6613 3, x r
  25242 3], .arr [x r 2742 3, x r 1614 3]])]]), ("t", n 288)]]

/-- A value in `examples/assets/google_fonts/Tiger.json`. -/
def tiger150 : Json F :=
  .arr [.obj [("i", .obj [("x", x r 3 1), ("y", n 1)]), ("o", .obj [("x", x r 167 3), ("y", x r 167 3)]),
  ("s", .arr [.obj [("c", .bool true), ("i", .arr [.arr [x r 11817 3, x r 6207 3], .arr [x r 8475 3, x r
  (-18474) 3], .arr [x r (-6245) 3, x r (-3583) 3], .arr [x r (-3094) 3, x r 6486 3]]), ("o", .arr [.arr [x r
  (-7618) 3, x r (-4037) 3], .arr [x r (-75) 1, x r 16349 3], .arr [x r 9855 3, x r 5782 3], .arr [x r 5293 3,
  x r (-10813) 3]]), ("v", .arr [.arr [x r (-38586) 3, x r (-52273) 3], .arr [x r (-61286) 3, x r (-34549) 3],
  .arr [x r (-59852) 3, x r (-5423) 3], .arr [x r (-45939) 3, x r (-24356) 3]])]]), ("t", n 254)], .obj [("i",
  .obj [("x", x r 833 3), ("y", x r 833 3)]), ("o", .obj [("x", x r 7 1), ("y", n 0)]), ("s", .arr [.obj
  [("c", .bool true), ("i", .arr [.arr [x r 13088 3, x r (-262) 2], .arr [x r (-5052) 3, x r (-19688) 3], .arr
  [x r (-7107) 3, x r 115 2], .arr [x r 1682 3, x r 6987 3]]), ("o", .arr [.arr [x r (-846) 2, x r 1662 3],
  .arr [x r 4471 3, x r 17423 3], .arr [x r 11297 3, x r (-1716) 3], .arr [x r (-2698) 3, x r (-11733) 3]]),
  ("v", .arr [.arr [x r 34214 3, x r (-42113) 3], .arr [x r 27744 3, x r (-1405) 2], .arr [x r 47201 3, x r
  7671 3], .arr [x r 46084 3, x r (-15797) 3]])]]), ("t", n 260)], .obj [("i", .obj [("x", x r 667 3), ("y", n
  1)]), ("o", .obj [("x", x r 167 3), ("y", x r 167 3)]), ("s", .arr [.obj [("c", .bool true), ("i", .arr
  [.arr [x r 12434 3, x r 5123 3], .arr [x r 656 2, x r (-19065) 3], .arr [x r (-6602) 3, x r (-3007) 3], .arr
  [x r (-2421) 3, x r 6704 3]]), ("o", .arr [.arr [x r (-802) 2, x r (-3337) 3], .arr [x r (-5805) 3, x r
  16872 3], .arr [x r 10432 3, x r 4872 3], .arr [x r 4172 3, x r (-11187) 3]]), ("v", .arr [.arr [x r 14558
  3, x r (-48434) 3], .arr [x r (-6279) 3, x r (-28869) 3], .arr [x r (-1851) 3, x r (-107) 3], .arr [x r
  10089 3, x r (-20102) 3]])]]), ("t", n 266)], .obj [("i", .obj [("x", x r 667 3), ("y", n 1)]), ("o", .obj
  [("x", x r 333 3), ("y", n 0)]), ("s", .arr [.obj [("c", .bool true), ("i", .arr [.arr [x r 14113 3, x r
  1451 3], .arr [x r 807 3, x r (-20322) 3], .arr [x r (-7581) 3, x r (-1049) 3], .arr [x r (-404) 3, x r 7178
  3]]), ("o", .arr [.arr [x r (-9113) 3, x r (-968) 3], .arr [x r (-725) 3, x r 17984 3], .arr [x r 12016 3, x
  r 1774 3], .arr [x r 806 3, x r (-12016) 3]]), ("v", .arr [.arr [x r 847 3, x r (-26129) 3], .arr [x r
  (-14235) 3, x r (-1291) 3], .arr [x r (-1008) 3, x r 25322 3], .arr [x r 4959 3, x r 258 2]])]]), ("t", n
  272)], .obj [("s", .arr [.obj [("c", .bool true), ("i", .arr [.arr [x r 14113 3, x r 1451 3], .arr [x r 807
  3, x r (-20322) 3], .arr [x r (-7581) 3, x r (-1049) 3], .arr [x r (-404) 3, x r 7178 3]]), ("o", .arr [.arr
  [x r (-9113) 3, x r (-968) 3], .arr [x r (-725) 3, x r 17984 3], .arr [x r 12016 3, x r 1774 3], .arr [x r
  806 3, x r (-12016) 3]]), ("v", .arr [.arr [x r 847 3, x r (-26129) 3], .arr [x r (-14235) 3, x r (-1291)
  3], .arr [x r (-1008) 3, x r 25322 3], .arr [x r 4959 3, x r 258 2]])]]), ("t", n 288)]]

/-- A value in `examples/assets/google_fonts/Tiger.json`. -/
def tiger151 : Json F :=
  .obj [("c", .bool true), ("i", .arr [.arr [x r (-62928) 3, x r (-71443) 3], .arr [x r (-451) 3, x r (-9986)
  3], .arr [x r 18343 3, x r (-22935) 3], .arr [n 0, n 0], .arr [x r 16129 3, x r (-10184) 3], .arr [x r
  (-24177) 3, x r (-16865) 3], .arr [x r (-13243) 3, x r (-1347) 3], .arr [x r (-28355) 3, x r 27229 3], .arr
  [x r (-6748) 3, x r 2995 3], .arr [n 0, n 0], .arr [n 0, n 0], .arr [n 0, n 0], .arr [n 0, n 0], .arr [n 0,
  n 0], .arr [n 0, n 0], .arr [x r (-11936) 3, x r (-24758) 3], .arr [x r (-29676) 3, x r 483 3], .arr [x r
  (-328) 3, x r 16334 3], .arr [x r (-557) 3, x r 26271 3], .arr [x r (-5718) 3, x r 56321 3], .arr [x r 35159
  3, x r 46593 3], .arr [x r 74208 3, x r 2021 2], .arr [x r 6286 3, x r 3579 3], .arr [x r 2671 2, x r 20014
  3]]), ("o", .arr [.arr [x r 31995 3, x r 36325 3], .arr [x r 191 3, x r 4217 3], .arr [x r (-25045) 3, x r
  31315 3], .arr [n 0, n 0], .arr [x r (-25188) 3, x r 15793 3], .arr [x r 26473 3, x r 18467 3], .arr [x r
  13313 3, x r 1354 3], .arr [x r 28297 3, x r (-27173) 3], .arr [x r 6748 3, x r (-2995) 3], .arr [n 0, n 0],
  .arr [n 0, n 0], .arr [n 0, n 0], .arr [n 0, n 0], .arr [n 0, n 0], .arr [n 0, n 0], .arr [x r 12016 3, x r
  24758 3], .arr [x r 52096 3, x r (-888) 3], .arr [x r 321 3, x r (-15965) 3], .arr [x r 557 3, x r (-26272)
  3], .arr [x r 8068 3, x r (-7947) 2], .arr [x r (-32152) 3, x r (-42607) 3], .arr [x r (-87315) 3, x r
  (-23779) 3], .arr [x r (-9754) 3, x r 542 3], .arr [x r (-70321) 3, x r (-52691) 3]]), ("v", .arr [.arr [x r
  (-238007) 3, x r 6799 3], .arr [x r (-110757) 3, x r 89304 3], .arr [x r (-136792) 3, x r 127362 3], .arr [x
  r (-189586) 3, x r 182135 3], .arr [x r (-218456) 3, x r 197141 3], .arr [x r (-225446) 3, x r 258956 3],
  .arr [x r (-170359) 3, x r 28245 2], .arr [x r (-9667) 2, x r 236854 3], .arr [x r (-3467) 3, x r 160097 3],
  .arr [x r 77628 3, x r 58471 3], .arr [x r 124299 3, x r 54043 3], .arr [x r 126127 3, x r 122079 3], .arr
  [x r 158505 3, x r 18023 2], .arr [x r 174967 3, x r 200981 3], .arr [x r 163258 3, x r 218367 3], .arr [x r
  165355 3, x r 272802 3], .arr [x r 235676 3, x r 292238 3], .arr [x r 279466 3, x r 224561 3], .arr [x r
  27008 2, x r 176166 3], .arr [x r 33157 2, x r 11864 3], .arr [x r 304289 3, x r (-129498) 3], .arr [x r
  15193 2, x r (-226816) 3], .arr [x r (-27131) 3, x r (-210936) 3], .arr [x r (-92073) 3, x r (-22912) 2]])]

/-- A value in `examples/assets/google_fonts/Tiger.json`. -/
def tiger152 : Json F :=
  .obj [("c", .bool true), ("i", .arr [.arr [x r (-52745) 3, x r (-79259) 3], .arr [x r (-4566) 3, x r (-8892)
  3], .arr [x r (-196) 3, x r (-29368) 3], .arr [n 0, n 0], .arr [x r 6114 3, x r (-18068) 3], .arr [x r
  (-29401) 3, x r 2126 3], .arr [x r (-11135) 3, x r 7295 3], .arr [x r (-4876) 3, x r 39009 3], .arr [x r
  (-4889) 3, x r 5532 3], .arr [n 0, n 0], .arr [n 0, n 0], .arr [n 0, n 0], .arr [n 0, n 0], .arr [n 0, n 0],
  .arr [n 0, n 0], .arr [x r (-11936) 3, x r (-24758) 3], .arr [x r (-29676) 3, x r 483 3], .arr [x r (-328)
  3, x r 16334 3], .arr [x r (-557) 3, x r 26271 3], .arr [x r (-5718) 3, x r 56321 3], .arr [x r 35159 3, x r
  46593 3], .arr [x r 74208 3, x r 2021 2], .arr [x r 5748 3, x r 4392 3], .arr [x r 27383 3, x r 13582 3]]),
  ("o", .arr [.arr [x r 26818 3, x r 40298 3], .arr [x r 1928 3, x r 3755 3], .arr [x r 268 3, x r 40098 3],
  .arr [n 0, n 0], .arr [x r (-9619) 3, x r 28131 3], .arr [x r 32193 3, x r (-2328) 3], .arr [x r 11194 3, x
  r (-7333) 3], .arr [x r 4866 3, x r (-38928) 3], .arr [x r 4889 3, x r (-5532) 3], .arr [n 0, n 0], .arr [n
  0, n 0], .arr [n 0, n 0], .arr [n 0, n 0], .arr [n 0, n 0], .arr [n 0, n 0], .arr [x r 12016 3, x r 24758
  3], .arr [x r 52096 3, x r (-888) 3], .arr [x r 321 3, x r (-15965) 3], .arr [x r 557 3, x r (-26272) 3],
  .arr [x r 8068 3, x r (-7947) 2], .arr [x r (-32152) 3, x r (-42608) 3], .arr [x r (-87315) 3, x r (-23779)
  3], .arr [x r (-9738) 3, x r (-775) 3], .arr [x r (-7872) 2, x r (-39046) 3]]), ("v", .arr [.arr [x r
  (-240372) 3, x r (-65942) 3], .arr [x r (-138416) 3, x r 48632 3], .arr [x r (-137422) 3, x r 109397 3],
  .arr [x r (-141598) 3, x r 205054 3], .arr [x r (-154572) 3, x r 234893 3], .arr [x r (-12107) 2, x r 28731
  2], .arr [x r (-63484) 3, x r 270866 3], .arr [x r (-34962) 3, x r 18904 2], .arr [x r (-11396) 3, x r 68352
  3], .arr [x r 62753 3, x r 47538 3], .arr [x r 124299 3, x r 54043 3], .arr [x r 126127 3, x r 122079 3],
  .arr [x r 158505 3, x r 18023 2], .arr [x r 174967 3, x r 200981 3], .arr [x r 163258 3, x r 218367 3], .arr
  [x r 165355 3, x r 272802 3], .arr [x r 235676 3, x r 292238 3], .arr [x r 279466 3, x r 224561 3], .arr [x
  r 27008 2, x r 176166 3], .arr [x r 33157 2, x r 11864 3], .arr [x r 304289 3, x r (-134498) 3], .arr [x r
  15193 2, x r (-236816) 3], .arr [x r (-2124) 3, x r (-253331) 3], .arr [x r (-60745) 3, x r (-261688) 3]])]

/-- A value in `examples/assets/google_fonts/Tiger.json`. -/
def tiger153 : Json F :=
  .obj [("c", .bool true), ("i", .arr [.arr [x r (-55037) 3, x r (-77537) 3], .arr [x r (-4617) 3, x r (-8865)
  3], .arr [x r (-379) 3, x r (-29364) 3], .arr [n 0, n 0], .arr [x r 15053 3, x r (-11512) 3], .arr [x r
  (-25868) 3, x r (-14611) 3], .arr [x r (-13426) 3, x r 371 3], .arr [x r (-9274) 3, x r 38201 3], .arr [x r
  (-4855) 3, x r 5562 3], .arr [n 0, n 0], .arr [n 0, n 0], .arr [n 0, n 0], .arr [n 0, n 0], .arr [n 0, n 0],
  .arr [n 0, n 0], .arr [x r (-11936) 3, x r (-24758) 3], .arr [x r (-29676) 3, x r 483 3], .arr [x r (-242)
  3, x r 16237 3], .arr [x r (-4256) 3, x r 25478 3], .arr [x r (-6721) 3, x r 56185 3], .arr [x r 34712 3, x
  r 46918 3], .arr [x r 787 1, x r 16681 3], .arr [x r 587 2, x r 4212 3], .arr [x r 2393 2, x r 13985 3]]),
  ("o", .arr [.arr [x r 27983 3, x r 39423 3], .arr [x r 1952 3, x r 3743 3], .arr [x r 516 3, x r 40093 3],
  .arr [n 0, n 0], .arr [x r (-23519) 3, x r 17867 3], .arr [x r 28325 3, x r 15999 3], .arr [x r 13495 3, x r
  (-372) 3], .arr [x r 9844 3, x r (-40551) 3], .arr [x r 4855 3, x r (-5561) 3], .arr [n 0, n 0], .arr [n 0,
  n 0], .arr [n 0, n 0], .arr [n 0, n 0], .arr [n 0, n 0], .arr [n 0, n 0], .arr [x r 12016 3, x r 24758 3],
  .arr [x r 52096 3, x r (-888) 3], .arr [x r 236 3, x r (-15966) 3], .arr [x r 3699 3, x r (-24015) 3], .arr
  [x r 845 2, x r (-73217) 3], .arr [x r (-32521) 3, x r (-44007) 3], .arr [x r (-88088) 3, x r (-19286) 3],
  .arr [x r (-8785) 3, x r (-155) 2], .arr [x r (-7389) 2, x r (-45582) 3]]), ("v", .arr [.arr [x r (-24988)
  2, x r (-6034) 2], .arr [x r (-147221) 3, x r 56306 3], .arr [x r (-147435) 3, x r 115475 3], .arr [x r
  (-145959) 3, x r 187741 3], .arr [x r (-167964) 3, x r 204212 3], .arr [x r (-168582) 3, x r 266131 3], .arr
  [x r (-108354) 3, x r 283499 3], .arr [x r (-47207) 3, x r 217445 3], .arr [x r (-20096) 3, x r 75964 3],
  .arr [x r 55535 3, x r 56004 3], .arr [x r 125047 3, x r 57104 3], .arr [x r 128714 3, x r 117489 3], .arr
  [x r 165173 3, x r 172505 3], .arr [x r 178138 3, x r 198735 3], .arr [x r 163258 3, x r 218367 3], .arr [x
  r 165355 3, x r 272802 3], .arr [x r 235676 3, x r 292238 3], .arr [x r 280127 3, x r 220069 3], .arr [x r
  274073 3, x r 162547 3], .arr [x r 330694 3, x r 1141 2], .arr [x r 304187 3, x r (-137512) 3], .arr [x r
  14331 2, x r (-231844) 3], .arr [x r (-15724) 3, x r (-243356) 3], .arr [x r (-47911) 3, x r (-256681) 3]])]

/-- A value in `examples/assets/google_fonts/Tiger.json`. -/
def tiger154 : Json F :=
  .obj [("c", .bool true), ("i", .arr [.arr [x r (-61418) 3, x r (-72745) 3], .arr [x r (-4758) 3, x r (-8791)
  3], .arr [x r (-888) 3, x r (-29355) 3], .arr [n 0, n 0], .arr [x r 11693 3, x r (-15403) 3], .arr [x r
  (-30564) 3, x r (-6854) 3], .arr [x r (-12742) 3, x r 5565 3], .arr [x r (-3952) 3, x r 39113 3], .arr [x r
  (-4758) 3, x r 5645 3], .arr [n 0, n 0], .arr [n 0, n 0], .arr [n 0, n 0], .arr [n 0, n 0], .arr [n 0, n 0],
  .arr [n 0, n 0], .arr [x r (-11936) 3, x r (-24758) 3], .arr [x r (-29676) 3, x r 483 3], .arr [n 0, x r
  15968 3], .arr [x r (-14555) 3, x r 23269 3], .arr [x r (-9516) 3, x r 55805 3], .arr [x r 33468 3, x r
  47822 3], .arr [x r 91209 3, x r 6855 3], .arr [x r 621 2, x r 371 2], .arr [x r 14317 3, x r 15108 3]]),
  ("o", .arr [.arr [x r 31228 3, x r 36986 3], .arr [x r 2016 3, x r 3709 3], .arr [x r 1209 3, x r 4008 2],
  .arr [n 0, n 0], .arr [x r (-18306) 3, x r 23951 3], .arr [x r 33468 3, x r 75 1], .arr [x r 12822 3, x r
  (-5564) 3], .arr [x r 3951 3, x r (-39032) 3], .arr [x r 4758 3, x r (-5645) 3], .arr [n 0, n 0], .arr [n 0,
  n 0], .arr [n 0, n 0], .arr [n 0, n 0], .arr [n 0, n 0], .arr [n 0, n 0], .arr [x r 12016 3, x r 24758 3],
  .arr [x r 52096 3, x r (-888) 3], .arr [n 0, x r (-15968) 3], .arr [x r 12445 3, x r (-17731) 3], .arr [x r
  9516 3, x r (-55806) 3], .arr [x r (-33547) 3, x r (-47903) 3], .arr [x r (-90241) 3, x r (-6774) 3], .arr
  [x r (-6129) 3, x r (-3709) 3], .arr [x r (-60443) 3, x r (-63781) 3]]), ("v", .arr [.arr [x r (-276354) 3,
  x r (-44741) 3], .arr [x r (-171738) 3, x r 77676 3], .arr [x r (-175318) 3, x r 1324 1], .arr [x r
  (-166012) 3, x r 216754 3], .arr [x r (-189076) 3, x r 237722 3], .arr [x r (-170851) 3, x r 297881 3], .arr
  [x r (-99964) 3, x r 290705 3], .arr [x r (-65045) 3, x r 208367 3], .arr [x r (-4432) 2, x r 97159 3], .arr
  [x r 35437 3, x r 79578 3], .arr [x r 127129 3, x r 65627 3], .arr [x r 135919 3, x r 104706 3], .arr [x r
  183742 3, x r 150996 3], .arr [x r 186967 3, x r 192481 3], .arr [x r 163258 3, x r 218367 3], .arr [x r
  165355 3, x r 272802 3], .arr [x r 235676 3, x r 292238 3], .arr [x r 281966 3, x r 207561 3], .arr [x r
  285192 3, x r 124626 3], .arr [x r 328256 3, x r 10144 3], .arr [x r 303901 3, x r (-145902) 3], .arr [x r
  119307 3, x r (-217998) 3], .arr [x r (-53594) 3, x r (-215579) 3], .arr [x r (-84648) 3, x r (-2326) 1]])]

/-- A value in `examples/assets/google_fonts/Tiger.json`. -/
def tiger155 : Json F :=
  .obj [("c", .bool true), ("i", .arr [.arr [x r (-61418) 3, x r (-72745) 3], .arr [x r (-4758) 3, x r (-8791)
  3], .arr [x r (-888) 3, x r (-29355) 3], .arr [n 0, n 0], .arr [x r 11693 3, x r (-15403) 3], .arr [x r
  (-30564) 3, x r (-6854) 3], .arr [x r (-12742) 3, x r 5565 3], .arr [x r (-3952) 3, x r 39113 3], .arr [x r
  (-4758) 3, x r 5645 3], .arr [n 0, n 0], .arr [n 0, n 0], .arr [n 0, n 0], .arr [n 0, n 0], .arr [n 0, n 0],
  .arr [n 0, n 0], .arr [x r (-11936) 3, x r (-24758) 3], .arr [x r (-29676) 3, x r 483 3], .arr [n 0, x r
  15968 3], .arr [x r (-3226) 3, x r 879 2], .arr [x r (-9516) 3, x r 55805 3], .arr [x r 33468 3, x r 47822
  3], .arr [x r 91209 3, x r 6855 3], .arr [x r 621 2, x r 371 2], .arr [x r 14317 3, x r 15108 3]]), ("o",
  .arr [.arr [x r 31228 3, x r 36986 3], .arr [x r 2016 3, x r 3709 3], .arr [x r 1209 3, x r 4008 2], .arr [n
  0, n 0], .arr [x r (-18306) 3, x r 23951 3], .arr [x r 33468 3, x r 75 1], .arr [x r 12822 3, x r (-5564)
  3], .arr [x r 3951 3, x r (-39032) 3], .arr [x r 4758 3, x r (-5645) 3], .arr [n 0, n 0], .arr [n 0, n 0],
  .arr [n 0, n 0], .arr [n 0, n 0], .arr [n 0, n 0], .arr [n 0, n 0], .arr [x r 12016 3, x r 24758 3], .arr [x
  r 52096 3, x r (-888) 3], .arr [n 0, x r (-15968) 3], .arr [x r 3145 3, x r (-879) 2], .arr [x r 9516 3, x r
  (-55806) 3], .arr [x r (-33547) 3, x r (-47903) 3], .arr [x r (-90241) 3, x r (-6774) 3], .arr [x r (-6129)
  3, x r (-3709) 3], .arr [x r (-60443) 3, x r (-63781) 3]]), ("v", .arr [.arr [x r (-276354) 3, x r (-54741)
  3], .arr [x r (-171738) 3, x r 71676 3], .arr [x r (-169318) 3, x r 132401 3], .arr [x r (-166012) 3, x r
  216754 3], .arr [x r (-189076) 3, x r 237722 3], .arr [x r (-170851) 3, x r 297881 3], .arr [x r (-99964) 3,
  x r 290705 3], .arr [x r (-65045) 3, x r 208367 3], .arr [x r (-4432) 2, x r 87159 3], .arr [x r 35437 3, x
  r 69578 3], .arr [x r 127129 3, x r 65627 3], .arr [x r 135919 3, x r 100707 3], .arr [x r 183742 3, x r
  146997 3], .arr [x r 186967 3, x r 192481 3], .arr [x r 163258 3, x r 218367 3], .arr [x r 165355 3, x r
  272802 3], .arr [x r 235676 3, x r 292238 3], .arr [x r 281966 3, x r 207561 3], .arr [x r 285192 3, x r
  120626 3], .arr [x r 328256 3, x r 144 3], .arr [x r 303901 3, x r (-155902) 3], .arr [x r 119307 3, x r
  (-227998) 3], .arr [x r (-53594) 3, x r (-225579) 3], .arr [x r (-70648) 3, x r (-2416) 1]])]

/-- A value in `examples/assets/google_fonts/Tiger.json`. -/
def tiger156 : Json F :=
  .arr [.obj [("hd", .bool false), ("ind", n 0), ("ix", n 1), ("ks", .obj [("a", n 1), ("ix", n 2), ("k", .arr
  [.obj [("i", .obj [("x", x r 3 1), ("y", n 1)]), ("o", .obj [("x", x r 167 3), ("y", x r 167 3)]), ("s",
  .arr [tiger151 r]), ("t", n 254)], .obj [("i", .obj [("x", x r 833 3), ("y", x r 833 3)]), ("o", .obj [("x",
  x r 7 1), ("y", n 0)]), ("s", .arr [tiger152 r]), ("t", n 260)], .obj [("i", .obj [("x", x r 667 3), ("y", n
  1)]), ("o", .obj [("x", x r 167 3), ("y", x r 167 3)]), ("s", .arr [tiger153 r]), ("t", n 266)], .obj [("i",
  .obj [("x", x r 667 3), ("y", n 1)]), ("o", .obj [("x", x r 333 3), ("y", n 0)]), ("s", .arr [tiger154 r]),
  ("t", n 272)], .obj [("s", .arr [tiger155 r]), ("t", n 288)]])]), ("mn", .str "ADBE Vector Shape - Group"),
  ("nm", .str "Path 1"), ("ty", .str "sh")], .obj [("bm", n 0), ("c", .obj [("a", n 0), ("ix", n 4), ("k",
  .arr [n 1, x r 588000009574 12, x r 75 3, n 1])]), ("hd", .bool false), ("mn", .str
  "ADBE Vector Graphic - Fill"), ("nm", .str "Fill 1"), ("o", .obj [("a", n 0), ("ix", n 5), ("k", n 100)]),
  ("r", n 1), ("ty", .str "fl")], .obj [("a", .obj [("a", n 0), ("ix", n 1), ("k", .arr [n 0, n 0])]), ("nm",
  .str "Transform"), ("o", .obj [("a", n 0), ("ix", n 7), ("k", n 100)]), ("p", .obj [("a", n 0), ("ix", n 2),
  ("k", .arr [x r 338022 3, x r 305631 3])]), ("r", .obj [("a", n 0), ("ix", n 6), ("k", n 0)]), ("s", .obj
  [("a", n 0), ("ix", n 3), ("k", .arr [n 100, n 100])]), ("sa", .obj [("a", n 0), ("ix", n 5), ("k", n 0)]),
  ("sk", .obj [("a", n 0), ("ix", n 4), ("k", n 0)]), ("ty", .str "tr")]]

/-- A value in `examples/assets/google_fonts/Tiger.json`. -/
def tiger157 : Json F :=
  .arr [.obj [("bm", n 0), ("cix", n 2), ("hd", .bool false), ("it", .arr [.obj [("hd", .bool false), ("ind",
  n 0), ("ix", n 1), ("ks", .obj [("a", n 1), ("ix", n 2), ("k", tiger141 r)]), ("mn", .str
  "ADBE Vector Shape - Group"), ("nm", .str "Path 1"), ("ty", .str "sh")], .obj [("bm", n 0), ("c", .obj
  [("a", n 0), ("ix", n 4), ("k", .arr [x r 991999966491 12, x r 929000016755 12, x r 8 1, n 1])]), ("hd",
  .bool false), ("mn", .str "ADBE Vector Graphic - Fill"), ("nm", .str "Fill 1"), ("o", .obj [("a", n 0),
  ("ix", n 5), ("k", n 100)]), ("r", n 1), ("ty", .str "fl")], .obj [("a", .obj [("a", n 0), ("ix", n 1),
  ("k", .arr [n 0, n 0])]), ("nm", .str "Transform"), ("o", .obj [("a", n 0), ("ix", n 7), ("k", n 100)]),
  ("p", .obj [("a", n 0), ("ix", n 2), ("k", .arr [x r 102609 3, x r 292047 3])]), ("r", .obj [("a", n 0),
  ("ix", n 6), ("k", n 0)]), ("s", .obj [("a", n 0), ("ix", n 3), ("k", .arr [n 100, n 100])]), ("sa", .obj
  [("a", n 0), ("ix", n 5), ("k", n 0)]), ("sk", .obj [("a", n 0), ("ix", n 4), ("k", n 0)]), ("ty", .str
  "tr")]]), ("ix", n 11), ("mn", .str "ADBE Vector Group"), ("nm", .str "Group 11"), ("np", n 2), ("ty", .str
  "gr")], .obj [("bm", n 0), ("cix", n 2), ("hd", .bool false), ("it", .arr [.obj [("hd", .bool false),
  ("ind", n 0), ("ix", n 1), ("ks", .obj [("a", n 1), ("ix", n 2), ("k", tiger142 r)]), ("mn", .str
  "ADBE Vector Shape - Group"), ("nm", .str "Path 1"), ("ty", .str "sh")], .obj [("bm", n 0), ("c", .obj
  [("a", n 0), ("ix", n 4), ("k", .arr [x r 995999983245 12, x r 416000007181 12, x r 122000002394 12, n
  1])]), ("hd", .bool false), ("mn", .str "ADBE Vector Graphic - Fill"), ("nm", .str "Fill 1"), ("o", .obj
  [("a", n 0), ("ix", n 5), ("k", n 100)]), ("r", n 1), ("ty", .str "fl")], .obj [("a", .obj [("a", n 0),
  ("ix", n 1), ("k", .arr [n 0, n 0])]), ("nm", .str "Transform"), ("o", .obj [("a", n 0), ("ix", n 7), ("k",
  n 100)]), ("p", .obj [("a", n 0), ("ix", n 2), ("k", .arr [x r 540513 3, x r 573715 3])]), ("r", .obj [("a",
  n 0), ("ix", n 6), ("k", n 0)]), ("s", .obj [("a", n 0), ("ix", n 3), ("k", .arr [n 100, n 100])]), ("sa",
  .obj [("a", n 0), ("ix", n 5), ("k", n 0)]), ("sk", .obj [("a", n 0), ("ix", n 4), ("k", n 0)]), ("ty", .str
  "tr")]]), ("ix", n 14), ("mn", .str "ADBE Vector Group"), ("nm", .str "Group 14"), ("np", n 2), ("ty", .str
  "gr")], .obj [("bm", n 0), ("cix", n 2), ("hd", .bool false), ("it", tiger148 r), ("ix", n 15), ("mn", .str
  "ADBE Vector Group"), ("nm", .str "Group 15"), ("np", n 2), ("ty", .str "gr")], .obj [("bm", n 0), ("cix", n
  2), ("hd", .bool false), ("it", .arr [.obj [("hd", .bool false), ("ind", n 0), ("ix", n 1), ("ks", .obj
  [("a", n 1), ("ix", n 2), ("k", tiger149 r)]), ("mn", .str "ADBE Vector Shape - Group"), ("nm", .str
  "Path 1"), ("ty", .str "sh")], .obj [("bm", n 0), ("c", .obj [("a", n 0), ("ix", n 4), ("k", .arr [x r
  995999983245 12, x r 416000007181 12, x r 122000002394 12, n 1])]), ("hd", .bool false), ("mn", .str
  "ADBE Vector Graphic - Fill"), ("nm", .str "Fill 1"), ("o", .obj [("a", n 0), ("ix", n 5), ("k", n 100)]),
  ("r", n 1), ("ty", .str "fl")], .obj [("a", .obj [("a", n 0), ("ix", n 1), ("k", .arr [n 0, n 0])]), ("nm",
  .str "Transform"), ("o", .obj [("a", n 0), ("ix", n 7), ("k", n 100)]), ("p", .obj [("a", n 0), ("ix", n 2),
  ("k", .arr [x r 151526 3, x r 574884 3])]), ("r", .obj [("a", n 0), ("ix", n 6), ("k", n 0)]), ("s", .obj
  [("a", n 0), ("ix", n 3), ("k", .arr [n 100, n 100])]), ("sa", .obj [("a", n 0), ("ix", n 5), ("k", n 0)]),
  ("sk", .obj [("a", n 0), ("ix", n 4), ("k", n 0)]), ("ty", .str "tr")]]), ("ix", n 16), ("mn", .str
  "ADBE Vector Group"), ("nm", .str "Group 16"), ("np", n 2), ("ty", .str "gr")], .obj [("bm", n 0), ("cix", n
  2), ("hd", .bool false), ("it", .arr [.obj [("hd", .bool false), ("ind", n 0), ("ix", n 1), ("ks", .obj
  [("a", n 1), ("ix", n 2), ("k", tiger150 r)]), ("mn", .str "ADBE Vector Shape - Group"), ("nm", .str
  "Path 1"), ("ty", .str "sh")], .obj [("bm", n 0), ("c", .obj [("a", n 0), ("ix", n 4), ("k", .arr [x r
  995999983245 12, x r 416000007181 12, x r 122000002394 12, n 1])]), ("hd", .bool false), ("mn", .str
  "ADBE Vector Graphic - Fill"), ("nm", .str "Fill 1"), ("o", .obj [("a", n 0), ("ix", n 5), ("k", n 100)]),
  ("r", n 1), ("ty", .str "fl")], .obj [("a", .obj [("a", n 0), ("ix", n 1), ("k", .arr [n 0, n 0])]), ("nm",
  .str "Transform"), ("o", .obj [("a", n 0), ("ix", n 7), ("k", n 100)]), ("p", .obj [("a", n 0), ("ix", n 2),
  ("k", .arr [x r 192615 3, x r 581417 3])]), ("r", .obj [("a", n 0), ("ix", n 6), ("k", n 0)]), ("s", .obj
  [("a", n 0), ("ix", n 3), ("k", .arr [n 100, n 100])]), ("sa", .obj [("a", n 0), ("ix", n 5), ("k", n 0)]),
  ("sk", .obj [("a", n 0), ("ix", n 4), ("k", n 0)]), ("ty", .str "tr")]]), ("ix", n 17), ("mn", .str
  "ADBE Vector Group"), ("nm", .str "Group 17"), ("np", n 2), ("ty", .str "gr")], .obj [("bm", n 0), ("cix", n
  2), ("hd", .bool false), ("it", tiger156 r), ("ix", n 18), ("mn", .str "ADBE Vector Group"), ("nm", .str
  "Group 18"), ("np", n 2), ("ty", .str "gr")]]

/-- A value in `examples/assets/google_fonts/Tiger.json`. -/
def tiger158 : Json F :=
  .arr [.obj [("i", .obj [("x", x r 3 1), ("y", n 1)]), ("o", .obj [("x", x r 167 3), ("y", x r 167 3)]),
  ("s", .arr [.obj [("c", .bool true), ("i", .arr [.arr [n 0, n 0], .arr [x r (-30917) 3, x r (-3201) 3], .arr
  [x r (-6327) 3, x r (-733) 2], .arr [x r 40421 3, x r 157 3], .arr [n 0, n 0], .arr [x r 3773 3, x r 8976
  3]]), ("o", .arr [.arr [n 0, n 0], .arr [x r 27531 3, x r 285 2], .arr [x r 6353 3, x r 7254 3], .arr [x r
  (-39147) 3, x r (-153) 3], .arr [n 0, n 0], .arr [x r (-5948) 3, x r (-13762) 3]]), ("v", .arr [.arr [x r
  (-83099) 3, x r 10023 3], .arr [x r (-8885) 3, x r 34211 3], .arr [x r 56802 3, x r 14387 3], .arr [x r
  (-1875) 3, x r 67869 3], .arr [x r (-61398) 3, x r 59162 3], .arr [x r (-74837) 3, x r 37573 3]])]]), ("t",
  n 254)], .obj [("i", .obj [("x", x r 667 3), ("y", n 1)]), ("o", .obj [("x", x r 7 1), ("y", n 0)]), ("s",
  .arr [.obj [("c", .bool true), ("i", .arr [.arr [n 0, n 0], .arr [x r (-31078) 3, x r 478 3], .arr [x r
  (-7149) 3, x r (-653) 2], .arr [x r 40156 3, x r (-4624) 3], .arr [n 0, n 0], .arr [x r 3773 3, x r 8976
  3]]), ("o", .arr [.arr [n 0, n 0], .arr [x r 27675 3, x r (-426) 3], .arr [x r 7167 3, x r 6451 3], .arr [x
  r (-38891) 3, x r 4478 3], .arr [n 0, n 0], .arr [x r (-5948) 3, x r (-13762) 3]]), ("v", .arr [.arr [x r
  (-83099) 3, x r 10023 3], .arr [x r (-6579) 3, x r 22679 3], .arr [x r 57426 3, x r 466 2], .arr [x r 5119
  3, x r 53168 3], .arr [x r (-61398) 3, x r 59162 3], .arr [x r (-74837) 3, x r 37573 3]])]]), ("t", n 260)],
  .obj [("i", .obj [("x", x r 667 3), ("y", n 1)]), ("o", .obj [("x", x r 333 3), ("y", n 0)]), ("s", .arr
  [.obj [("c", .bool true), ("i", .arr [.arr [n 0, n 0], .arr [x r (-30242) 3, x r 7178 3], .arr [x r (-8387)
  3, x r (-4839) 3], .arr [x r 38225 3, x r (-13144) 3], .arr [n 0, n 0], .arr [x r 621 2, x r 75 1]]), ("o",
  .arr [.arr [n 0, n 0], .arr [x r 26935 3, x r (-6371) 3], .arr [x r 8387 3, x r 4758 3], .arr [x r (-37016)
  3, x r 12742 3], .arr [n 0, n 0], .arr [x r (-9677) 3, x r (-11451) 3]]), ("v", .arr [.arr [x r (-74192) 3,
  x r 572 3], .arr [x r 7178 3, x r 2104 3], .arr [x r 65806 3, x r (-29266) 3], .arr [x r 25161 3, x r 29362
  3], .arr [x r (-40644) 3, x r 3654 2], .arr [x r (-59757) 3, x r 19766 3]])]]), ("t", n 272)], .obj [("s",
  .arr [.obj [("c", .bool true), ("i", .arr [.arr [n 0, n 0], .arr [x r (-30242) 3, x r 7178 3], .arr [x r
  (-8387) 3, x r (-4839) 3], .arr [x r 38225 3, x r (-13144) 3], .arr [n 0, n 0], .arr [x r 621 2, x r 75
  1]]), ("o", .arr [.arr [n 0, n 0], .arr [x r 26935 3, x r (-6371) 3], .arr [x r 8387 3, x r 4758 3], .arr [x
  r (-37016) 3, x r 12742 3], .arr [n 0, n 0], .arr [x r (-9677) 3, x r (-11451) 3]]), ("v", .arr [.arr [x r
  (-74192) 3, x r (-3428) 3], .arr [x r 7178 3, x r (-1896) 3], .arr [x r 65806 3, x r (-33266) 3], .arr [x r
  25161 3, x r 25362 3], .arr [x r (-40644) 3, x r 3254 2], .arr [x r (-59757) 3, x r 15766 3]])]]), ("t", n
  288)]]

/-- A value in `examples/assets/google_fonts/Tiger.json`. -/
def tiger159 : Json F :=
  .arr [.obj [("i", .obj [("x", x r 3 1), ("y", n 1)]), ("o", .obj [("x", x r 167 3), ("y", x r 167 3)]),
  ("s", .arr [.obj [("c", .bool true), ("i", .arr [.arr [x r (-421) 2, x r (-1317) 2], .arr [x r (-17844) 3, x
  r 12263 3], .arr [x r 1192 2, x r (-1007) 3], .arr [x r 12693 3, x r (-8581) 3]]), ("o", .arr [.arr [x r
  2128 3, x r 6658 3], .arr [x r 34046 3, x r (-23398) 3], .arr [x r (-1192) 2, x r 1007 3], .arr [x r (-126)
  1, x r 8519 3]]), ("v", .arr [.arr [x r (-71282) 3, x r 76613 3], .arr [x r 2321 3, x r 87808 3], .arr [x r
  44497 3, x r 8003 3], .arr [x r (-17203) 3, x r 5436 2]])]]), ("t", n 253)], .obj [("i", .obj [("x", x r 667
  3), ("y", n 1)]), ("o", .obj [("x", x r 7 1), ("y", n 0)]), ("s", .arr [.obj [("c", .bool true), ("i", .arr
  [.arr [x r (-421) 2, x r (-1317) 2], .arr [x r (-17844) 3, x r 12263 3], .arr [x r 1192 2, x r (-1007) 3],
  .arr [x r 12693 3, x r (-8581) 3]]), ("o", .arr [.arr [x r 2128 3, x r 6658 3], .arr [x r 34046 3, x r
  (-23398) 3], .arr [x r (-1192) 2, x r 1007 3], .arr [x r (-126) 1, x r 8519 3]]), ("v", .arr [.arr [x r
  (-67782) 3, x r 75613 3], .arr [x r 6821 3, x r 65808 3], .arr [x r 45497 3, x r (-17997) 3], .arr [x r
  (-14703) 3, x r 3286 2]])]]), ("t", n 260)], .obj [("i", .obj [("x", x r 667 3), ("y", n 1)]), ("o", .obj
  [("x", x r 333 3), ("y", n 0)]), ("s", .arr [.obj [("c", .bool true), ("i", .arr [.arr [x r (-4032) 3, x r
  (-13226) 3], .arr [x r (-18064) 3, x r 11936 3], .arr [x r 11935 3, x r (-807) 3], .arr [x r 12822 3, x r
  (-8387) 3]]), ("o", .arr [.arr [x r 2016 3, x r 6693 3], .arr [x r 34435 3, x r (-22822) 3], .arr [x r
  (-11935) 3, x r 806 3], .arr [x r (-12742) 3, x r 8306 3]]), ("v", .arr [.arr [x r (-6137) 2, x r 47903 3],
  .arr [x r 13387 3, x r 44354 3], .arr [x r 53467 3, x r (-38789) 3], .arr [x r (-758) 2, x r 11049 3]])]]),
  ("t", n 272)], .obj [("s", .arr [.obj [("c", .bool true), ("i", .arr [.arr [x r (-4032) 3, x r (-13226) 3],
  .arr [x r (-18064) 3, x r 11936 3], .arr [x r 11935 3, x r (-807) 3], .arr [x r 12822 3, x r (-8387) 3]]),
  ("o", .arr [.arr [x r 2016 3, x r 6693 3], .arr [x r 34435 3, x r (-22822) 3], .arr [x r (-11935) 3, x r 806
  3], .arr [x r (-12742) 3, x r 8306 3]]), ("v", .arr [.arr [x r (-6137) 2, x r 42903 3], .arr [x r 13387 3, x
  r 34354 3], .arr [x r 53467 3, x r (-48789) 3], .arr [x r (-758) 2, x r 1049 3]])]]), ("t", n 288)]]

/-- A value in `examples/assets/google_fonts/Tiger.json`. -/
def tiger160 : Json F :=
  .arr [.obj [("i", .obj [("x", x r 3 1), ("y", n 1)]), ("o", .obj [("x", x r 167 3), ("y", x r 167 3)]),
  ("s", .arr [.obj [("c", .bool true), ("i", .arr [.arr [n 0, n 0], .arr [x r (-9389) 3, x r 18518 3], .arr [x
  r (-11625) 3, x r (-4157) 3], .arr [x r 9101 3, x r (-16727) 3], .arr [n 0, n 0], .arr [x r 15108 3, x r
  3055 3]]), ("o", .arr [.arr [n 0, n 0], .arr [x r 9389 3, x r (-18518) 3], .arr [x r 11624 3, x r 4157 3],
  .arr [x r (-135) 1, x r 30248 3], .arr [n 0, n 0], .arr [x r (-9532) 3, x r (-1928) 3]]), ("v", .arr [.arr
  [x r (-15992) 3, x r 6249 2], .arr [x r 2207 3, x r 985 2], .arr [x r 32737 3, x r (-35807) 3], .arr [x r
  33596 3, x r 36584 3], .arr [x r 1187 2, x r 67776 3], .arr [x r 3641 3, x r 69301 3]])]]), ("t", n 254)],
  .obj [("i", .obj [("x", x r 667 3), ("y", n 1)]), ("o", .obj [("x", x r 7 1), ("y", n 0)]), ("s", .arr [.obj
  [("c", .bool true), ("i", .arr [.arr [n 0, n 0], .arr [x r (-8389) 3, x r 20018 3], .arr [x r (-11625) 3, x
  r (-4157) 3], .arr [n 8, x r (-21748) 3], .arr [n 0, n 0], .arr [x r 14559 3, x r 506 2]]), ("o", .arr [.arr
  [n 0, n 0], .arr [x r 8389 3, x r (-20018) 3], .arr [x r 11624 3, x r 4157 3], .arr [m (-8), x r 21748 3],
  .arr [n 0, n 0], .arr [x r (-9186) 3, x r (-3192) 3]]), ("v", .arr [.arr [x r (-33501) 3, x r 52382 3], .arr
  [x r 8207 3, x r (-15) 2], .arr [x r 35737 3, x r (-49807) 3], .arr [x r 39596 3, x r 11084 3], .arr [x r
  1187 2, x r 67776 3], .arr [x r (-14963) 3, x r 61772 3]])]]), ("t", n 260)], .obj [("i", .obj [("x", x r
  667 3), ("y", n 1)]), ("o", .obj [("x", x r 333 3), ("y", n 0)]), ("s", .arr [.obj [("c", .bool true), ("i",
  .arr [.arr [n 0, n 0], .arr [x r (-7339) 3, x r 2129 2], .arr [x r (-12339) 3, x r (-404) 3], .arr [x r 3549
  3, x r (-18709) 3], .arr [n 0, n 0], .arr [x r 11774 3, x r (-121) 2]]), ("o", .arr [.arr [n 0, n 0], .arr
  [x r 4597 3, x r (-13225) 3], .arr [x r 12338 3, x r 403 3], .arr [x r (-3628) 3, x r 1871 2], .arr [n 0, n
  0], .arr [x r (-9677) 3, x r 968 3]]), ("v", .arr [.arr [x r (-36814) 3, x r 71693 3], .arr [x r (-2137) 3,
  x r (-1613) 3], .arr [x r 24476 3, x r (-51289) 3], .arr [x r 32459 3, x r (-1452) 3], .arr [x r 14879 3, x
  r 57177 3], .arr [x r (-7863) 3, x r 69274 3]])]]), ("t", n 272)], .obj [("s", .arr [.obj [("c", .bool
  true), ("i", .arr [.arr [n 0, n 0], .arr [x r (-7339) 3, x r 2129 2], .arr [x r (-12339) 3, x r (-404) 3],
  .arr [x r 3549 3, x r (-18709) 3], .arr [n 0, n 0], .arr [x r 11774 3, x r (-121) 2]]), ("o", .arr [.arr [n
  0, n 0], .arr [x r 4597 3, x r (-13225) 3], .arr [x r 12338 3, x r 403 3], .arr [x r (-3628) 3, x r 1871 2],
  .arr [n 0, n 0], .arr [x r (-9677) 3, x r 968 3]]), ("v", .arr [.arr [x r (-36814) 3, x r 61693 3], .arr [x
  r (-2137) 3, x r (-11613) 3], .arr [x r 24476 3, x r (-61289) 3], .arr [x r 32459 3, x r (-11452) 3], .arr
  [x r 14879 3, x r 57177 3], .arr [x r (-7863) 3, x r 59274 3]])]]), ("t", n 288)]]

/-- A value in `examples/assets/google_fonts/Tiger.json`. -/
def tiger161 : Json F :=
  .arr [.obj [("i", .obj [("x", x r 3 1), ("y", n 1)]), ("o", .obj [("x", x r 167 3), ("y", x r 167 3)]),
  ("s", .arr [.obj [("c", .bool true), ("i", .arr [.arr [n 0, n 0], .arr [x r (-1088) 3, x r 28602 3], .arr [x
  r (-13473) 3, x r 3751 3], .arr [x r 5366 3, x r (-39838) 3], .arr [n 0, n 0], .arr [x r 8651 3, x r (-9661)
  3]]), ("o", .arr [.arr [n 0, n 0], .arr [x r 941 3, x r (-2474) 2], .arr [x r 13872 3, x r (-392) 2], .arr
  [x r (-3496) 3, x r 25952 3], .arr [n 0, n 0], .arr [x r (-10557) 3, x r 1179 2]]), ("v", .arr [.arr [x r
  4633 3, x r 123733 3], .arr [x r 19643 3, x r 43641 3], .arr [x r 49019 3, x r (-54108) 3], .arr [x r 58689
  3, x r 23081 3], .arr [x r 46689 3, x r 71527 3], .arr [x r 27612 3, x r 91453 3]])]]), ("t", n 254)], .obj
  [("i", .obj [("x", x r 667 3), ("y", n 1)]), ("o", .obj [("x", x r 7 1), ("y", n 0)]), ("s", .arr [.obj
  [("c", .bool true), ("i", .arr [.arr [n 0, n 0], .arr [x r (-11331) 3, x r 21928 3], .arr [x r (-13856) 3, x
  r 1904 3], .arr [x r 11919 3, x r (-27532) 3], .arr [n 0, n 0], .arr [x r 1296 2, x r (-456) 3]]), ("o",
  .arr [.arr [n 0, n 0], .arr [x r 11366 3, x r (-21995) 3], .arr [x r 14273 3, x r (-2018) 3], .arr [x r
  (-11461) 3, x r 26367 3], .arr [n 0, n 0], .arr [x r (-26569) 3, x r 935 3]]), ("v", .arr [.arr [x r (-5842)
  3, x r 53143 3], .arr [x r 28161 3, x r (-22563) 3], .arr [x r 65166 3, x r (-87928) 3], .arr [x r 67331 3,
  x r (-20838) 3], .arr [x r 45805 3, x r 44808 3], .arr [x r 17168 3, x r 5447 2]])]]), ("t", n 260)], .obj
  [("i", .obj [("x", x r 667 3), ("y", n 1)]), ("o", .obj [("x", x r 333 3), ("y", n 0)]), ("s", .arr [.obj
  [("c", .bool true), ("i", .arr [.arr [n 0, n 0], .arr [x r (-8791) 3, x r 23064 3], .arr [x r (-13549) 3, x
  r 3468 3], .arr [x r 871 2, x r (-28709) 3], .arr [n 0, n 0], .arr [x r 12823 3, x r (-1935) 3]]), ("o",
  .arr [.arr [n 0, n 0], .arr [x r 879 2, x r (-23145) 3], .arr [x r 13951 3, x r (-3629) 3], .arr [x r
  (-8387) 3, x r 275 1], .arr [n 0, n 0], .arr [x r (-2629) 2, x r 3951 3]]), ("v", .arr [.arr [x r (-48628)
  3, x r 81733 3], .arr [x r (-3225) 3, x r 6492 3], .arr [x r 34677 3, x r (-58104) 3], .arr [x r 35886 3, x
  r 375 2], .arr [x r 12742 3, x r 69959 3], .arr [x r (-15081) 3, x r 74314 3]])]]), ("t", n 272)], .obj
  [("s", .arr [.obj [("c", .bool true), ("i", .arr [.arr [n 0, n 0], .arr [x r (-8791) 3, x r 23064 3], .arr
  [x r (-13549) 3, x r 3468 3], .arr [x r 871 2, x r (-28709) 3], .arr [n 0, n 0], .arr [x r 12823 3, x r
  (-1935) 3]]), ("o", .arr [.arr [n 0, n 0], .arr [x r 879 2, x r (-23145) 3], .arr [x r 13951 3, x r (-3629)
  3], .arr [x r (-8387) 3, x r 275 1], .arr [n 0, n 0], .arr [x r (-2629) 2, x r 3951 3]]), ("v", .arr [.arr
  [x r (-48628) 3, x r 71733 3], .arr [x r (-3225) 3, x r (-3508) 3], .arr [x r 34677 3, x r (-68104) 3], .arr
  [x r 35886 3, x r (-625) 2], .arr [x r 12742 3, x r 59959 3], .arr [x r (-15081) 3, x r 64314 3]])]]), ("t",
  n 288)]]

/-- A value in `examples/assets/google_fonts/Tiger.json`. -/
def tiger162 : Json F :=
  .arr [.obj [("i", .obj [("x", x r 3 1), ("y", n 1)]), ("o", .obj [("x", x r 167 3), ("y", x r 167 3)]),
  ("s", .arr [.obj [("c", .bool true), ("i", .arr [.arr [n 0, n 0], .arr [x r 4758 3, x r (-11924) 3], .arr [x
  r (-4643) 3, x r (-8337) 3], .arr [x r (-14491) 3, x r 24972 3], .arr [n 0, n 0], .arr [x r 12281 3, x r
  12353 3]]), ("o", .arr [.arr [n 0, n 0], .arr [x r (-4839) 3, x r 11917 3], .arr [x r 609 2, x r 10935 3],
  .arr [x r 14491 3, x r (-24972) 3], .arr [n 0, n 0], .arr [x r (-9573) 3, x r (-9629) 3]]), ("v", .arr [.arr
  [x r 8135 3, x r (-46911) 3], .arr [x r (-9444) 3, x r 25937 3], .arr [x r (-33829) 3, x r 87161 3], .arr [x
  r 21602 3, x r 429 1], .arr [x r 42136 3, x r (-10039) 3], .arr [x r 50385 3, x r (-46826) 3]])]]), ("t", n
  254)], .obj [("i", .obj [("x", x r 667 3), ("y", n 1)]), ("o", .obj [("x", x r 7 1), ("y", n 0)]), ("s",
  .arr [.obj [("c", .bool true), ("i", .arr [.arr [n 0, n 0], .arr [x r 4758 3, x r (-11924) 3], .arr [x r
  (-4643) 3, x r (-8337) 3], .arr [x r (-14491) 3, x r 24972 3], .arr [n 0, n 0], .arr [x r 12281 3, x r 12353
  3]]), ("o", .arr [.arr [n 0, n 0], .arr [x r (-4839) 3, x r 11917 3], .arr [x r 609 2, x r 10935 3], .arr [x
  r 14491 3, x r (-24972) 3], .arr [n 0, n 0], .arr [x r (-9573) 3, x r (-9629) 3]]), ("v", .arr [.arr [x r
  8135 3, x r (-51911) 3], .arr [x r (-9444) 3, x r 20937 3], .arr [x r (-33829) 3, x r 82161 3], .arr [x r
  21602 3, x r 379 1], .arr [x r 42136 3, x r (-15039) 3], .arr [x r 39635 3, x r (-52076) 3]])]]), ("t", n
  260)], .obj [("i", .obj [("x", x r 667 3), ("y", n 1)]), ("o", .obj [("x", x r 333 3), ("y", n 0)]), ("s",
  .arr [.obj [("c", .bool true), ("i", .arr [.arr [n 0, n 0], .arr [x r 3548 3, x r (-12338) 3], .arr [x r
  (-629) 2, x r (-7177) 3], .arr [x r (-11936) 3, x r 2629 2], .arr [n 0, n 0], .arr [x r 13467 3, x r 11048
  3]]), ("o", .arr [.arr [n 0, n 0], .arr [x r (-363) 2, x r 12339 3], .arr [x r 8225 3, x r 9435 3], .arr [x
  r 11935 3, x r (-2629) 2], .arr [n 0, n 0], .arr [x r (-10484) 3, x r (-8629) 3]]), ("v", .arr [.arr [x r
  2943 3, x r (-6262) 2], .arr [x r (-6008) 3, x r 9476 3], .arr [x r (-34153) 3, x r 73185 3], .arr [x r
  26572 3, x r 23266 3], .arr [x r 40443 3, x r (-29314) 3], .arr [x r 36879 3, x r (-66652) 3]])]]), ("t", n
  272)], .obj [("s", .arr [.obj [("c", .bool true), ("i", .arr [.arr [n 0, n 0], .arr [x r 3548 3, x r
  (-12338) 3], .arr [x r (-629) 2, x r (-7177) 3], .arr [x r (-11936) 3, x r 2629 2], .arr [n 0, n 0], .arr [x
  r 13467 3, x r 11048 3]]), ("o", .arr [.arr [n 0, n 0], .arr [x r (-363) 2, x r 12339 3], .arr [x r 8225 3,
  x r 9435 3], .arr [x r 11935 3, x r (-2629) 2], .arr [n 0, n 0], .arr [x r (-10484) 3, x r (-8629) 3]]),
  ("v", .arr [.arr [x r 2943 3, x r (-7262) 2], .arr [x r (-6008) 3, x r (-524) 3], .arr [x r (-34153) 3, x r
  63185 3], .arr [x r 26572 3, x r 13266 3], .arr [x r 40443 3, x r (-39314) 3], .arr [x r 27379 3, x r
  (-74652) 3]])]]), ("t", n 288)]]

/-- A value in `examples/assets/google_fonts/Tiger.json`. -/
def tiger163 : Json F :=
  .arr [.obj [("i", .obj [("x", x r 3 1), ("y", n 1)]), ("o", .obj [("x", x r 167 3), ("y", x r 167 3)]),
  ("s", .arr [.obj [("c", .bool true), ("i", .arr [.arr [x r (-9375) 3, x r (-3223) 3], .arr [x r (-13141) 3,
  x r 27386 3], .arr [n 0, n 0], .arr [x r 12232 3, x r 5664 3], .arr [n 0, n 0], .arr [x r 9912 3, x r
  (-4365) 2]]), ("o", .arr [.arr [x r 15343 3, x r 5395 3], .arr [x r 13141 3, x r (-27387) 3], .arr [n 0, n
  0], .arr [x r (-14114) 3, x r (-6535) 3], .arr [n 0, n 0], .arr [x r (-536) 2, x r 23347 3]]), ("v", .arr
  [.arr [x r (-26219) 3, x r 83238 3], .arr [x r 26991 3, x r 18098 3], .arr [x r 53218 3, x r (-42473) 3],
  .arr [x r 35516 3, x r (-79561) 3], .arr [x r 2233 3, x r (-71233) 3], .arr [x r (-10777) 3, x r (-128)
  3]])]]), ("t", n 254)], .obj [("i", .obj [("x", x r 667 3), ("y", n 1)]), ("o", .obj [("x", x r 7 1), ("y",
  n 0)]), ("s", .arr [.obj [("c", .bool true), ("i", .arr [.arr [x r (-9375) 3, x r (-3223) 3], .arr [x r
  (-13141) 3, x r 27386 3], .arr [n 0, n 0], .arr [x r 12232 3, x r 5664 3], .arr [n 0, n 0], .arr [x r 9912
  3, x r (-4365) 2]]), ("o", .arr [.arr [x r 15343 3, x r 5395 3], .arr [x r 13141 3, x r (-27387) 3], .arr [n
  0, n 0], .arr [x r (-14114) 3, x r (-6535) 3], .arr [n 0, n 0], .arr [x r (-536) 2, x r 23347 3]]), ("v",
  .arr [.arr [x r (-26219) 3, x r 78238 3], .arr [x r 26991 3, x r 13098 3], .arr [x r 53218 3, x r (-53473)
  3], .arr [x r 36766 3, x r (-87811) 3], .arr [x r 3233 3, x r (-85733) 3], .arr [x r (-10777) 3, x r (-5128)
  3]])]]), ("t", n 260)], .obj [("i", .obj [("x", x r 667 3), ("y", n 1)]), ("o", .obj [("x", x r 333 3),
  ("y", n 0)]), ("s", .arr [.obj [("c", .bool true), ("i", .arr [.arr [x r (-9839) 3, x r (-1209) 3], .arr [x
  r (-7177) 3, x r 29516 3], .arr [n 0, n 0], .arr [x r 13145 3, x r 2984 3], .arr [n 0, n 0], .arr [x r 646
  3, x r (-44757) 3]]), ("o", .arr [.arr [x r 16128 3, x r 2097 3], .arr [x r 7177 3, x r (-29516) 3], .arr [n
  0, n 0], .arr [x r (-15162) 3, x r (-3467) 3], .arr [n 0, n 0], .arr [x r (-403) 3, x r 23951 3]]), ("v",
  .arr [.arr [x r (-20281) 3, x r 87458 3], .arr [x r 18267 3, x r 12702 3], .arr [x r 30121 3, x r (-57862)
  3], .arr [x r 7735 3, x r (-83975) 3], .arr [x r (-24475) 3, x r (-69555) 3], .arr [x r (-22459) 3, x r 2701
  3]])]]), ("t", n 272)], .obj [("s", .arr [.obj [("c", .bool true), ("i", .arr [.arr [x r (-9839) 3, x r
  (-1209) 3], .arr [x r (-7177) 3, x r 29516 3], .arr [n 0, n 0], .arr [x r 13145 3, x r 2984 3], .arr [n 0, n
  0], .arr [x r 646 3, x r (-44757) 3]]), ("o", .arr [.arr [x r 16128 3, x r 2097 3], .arr [x r 7177 3, x r
  (-29516) 3], .arr [n 0, n 0], .arr [x r (-15162) 3, x r (-3467) 3], .arr [n 0, n 0], .arr [x r (-403) 3, x r
  23951 3]]), ("v", .arr [.arr [x r (-20281) 3, x r 77458 3], .arr [x r 18267 3, x r 2701 3], .arr [x r 30121
  3, x r (-67862) 3], .arr [x r 1735 3, x r (-95475) 3], .arr [x r (-24475) 3, x r (-79555) 3], .arr [x r
  (-22459) 3, x r (-7299) 3]])]]), ("t", n 288)]]

/-- A value in `examples/assets/google_fonts/Tiger.json`. -/
def tiger164 : Json F :=
  .arr [.obj [("i", .obj [("x", x r 3 1), ("y", n 1)]), ("o", .obj [("x", x r 167 3), ("y", x r 167 3)]),
  ("s", .arr [.obj [("c", .bool true), ("i", .arr [.arr [n 0, n 0], .arr [x r 2182 3, x r (-42904) 3], .arr [x
  r (-9272) 3, x r 194 3], .arr [x r (-9947) 3, x r 45048 3], .arr [n 0, n 0], .arr [x r 12604 3, x r 193
  2]]), ("o", .arr [.arr [n 0, n 0], .arr [x r 1853 3, x r 30693 3], .arr [x r 11932 3, x r (-25) 2], .arr [x
  r 9947 3, x r (-45047) 3], .arr [n 0, n 0], .arr [x r (-15648) 3, x r (-2278) 3]]), ("v", .arr [.arr [x r
  (-9219) 3, x r (-84297) 3], .arr [x r (-8643) 3, x r (-7356) 3], .arr [x r (-4771) 3, x r 77524 3], .arr [x
  r 47156 3, x r (-13063) 3], .arr [x r 60089 3, x r (-78312) 3], .arr [x r 30996 3, x r (-98997) 3]])]]),
  ("t", n 254)], .obj [("i", .obj [("x", x r 667 3), ("y", n 1)]), ("o", .obj [("x", x r 7 1), ("y", n 0)]),
  ("s", .arr [.obj [("c", .bool true), ("i", .arr [.arr [n 0, n 0], .arr [x r 3577 3, x r (-46832) 3], .arr [x
  r (-9214) 3, x r (-1055) 3], .arr [x r (-9947) 3, x r 45048 3], .arr [n 0, n 0], .arr [x r 12604 3, x r 193
  2]]), ("o", .arr [.arr [n 0, n 0], .arr [x r (-2293) 3, x r 30663 3], .arr [x r 11858 3, x r 1358 3], .arr
  [x r 9947 3, x r (-45047) 3], .arr [n 0, n 0], .arr [x r (-15648) 3, x r (-2278) 3]]), ("v", .arr [.arr [x r
  4714 3, x r (-97182) 3], .arr [x r 5297 3, x r (-1542) 2], .arr [x r 875 2, x r 69698 3], .arr [x r 47156 3,
  x r (-13063) 3], .arr [x r 60089 3, x r (-88312) 3], .arr [x r 31746 3, x r (-118497) 3]])]]), ("t", n
  260)], .obj [("i", .obj [("x", x r 667 3), ("y", n 1)]), ("o", .obj [("x", x r 333 3), ("y", n 0)]), ("s",
  .arr [.obj [("c", .bool true), ("i", .arr [.arr [n 0, n 0], .arr [x r (-1774) 3, x r (-46935) 3], .arr [x r
  (-9274) 3, n 0], .arr [x r (-4758) 3, x r 45887 3], .arr [n 0, n 0], .arr [x r 12742 3, x r 484 3]]), ("o",
  .arr [.arr [n 0, n 0], .arr [x r 121 2, x r 30725 3], .arr [x r 11935 3, n 0], .arr [x r 4758 3, x r
  (-45886) 3], .arr [n 0, n 0], .arr [x r (-15806) 3, x r (-483) 3]]), ("v", .arr [.arr [x r (-28548) 3, x r
  (-71652) 3], .arr [x r (-18065) 3, x r 8186 3], .arr [x r (-371) 2, x r 92216 3], .arr [x r 2379 2, x r 5766
  3], .arr [x r 27419 3, x r (-69636) 3], .arr [x r 161 3, x r (-106733) 3]])]]), ("t", n 272)], .obj [("s",
  .arr [.obj [("c", .bool true), ("i", .arr [.arr [n 0, n 0], .arr [x r (-1774) 3, x r (-46935) 3], .arr [x r
  (-9274) 3, n 0], .arr [x r (-4758) 3, x r 45887 3], .arr [n 0, n 0], .arr [x r 12742 3, x r 484 3]]), ("o",
  .arr [.arr [n 0, n 0], .arr [x r 121 2, x r 30725 3], .arr [x r 11935 3, n 0], .arr [x r 4758 3, x r
  (-45886) 3], .arr [n 0, n 0], .arr [x r (-15806) 3, x r (-483) 3]]), ("v", .arr [.arr [x r (-28548) 3, x r
  (-81652) 3], .arr [x r (-18065) 3, x r (-1814) 3], .arr [x r (-371) 2, x r 82216 3], .arr [x r 2379 2, x r
  (-4234) 3], .arr [x r 27419 3, x r (-79636) 3], .arr [x r 161 3, x r (-97233) 3]])]]), ("t", n 288)]]

/-- A value in `examples/assets/google_fonts/Tiger.json`. -/
def tiger165 : Json F :=
  .arr [.obj [("i", .obj [("x", x r 3 1), ("y", n 1)]), ("o", .obj [("x", x r 167 3), ("y", x r 167 3)]),
  ("s", .arr [.obj [("c", .bool true), ("i", .arr [.arr [n 0, n 0], .arr [x r (-9262) 3, x r (-23692) 3], .arr
  [x r (-3558) 3, x r (-1904) 2], .arr [x r (-7926) 3, x r (-964) 3], .arr [x r (-1805) 3, x r 25125 3], .arr
  [x r 4705 3, x r 16679 3], .arr [n 0, n 0], .arr [x r 17282 3, x r (-512) 2]]), ("o", .arr [.arr [n 0, n 0],
  .arr [x r 9289 3, x r 23762 3], .arr [x r 1907 3, x r 10204 3], .arr [x r 8007 3, x r 1042 3], .arr [x r
  1875 3, x r (-26093) 3], .arr [x r (-4705) 3, x r (-16679) 3], .arr [n 0, n 0], .arr [x r (-15464) 3, x r
  113 2]]), ("v", .arr [.arr [x r (-13008) 3, x r (-59554) 3], .arr [x r 13174 3, x r (-1106) 2], .arr [x r
  36417 3, x r 57358 3], .arr [x r 52033 3, x r 90506 3], .arr [x r 66946 3, x r 43813 3], .arr [x r 58953 3,
  x r (-35975) 3], .arr [x r 44742 3, x r (-78203) 3], .arr [x r 15426 3, x r (-688) 1]])]]), ("t", n 254)],
  .obj [("i", .obj [("x", x r 667 3), ("y", n 1)]), ("o", .obj [("x", x r 7 1), ("y", n 0)]), ("s", .arr [.obj
  [("c", .bool true), ("i", .arr [.arr [n 0, n 0], .arr [x r (-5991) 3, x r (-24723) 3], .arr [x r (-965) 3, x
  r (-19345) 3], .arr [x r (-7724) 3, x r (-2022) 3], .arr [x r (-5168) 3, x r 24654 3], .arr [x r 2419 3, x r
  17161 3], .arr [n 0, n 0], .arr [x r 17737 3, x r 1057 3]]), ("o", .arr [.arr [n 0, n 0], .arr [x r 6008 3,
  x r 24795 3], .arr [x r 517 3, x r 10368 3], .arr [x r 7794 3, x r 2109 3], .arr [x r 5367 3, x r (-25604)
  3], .arr [x r (-2419) 3, x r (-17161) 3], .arr [n 0, n 0], .arr [x r (-15475) 3, x r (-961) 3]]), ("v", .arr
  [.arr [x r 11918 3, x r (-101137) 3], .arr [x r 31338 3, x r (-49561) 3], .arr [x r 45167 3, x r 21361 3],
  .arr [x r 56182 3, x r 56309 3], .arr [x r 7724 2, x r 12046 3], .arr [x r 80052 3, x r (-68092) 3], .arr [x
  r 73866 3, x r (-98427) 3], .arr [x r 40655 3, x r (-121385) 3]])]]), ("t", n 260)], .obj [("i", .obj [("x",
  x r 667 3), ("y", n 1)]), ("o", .obj [("x", x r 333 3), ("y", n 0)]), ("s", .arr [.obj [("c", .bool true),
  ("i", .arr [.arr [n 0, n 0], .arr [x r (-879) 2, x r (-23871) 3], .arr [x r (-3146) 3, x r (-19112) 3], .arr
  [x r (-7904) 3, x r (-113) 2], .arr [x r (-2338) 3, x r 25081 3], .arr [x r 4355 3, x r 16774 3], .arr [n 0,
  n 0], .arr [x r 17742 3, x r (-968) 3]]), ("o", .arr [.arr [n 0, n 0], .arr [x r 879 2, x r 23951 3], .arr
  [x r 1693 3, x r 10242 3], .arr [x r 7983 3, x r 1209 3], .arr [x r 242 2, x r (-26048) 3], .arr [x r
  (-4355) 3, x r (-16774) 3], .arr [n 0, n 0], .arr [x r (-15484) 3, x r 806 3]]), ("v", .arr [.arr [x r
  (-39475) 3, x r (-64072) 3], .arr [x r (-14314) 3, x r (-15039) 3], .arr [x r 6251 3, x r 53992 3], .arr [x
  r 2117 2, x r 87459 3], .arr [x r 37055 3, x r 41089 3], .arr [x r 31975 3, x r (-38992) 3], .arr [x r 22379
  3, x r (-68426) 3], .arr [x r (-1096) 2, x r (-777) 1]])]]), ("t", n 272)], .obj [("s", .arr [.obj [("c",
  .bool true), ("i", .arr [.arr [n 0, n 0], .arr [x r (-879) 2, x r (-23871) 3], .arr [x r (-3146) 3, x r
  (-19112) 3], .arr [x r (-7904) 3, x r (-113) 2], .arr [x r (-2338) 3, x r 25081 3], .arr [x r 4355 3, x r
  16774 3], .arr [n 0, n 0], .arr [x r 17742 3, x r (-968) 3]]), ("o", .arr [.arr [n 0, n 0], .arr [x r 879 2,
  x r 23951 3], .arr [x r 1693 3, x r 10242 3], .arr [x r 7983 3, x r 1209 3], .arr [x r 242 2, x r (-26048)
  3], .arr [x r (-4355) 3, x r (-16774) 3], .arr [n 0, n 0], .arr [x r (-15484) 3, x r 806 3]]), ("v", .arr
  [.arr [x r (-39475) 3, x r (-74072) 3], .arr [x r (-14314) 3, x r (-25039) 3], .arr [x r 6251 3, x r 43992
  3], .arr [x r 2117 2, x r 77459 3], .arr [x r 37055 3, x r 31089 3], .arr [x r 31975 3, x r (-48992) 3],
  .arr [x r 22379 3, x r (-78426) 3], .arr [x r (-1396) 2, x r (-897) 1]])]]), ("t", n 288)]]

/-- A value in `examples/assets/google_fonts/Tiger.json`. -/
def tiger166 : Json F :=
  .arr [.obj [("i", .obj [("x", x r 3 1), ("y", n 1)]), ("o", .obj [("x", x r 167 3), ("y", x r 167 3)]),
  ("s", .arr [.obj [("c", .bool true), ("i", .arr [.arr [x r 293 2, x r (-4792) 3], .arr [x r (-10875) 3, x r
  (-12658) 3], .arr [n 0, n 0], .arr [x r (-781) 2, x r (-414) 2], .arr [x r (-3236) 3, x r 15012 3], .arr [x
  r 3128 3, x r 12181 3], .arr [x r 29561 3, x r 15572 3]]), ("o", .arr [.arr [x r (-5919) 3, x r 9682 3],
  .arr [x r 10262 3, x r 11944 3], .arr [n 0, n 0], .arr [x r 9119 3, x r 4775 3], .arr [x r 3236 3, x r
  (-15012) 3], .arr [x r (-2784) 3, x r (-10843) 3], .arr [x r (-22615) 3, x r (-11801) 3]]), ("v", .arr [.arr
  [x r (-9608) 3, x r (-3792) 2], .arr [x r 5983 3, x r (-9041) 3], .arr [x r 38262 3, x r 25204 3], .arr [x r
  5119 2, x r 85785 3], .arr [x r 71855 3, x r 57155 3], .arr [x r 67542 3, x r 11949 3], .arr [x r 28005 3, x
  r (-30125) 3]])]]), ("t", n 254)], .obj [("i", .obj [("x", x r 667 3), ("y", n 1)]), ("o", .obj [("x", x r 7
  1), ("y", n 0)]), ("s", .arr [.obj [("c", .bool true), ("i", .arr [.arr [x r 3548 3, x r (-4354) 3], .arr [x
  r (-9074) 3, x r (-14006) 3], .arr [n 0, n 0], .arr [x r (-7182) 3, x r (-5153) 3], .arr [x r (-5226) 3, x r
  14441 3], .arr [x r 1461 3, x r 12491 3], .arr [x r 27197 3, x r 19407 3]]), ("o", .arr [.arr [x r (-7168)
  3, x r 8798 3], .arr [x r 8562 3, x r 13216 3], .arr [n 0, n 0], .arr [x r 8393 3, x r 5958 3], .arr [x r
  5226 3, x r (-14441) 3], .arr [x r (-13) 1, x r (-11119) 3], .arr [x r (-20822) 3, x r (-14736) 3]]), ("v",
  .arr [.arr [x r 699 3, x r (-86003) 3], .arr [x r 12264 3, x r (-55289) 3], .arr [x r 39643 3, x r (-17013)
  3], .arr [x r 44304 3, x r 44756 3], .arr [x r 68632 3, x r 19167 3], .arr [x r 7044 2, x r (-26209) 3],
  .arr [x r 36922 3, x r (-73219) 3]])]]), ("t", n 260)], .obj [("i", .obj [("x", x r 667 3), ("y", n 1)]),
  ("o", .obj [("x", x r 333 3), ("y", n 0)]), ("s", .arr [.obj [("c", .bool true), ("i", .arr [.arr [x r 3548
  3, x r (-4354) 3], .arr [x r (-9032) 3, x r (-14033) 3], .arr [n 0, n 0], .arr [x r (-7177) 3, x r (-5161)
  3], .arr [x r (-5242) 3, x r 14435 3], .arr [x r 121 2, x r 11129 3], .arr [x r 27177 3, x r 19436 3]]),
  ("o", .arr [.arr [x r (-7177) 3, x r 879 2], .arr [x r 8548 3, x r 13225 3], .arr [n 0, n 0], .arr [x r 8387
  3, x r 5967 3], .arr [x r 5241 3, x r (-14435) 3], .arr [x r (-1209) 3, x r (-11129) 3], .arr [x r (-20806)
  3, x r (-14758) 3]]), ("v", .arr [.arr [x r (-33104) 3, x r (-56209) 3], .arr [x r (-21573) 3, x r (-25483)
  3], .arr [x r 5766 3, x r 12822 3], .arr [x r 10362 3, x r 74596 3], .arr [x r 34718 3, x r 49032 3], .arr
  [x r 39072 3, x r 5161 3], .arr [x r 3104 3, x r (-43387) 3]])]]), ("t", n 272)], .obj [("s", .arr [.obj
  [("c", .bool true), ("i", .arr [.arr [x r 3548 3, x r (-4354) 3], .arr [x r (-9032) 3, x r (-14033) 3], .arr
  [n 0, n 0], .arr [x r (-7177) 3, x r (-5161) 3], .arr [x r (-5242) 3, x r 14435 3], .arr [x r 121 2, x r
  11129 3], .arr [x r 27177 3, x r 19436 3]]), ("o", .arr [.arr [x r (-7177) 3, x r 879 2], .arr [x r 8548 3,
  x r 13225 3], .arr [n 0, n 0], .arr [x r 8387 3, x r 5967 3], .arr [x r 5241 3, x r (-14435) 3], .arr [x r
  (-1209) 3, x r (-11129) 3], .arr [x r (-20806) 3, x r (-14758) 3]]), ("v", .arr [.arr [x r (-33104) 3, x r
  (-66209) 3], .arr [x r (-21573) 3, x r (-35483) 3], .arr [x r 5766 3, x r 2822 3], .arr [x r 10362 3, x r
  64596 3], .arr [x r 34718 3, x r 39032 3], .arr [x r 39072 3, x r (-4839) 3], .arr [x r 3104 3, x r (-53387)
  3]])]]), ("t", n 288)]]

/-- A value in `examples/assets/google_fonts/Tiger.json`. -/
def tiger167 : Json F :=
  .arr [.obj [("i", .obj [("x", x r 3 1), ("y", n 1)]), ("o", .obj [("x", x r 167 3), ("y", x r 167 3)]),
  ("s", .arr [.obj [("c", .bool true), ("i", .arr [.arr [x r (-1118) 3, x r (-5616) 3], .arr [n 0, n 0], .arr
  [x r (-6649) 3, x r 7079 3], .arr [x r 9766 3, x r 10225 3], .arr [x r 14057 3, x r 2875 3], .arr [x r 11519
  3, x r (-5335) 3]]), ("o", .arr [.arr [x r 3434 3, x r 17242 3], .arr [n 0, n 0], .arr [x r 8088 3, x r
  (-8519) 3], .arr [x r (-15375) 3, x r (-16097) 3], .arr [x r (-12698) 3, x r (-2651) 3], .arr [x r (-14445)
  3, x r 6742 3]]), ("v", .arr [.arr [x r (-14916) 3, x r 30898 3], .arr [x r 44752 3, x r 34886 3], .arr [x r
  93467 3, x r 52403 3], .arr [x r 86355 3, x r 24956 3], .arr [x r 4779 2, x r (-3133) 3], .arr [x r 1817 3,
  x r 10874 3]])]]), ("t", n 254)], .obj [("i", .obj [("x", x r 667 3), ("y", n 1)]), ("o", .obj [("x", x r 7
  1), ("y", n 0)]), ("s", .arr [.obj [("c", .bool true), ("i", .arr [.arr [x r (-353) 3, x r (-5715) 3], .arr
  [n 0, n 0], .arr [x r (-7541) 3, x r 612 2], .arr [x r 8302 3, x r 11446 3], .arr [x r 13543 3, x r 474 2],
  .arr [x r 12132 3, x r (-3737) 3]]), ("o", .arr [.arr [x r 1083 3, x r 17548 3], .arr [n 0, n 0], .arr [x r
  916 2, x r (-7353) 3], .arr [x r (-1307) 2, x r (-18019) 3], .arr [x r (-12226) 3, x r (-4335) 3], .arr [x r
  (-1522) 2, x r 4737 3]]), ("v", .arr [.arr [x r (-22135) 3, x r (-26475) 3], .arr [x r 36455 3, x r (-14497)
  3], .arr [x r 8237 2, x r 9414 3], .arr [x r 79015 3, x r (-1874) 2], .arr [x r 44579 3, x r (-51761) 3],
  .arr [x r (-286) 2, x r (-44066) 3]])]]), ("t", n 260)], .obj [("i", .obj [("x", x r 667 3), ("y", n 1)]),
  ("o", .obj [("x", x r 333 3), ("y", n 0)]), ("s", .arr [.obj [("c", .bool true), ("i", .arr [.arr [n 0, x r
  (-5726) 3], .arr [n 0, n 0], .arr [x r (-7904) 3, x r 5644 3], .arr [x r 7581 3, x r 11936 3], .arr [x r
  13225 3, x r 5565 3], .arr [x r 12339 3, x r (-2983) 3]]), ("o", .arr [.arr [n 0, x r 17581 3], .arr [n 0, n
  0], .arr [x r 9596 3, x r (-6775) 3], .arr [x r (-11935) 3, x r (-1879) 2], .arr [x r (-11936) 3, x r (-508)
  2], .arr [x r (-15483) 3, x r 3791 3]]), ("v", .arr [.arr [x r (-55846) 3, x r (-847) 3], .arr [x r 1895 3,
  x r 14717 3], .arr [x r 4625 2, x r 41411 3], .arr [x r 44636 3, x r 13104 3], .arr [x r 12299 3, x r
  (-21976) 3], .arr [x r (-35524) 3, x r (-17217) 3]])]]), ("t", n 272)], .obj [("s", .arr [.obj [("c", .bool
  true), ("i", .arr [.arr [n 0, x r (-5726) 3], .arr [n 0, n 0], .arr [x r (-7904) 3, x r 5644 3], .arr [x r
  7581 3, x r 11936 3], .arr [x r 13225 3, x r 5565 3], .arr [x r 12339 3, x r (-2983) 3]]), ("o", .arr [.arr
  [n 0, x r 17581 3], .arr [n 0, n 0], .arr [x r 9596 3, x r (-6775) 3], .arr [x r (-11935) 3, x r (-1879) 2],
  .arr [x r (-11936) 3, x r (-508) 2], .arr [x r (-15483) 3, x r 3791 3]]), ("v", .arr [.arr [x r (-55846) 3,
  x r (-10847) 3], .arr [x r 1895 3, x r 4717 3], .arr [x r 4625 2, x r 31411 3], .arr [x r 44636 3, x r 3104
  3], .arr [x r 12299 3, x r (-31976) 3], .arr [x r (-35524) 3, x r (-27217) 3]])]]), ("t", n 288)]]

/-- A value in `examples/assets/google_fonts/Tiger.json`. -/
def tiger168 : Json F :=
  .arr [.obj [("i", .obj [("x", x r 3 1), ("y", n 1)]), ("o", .obj [("x", x r 167 3), ("y", x r 167 3)]),
  ("s", .arr [.obj [("c", .bool true), ("i", .arr [.arr [x r (-14659) 3, x r 12568 3], .arr [x r 1038 2, x r
  (-8771) 3], .arr [x r 1702 3, x r (-20279) 3], .arr [x r 1376 3, x r (-17257) 3], .arr [x r 1619 3, x r
  (-378) 3], .arr [x r 1789 3, x r 5354 3], .arr [n 0, n 0], .arr [x r 16726 3, x r (-1227) 3], .arr [x r
  16226 3, x r 38261 3], .arr [x r 5242 3, x r 18916 3]]), ("o", .arr [.arr [x r 41335 3, x r (-35155) 3],
  .arr [x r (-17912) 3, x r 15136 3], .arr [x r (-51) 1, x r 60764 3], .arr [x r 5462 3, x r 23009 3], .arr [x
  r (-8597) 3, x r 2187 3], .arr [x r (-1825) 3, x r (-5283) 3], .arr [n 0, n 0], .arr [x r (-16726) 3, x r
  1227 3], .arr [x r (-9337) 3, x r (-22015) 3], .arr [x r (-6239) 3, x r (-22514) 3]]), ("v", .arr [.arr [x r
  18612 3, x r (-66272) 3], .arr [x r 95529 3, x r (-48252) 3], .arr [x r 69194 3, x r 7715 3], .arr [x r
  123341 3, x r 76654 3], .arr [x r 115071 3, x r 126833 3], .arr [x r 93977 3, x r 10488 2], .arr [x r 84131
  3, x r 76507 3], .arr [x r 73776 3, x r 111251 3], .arr [x r 27093 3, x r 58774 3], .arr [x r (-32958) 3, x
  r 2189 3]])]]), ("t", n 254)], .obj [("i", .obj [("x", x r 667 3), ("y", n 1)]), ("o", .obj [("x", x r 7 1),
  ("y", n 0)]), ("s", .arr [.obj [("c", .bool true), ("i", .arr [.arr [x r (-16217) 3, x r 10481 3], .arr [x r
  11465 3, x r (-7295) 3], .arr [x r 4414 3, x r (-19866) 3], .arr [x r (-593) 2, x r (-16264) 3], .arr [x r
  1315 3, x r (-1017) 3], .arr [x r 3855 3, x r 4124 3], .arr [n 0, n 0], .arr [x r 5436 3, x r (-1187) 3],
  .arr [x r 10932 3, x r 40096 3], .arr [x r 265 2, x r 1945 2]]), ("o", .arr [.arr [x r 45689 3, x r (-29275)
  3], .arr [x r (-19786) 3, x r 12589 3], .arr [x r (-13227) 3, x r 59526 3], .arr [x r 14543 3, x r 18649 3],
  .arr [x r (-6907) 3, x r 5566 3], .arr [x r (-3858) 3, x r (-4044) 3], .arr [n 0, n 0], .arr [x r (-15817)
  3, x r 3453 3], .arr [x r (-629) 2, x r (-23071) 3], .arr [x r (-3154) 3, x r (-23149) 3]]), ("v", .arr
  [.arr [x r 2771 2, x r (-135373) 3], .arr [x r 101504 3, x r (-107169) 3], .arr [x r 6788 2, x r (-55254)
  3], .arr [x r 94008 3, x r 4683 2], .arr [x r 98247 3, x r 87977 3], .arr [x r 6993 2, x r 76794 3], .arr [x
  r 53331 3, x r 64186 3], .arr [x r 54367 3, x r 86526 3], .arr [x r (-9882) 3, x r 3882 3], .arr [x r (-326)
  1, x r (-74471) 3]])]]), ("t", n 260)], .obj [("i", .obj [("x", x r 667 3), ("y", n 1)]), ("o", .obj [("x",
  x r 333 3), ("y", n 0)]), ("s", .arr [.obj [("c", .bool true), ("i", .arr [.arr [x r (-14919) 3, x r 12258
  3], .arr [x r 10564 3, x r (-8548) 3], .arr [x r 2097 3, x r (-20242) 3], .arr [x r (-7742) 3, x r (-15484)
  3], .arr [x r 1291 3, x r (-1048) 3], .arr [x r 3951 3, x r 4032 3], .arr [n 0, n 0], .arr [x r 5564 3, n
  0], .arr [x r 10403 3, x r 21532 3], .arr [x r 13561 3, x r 19026 3]]), ("o", .arr [.arr [x r 42062 3, x r
  (-34282) 3], .arr [x r (-18225) 3, x r 14758 3], .arr [x r (-637) 2, x r 60644 3], .arr [x r 5484 3, x r
  11129 3], .arr [x r (-6774) 3, x r 5727 3], .arr [x r (-3952) 3, x r (-3952) 3], .arr [n 0, n 0], .arr [x r
  (-758) 2, n 0], .arr [x r (-10403) 3, x r (-21532) 3], .arr [x r (-13561) 3, x r (-19024) 3]]), ("v", .arr
  [.arr [x r (-10268) 3, x r (-7243) 2], .arr [x r 66256 3, x r (-52803) 3], .arr [x r 38756 3, x r 26 1],
  .arr [x r 60127 3, x r 74243 3], .arr [x r 65529 3, x r 116984 3], .arr [x r 3166 2, x r 97841 3], .arr [x r
  14886 3, x r 80259 3], .arr [x r 8515 3, x r 94615 3], .arr [x r (-29792) 3, x r 52357 3], .arr [x r
  (-63259) 3, x r (-5063) 3]])]]), ("t", n 272)], .obj [("s", .arr [.obj [("c", .bool true), ("i", .arr [.arr
  [x r (-14919) 3, x r 12258 3], .arr [x r 10564 3, x r (-8548) 3], .arr [x r 2097 3, x r (-20242) 3], .arr [x
  r (-7742) 3, x r (-15484) 3], .arr [x r 1291 3, x r (-1048) 3], .arr [x r 3951 3, x r 4032 3], .arr [n 0, n
  0], .arr [x r 5564 3, n 0], .arr [x r 10403 3, x r 21532 3], .arr [x r 13561 3, x r 19026 3]]), ("o", .arr
  [.arr [x r 42062 3, x r (-34282) 3], .arr [x r (-18225) 3, x r 14758 3], .arr [x r (-637) 2, x r 60644 3],
  .arr [x r 5484 3, x r 11129 3], .arr [x r (-6774) 3, x r 5727 3], .arr [x r (-3952) 3, x r (-3952) 3], .arr
  [n 0, n 0], .arr [x r (-758) 2, n 0], .arr [x r (-10403) 3, x r (-21532) 3], .arr [x r (-13561) 3, x r
  (-19024) 3]]), ("v", .arr [.arr [x r (-10268) 3, x r (-8243) 2], .arr [x r 66256 3, x r (-62803) 3], .arr [x
  r 38756 3, x r (-74) 1], .arr [x r 60127 3, x r 68243 3], .arr [x r 65529 3, x r 110984 3], .arr [x r 3166
  2, x r 87841 3], .arr [x r 14886 3, x r 70259 3], .arr [x r 8515 3, x r 84615 3], .arr [x r (-29792) 3, x r
  42357 3], .arr [x r (-63259) 3, x r (-15063) 3]])]]), ("t", n 288)]]

/-- A value in `examples/assets/google_fonts/Tiger.json`. -/
def tiger169 : Json F :=
  .arr [.obj [("i", .obj [("x", x r 3 1), ("y", n 1)]), ("o", .obj [("x", x r 167 3), ("y", x r 167 3)]),
  ("s", .arr [.obj [("c", .bool true), ("i", .arr [.arr [n 0, n 0], .arr [x r (-21724) 3, x r (-11015) 3],
  .arr [x r (-4874) 3, x r 6874 3], .arr [x r 13664 3, x r 7671 3], .arr [n 0, n 0]]), ("o", .arr [.arr [n 0,
  n 0], .arr [x r 21725 3, x r 11015 3], .arr [x r 5653 3, x r (-7971) 3], .arr [x r (-8383) 3, x r (-4706)
  3], .arr [n 0, n 0]]), ("v", .arr [.arr [x r 3769 3, x r 31146 3], .arr [x r 3747 2, x r 41458 3], .arr [x r
  82553 3, x r 63836 3], .arr [x r 48697 3, x r 1266 2], .arr [x r 195 1, x r 115 2]])]]), ("t", n 254)], .obj
  [("i", .obj [("x", x r 667 3), ("y", n 1)]), ("o", .obj [("x", x r 7 1), ("y", n 0)]), ("s", .arr [.obj
  [("c", .bool true), ("i", .arr [.arr [n 0, n 0], .arr [x r (-24338) 3, x r (-975) 3], .arr [x r 61 2, x r
  8405 3], .arr [x r 15617 3, x r 1288 3], .arr [n 0, n 0]]), ("o", .arr [.arr [n 0, n 0], .arr [x r 24339 3,
  x r 975 3], .arr [x r (-61) 2, x r (-8404) 3], .arr [x r (-9581) 3, x r (-79) 2], .arr [n 0, n 0]]), ("v",
  .arr [.arr [x r (-6859) 3, x r (-3898) 3], .arr [x r 241 1, x r (-10027) 3], .arr [x r 74353 3, x r (-13365)
  3], .arr [x r 22324 3, x r (-40884) 3], .arr [x r (-9014) 3, x r (-392) 1]])]]), ("t", n 260)], .obj [("i",
  .obj [("x", x r 667 3), ("y", n 1)]), ("o", .obj [("x", x r 333 3), ("y", n 0)]), ("s", .arr [.obj [("c",
  .bool true), ("i", .arr [.arr [n 0, n 0], .arr [x r (-24354) 3, x r (-404) 3], .arr [x r 806 3, x r 8388 3],
  .arr [x r 15645 3, x r 888 3], .arr [n 0, n 0]]), ("o", .arr [.arr [n 0, n 0], .arr [x r 24355 3, x r 403
  3], .arr [x r (-807) 3, x r (-8387) 3], .arr [x r (-9597) 3, x r (-565) 3], .arr [n 0, n 0]]), ("v", .arr
  [.arr [x r (-43394) 3, x r 23113 3], .arr [x r (-8588) 3, x r 19259 3], .arr [x r 40572 3, x r 20742 3],
  .arr [x r (-11088) 3, x r (-12548) 3], .arr [x r (-42378) 3, x r (-10128) 3]])]]), ("t", n 272)], .obj
  [("s", .arr [.obj [("c", .bool true), ("i", .arr [.arr [n 0, n 0], .arr [x r (-24354) 3, x r (-404) 3], .arr
  [x r 806 3, x r 8388 3], .arr [x r 15645 3, x r 888 3], .arr [n 0, n 0]]), ("o", .arr [.arr [n 0, n 0], .arr
  [x r 24355 3, x r 403 3], .arr [x r (-807) 3, x r (-8387) 3], .arr [x r (-9597) 3, x r (-565) 3], .arr [n 0,
  n 0]]), ("v", .arr [.arr [x r (-39394) 3, x r 19113 3], .arr [x r (-8588) 3, x r 12259 3], .arr [x r 41572
  3, x r 7742 3], .arr [x r (-11088) 3, x r (-18548) 3], .arr [x r (-42378) 3, x r (-16128) 3]])]]), ("t", n
  288)]]

/-- A value in `examples/assets/google_fonts/Tiger.json`. -/
def tiger170 : Json F :=
  .arr [.obj [("i", .obj [("x", x r 3 1), ("y", n 1)]), ("o", .obj [("x", x r 167 3), ("y", x r 167 3)]),
  ("s", .arr [.obj [("c", .bool true), ("i", .arr [.arr [n 0, n 0], .arr [x r (-9183) 3, x r (-8869) 3], .arr
  [x r (-5259) 3, x r (-1271) 3], .arr [x r 1723 2, x r 17831 3], .arr [n 0, n 0]]), ("o", .arr [.arr [n 0, n
  0], .arr [x r 9184 3, x r 887 2], .arr [x r 8518 3, x r 2058 3], .arr [x r (-1723) 2, x r (-17831) 3], .arr
  [n 0, n 0]]), ("v", .arr [.arr [x r (-343) 1, x r 4382 3], .arr [x r (-5515) 3, x r 22193 3], .arr [x r
  28349 3, x r 52582 3], .arr [x r 12593 3, x r 2023 3], .arr [x r (-15119) 3, x r (-2091) 2]])]]), ("t", n
  254)], .obj [("i", .obj [("x", x r 667 3), ("y", n 1)]), ("o", .obj [("x", x r 7 1), ("y", n 0)]), ("s",
  .arr [.obj [("c", .bool true), ("i", .arr [.arr [n 0, n 0], .arr [x r (-12718) 3, x r (-1106) 3], .arr [x r
  (-4885) 3, x r 2325 3], .arr [x r 24613 3, x r 2999 3], .arr [n 0, n 0]]), ("o", .arr [.arr [n 0, n 0], .arr
  [x r 1272 2, x r 1106 3], .arr [x r 7913 3, x r (-3766) 3], .arr [x r (-24613) 3, x r (-2999) 3], .arr [n 0,
  n 0]]), ("v", .arr [.arr [x r (-11473) 3, x r (-5681) 3], .arr [x r 22104 3, x r (-9975) 3], .arr [x r 67547
  3, x r (-7698) 3], .arr [x r 23466 3, x r (-37047) 3], .arr [x r (-12503) 3, x r (-37407) 3]])]]), ("t", n
  260)], .obj [("i", .obj [("x", x r 667 3), ("y", n 1)]), ("o", .obj [("x", x r 333 3), ("y", n 0)]), ("s",
  .arr [.obj [("c", .bool true), ("i", .arr [.arr [n 0, n 0], .arr [x r (-12741) 3, x r (-806) 3], .arr [x r
  (-4839) 3, x r 242 2], .arr [x r 24677 3, x r 2419 3], .arr [n 0, n 0]]), ("o", .arr [.arr [n 0, n 0], .arr
  [x r 12742 3, x r 807 3], .arr [x r 7822 3, x r (-3951) 3], .arr [x r (-24677) 3, x r (-242) 2], .arr [n 0,
  n 0]]), ("v", .arr [.arr [x r (-48499) 3, x r 17298 3], .arr [x r (-15033) 3, x r 12217 3], .arr [x r 30451
  3, x r 13428 3], .arr [x r (-14307) 3, x r (-14878) 3], .arr [x r (-50274) 3, x r (-14395) 3]])]]), ("t", n
  272)], .obj [("s", .arr [.obj [("c", .bool true), ("i", .arr [.arr [n 0, n 0], .arr [x r (-12741) 3, x r
  (-806) 3], .arr [x r (-4839) 3, x r 242 2], .arr [x r 24677 3, x r 2419 3], .arr [n 0, n 0]]), ("o", .arr
  [.arr [n 0, n 0], .arr [x r 12742 3, x r 807 3], .arr [x r 7822 3, x r (-3951) 3], .arr [x r (-24677) 3, x r
  (-242) 2], .arr [n 0, n 0]]), ("v", .arr [.arr [x r (-42499) 3, x r 17298 3], .arr [x r (-9033) 3, x r 12217
  3], .arr [x r 36451 3, x r 13428 3], .arr [x r (-8307) 3, x r (-14878) 3], .arr [x r (-44274) 3, x r
  (-14395) 3]])]]), ("t", n 288)]]

/-- A value in `examples/assets/google_fonts/Tiger.json`. -/
def tiger171 : Json F :=
  .arr [.obj [("i", .obj [("x", x r 667 3), ("y", n 1)]), ("o", .obj [("x", x r 7 1), ("y", n 0)]), ("s", .arr
  [.obj [("c", .bool true), ("i", .arr [.arr [x r (-323) 3, x r (-14354) 3], .arr [x r (-11935) 3, x r 807 3],
  .arr [x r 645 3, x r 5565 3], .arr [x r 742 2, x r 1693 3]]), ("o", .arr [.arr [x r 403 3, x r 16371 3],
  .arr [x r 11936 3, x r (-806) 3], .arr [x r (-121) 2, x r (-10403) 3], .arr [x r (-11935) 3, x r (-2822)
  3]]), ("v", .arr [.arr [x r (-12717) 3, x r 8 3], .arr [x r 5104 3, x r 24927 3], .arr [x r 5911 3, x r 1379
  3], .arr [x r 712 2, x r (-24911) 3]])]]), ("t", n 260)], .obj [("i", .obj [("x", x r 667 3), ("y", n 1)]),
  ("o", .obj [("x", x r 333 3), ("y", n 0)]), ("s", .arr [.obj [("c", .bool true), ("i", .arr [.arr [x r
  (-323) 3, x r (-14354) 3], .arr [x r (-11935) 3, x r 807 3], .arr [x r 645 3, x r 5565 3], .arr [x r 742 2,
  x r 1693 3]]), ("o", .arr [.arr [x r 403 3, x r 16371 3], .arr [x r 11936 3, x r (-806) 3], .arr [x r (-121)
  2, x r (-10403) 3], .arr [x r (-11935) 3, x r (-2822) 3]]), ("v", .arr [.arr [x r (-14717) 3, x r 1008 3],
  .arr [x r 3104 3, x r 25927 3], .arr [x r 3911 3, x r 2379 3], .arr [x r 512 2, x r (-23911) 3]])]]), ("t",
  n 272)], .obj [("s", .arr [.obj [("c", .bool true), ("i", .arr [.arr [x r (-323) 3, x r (-14354) 3], .arr [x
  r (-11935) 3, x r 807 3], .arr [x r 645 3, x r 5565 3], .arr [x r 742 2, x r 1693 3]]), ("o", .arr [.arr [x
  r 403 3, x r 16371 3], .arr [x r 11936 3, x r (-806) 3], .arr [x r (-121) 2, x r (-10403) 3], .arr [x r
  (-11935) 3, x r (-2822) 3]]), ("v", .arr [.arr [x r (-14717) 3, x r 1008 3], .arr [x r 3104 3, x r 25927 3],
  .arr [x r 3911 3, x r 2379 3], .arr [x r 512 2, x r (-23911) 3]])]]), ("t", n 288)]]

/-- A value in `examples/assets/google_fonts/Tiger.json`. -/
def tiger172 : Json F :=
  .obj [("c", .bool true), ("i", .arr [.arr [x r 6012 3, x r (-6179) 3], .arr [x r (-25896) 3, x r 19464 3],
  .arr [x r (-18654) 3, x r 1759 2], .arr [x r (-3135) 3, x r 208 3], .arr [x r (-47776) 3, x r 23452 3], .arr
  [n 0, n 0], .arr [x r (-13184) 3, x r (-25219) 3], .arr [x r (-649) 3, x r (-3146) 3], .arr [x r 2581 3, x r
  (-6855) 3], .arr [x r (-968) 3, x r (-30806) 3], .arr [x r (-13951) 3, x r (-1613) 3], .arr [x r 879 2, x r
  5242 3], .arr [x r (-323) 3, x r 28951 3], .arr [x r (-121) 2, x r 7177 3], .arr [x r 8493 3, x r 15282 3],
  .arr [x r 5785 3, x r 14303 3], .arr [x r 3239 3, x r 3617 3], .arr [x r 3193 2, x r (-4379) 3], .arr [x r
  17304 3, x r (-7366) 3], .arr [x r 8536 3, x r (-7771) 3], .arr [x r 21009 3, x r (-11872) 3]]), ("o", .arr
  [.arr [x r (-4512) 3, x r 4638 3], .arr [x r 25896 3, x r (-19464) 3], .arr [x r 18713 3, x r (-17645) 3],
  .arr [x r 3243 3, x r (-215) 3], .arr [x r 22469 3, x r 9375 3], .arr [n 0, n 0], .arr [x r 13184 3, x r
  25218 3], .arr [x r 10128 3, x r 16365 3], .arr [x r (-564) 3, x r 1613 3], .arr [x r 806 3, x r 27096 3],
  .arr [x r 13952 3, x r 1612 3], .arr [x r (-879) 2, x r (-5161) 3], .arr [x r 403 3, x r (-37984) 3], .arr
  [x r 121 2, x r (-7178) 3], .arr [x r (-1492) 3, x r (-2685) 3], .arr [x r (-10148) 3, x r (-25227) 3], .arr
  [x r (-3239) 3, x r (-3617) 3], .arr [x r (-22522) 3, x r 3052 3], .arr [x r (-5528) 3, x r 2333 3], .arr [x
  r (-14068) 3, x r 12807 3], .arr [x r (-17737) 3, x r 10149 3]]), ("v", .arr [.arr [x r (-230303) 3, x r
  99902 3], .arr [x r (-174444) 3, x r 96949 3], .arr [x r (-93724) 3, x r 37333 3], .arr [x r (-40813) 3, x r
  (-12443) 3], .arr [x r 39652 3, x r (-99934) 3], .arr [x r 70085 3, x r (-94029) 3], .arr [x r 80679 3, x r
  (-39472) 3], .arr [x r 108613 3, x r 3573 3], .arr [x r 12328 2, x r 27895 3], .arr [x r 104797 3, x r 74556
  3], .arr [x r 143102 3, x r 11512 2], .arr [x r 154151 3, x r 111007 3], .arr [x r 122458 3, x r 73346 3],
  .arr [x r 140457 3, x r 27492 3], .arr [x r 125248 3, x r 3156 3], .arr [x r 98802 3, x r (-47303) 3], .arr
  [x r 90814 3, x r (-122499) 3], .arr [x r 38393 3, x r (-128562) 3], .arr [x r (-53842) 3, x r (-24531) 3],
  .arr [x r (-131618) 3, x r 43581 3], .arr [x r (-185948) 3, x r 87509 3]])]

/-- A value in `examples/assets/google_fonts/Tiger.json`. -/
def tiger173 : Json F :=
  .obj [("c", .bool true), ("i", .arr [.arr [x r 778 3, x r (-8586) 3], .arr [x r (-7856) 3, x r 31428 3],
  .arr [x r (-3412) 3, x r 25411 3], .arr [x r (-2764) 3, x r 1494 3], .arr [x r (-50496) 3, x r 16812 3],
  .arr [n 0, n 0], .arr [x r (-13184) 3, x r (-25219) 3], .arr [x r (-649) 3, x r (-3146) 3], .arr [x r 2581
  3, x r (-6855) 3], .arr [x r (-968) 3, x r (-30806) 3], .arr [x r (-13951) 3, x r (-1613) 3], .arr [x r 879
  2, x r 5242 3], .arr [x r (-323) 3, x r 28951 3], .arr [x r (-121) 2, x r 7177 3], .arr [x r 8493 3, x r
  15282 3], .arr [x r 5785 3, x r 14303 3], .arr [x r 3239 3, x r 3617 3], .arr [x r 32229 3, x r (-44) 3],
  .arr [x r 12669 3, x r (-13899) 3], .arr [x r 1736 3, x r (-11412) 3], .arr [x r 8842 3, x r (-22453) 3]]),
  ("o", .arr [.arr [x r (-584) 3, x r 6444 3], .arr [x r 7856 3, x r (-31428) 3], .arr [x r 3422 3, x r
  (-25492) 3], .arr [x r 2859 3, x r (-1545) 3], .arr [x r 21004 3, x r 12312 3], .arr [n 0, n 0], .arr [x r
  13184 3, x r 25218 3], .arr [x r 10128 3, x r 16365 3], .arr [x r (-564) 3, x r 1613 3], .arr [x r 806 3, x
  r 27096 3], .arr [x r 13952 3, x r 1612 3], .arr [x r (-879) 2, x r (-5161) 3], .arr [x r 403 3, x r
  (-37984) 3], .arr [x r 121 2, x r (-7178) 3], .arr [x r (-1492) 3, x r (-2685) 3], .arr [x r (-10148) 3, x r
  (-25227) 3], .arr [x r (-3238) 3, x r (-3617) 3], .arr [x r (-22728) 3, x r (-5) 3], .arr [x r (-4056) 3, x
  r 4422 3], .arr [x r (-2861) 3, x r 18808 3], .arr [x r (-7386) 3, x r 19054 3]]), ("v", .arr [.arr [x r
  (-123145) 3, x r 100303 3], .arr [x r (-81616) 3, x r 6283 2], .arr [x r (-58798) 3, x r (-54178) 3], .arr
  [x r (-47408) 3, x r (-106899) 3], .arr [x r 22237 3, x r (-110374) 3], .arr [x r 70085 3, x r (-94029) 3],
  .arr [x r 80679 3, x r (-39471) 3], .arr [x r 108613 3, x r 3573 3], .arr [x r 12328 2, x r 27895 3], .arr
  [x r 104797 3, x r 74556 3], .arr [x r 143102 3, x r 11512 2], .arr [x r 154151 3, x r 111007 3], .arr [x r
  122458 3, x r 73346 3], .arr [x r 140457 3, x r 27492 3], .arr [x r 125248 3, x r 3156 3], .arr [x r 98802
  3, x r (-47303) 3], .arr [x r 90813 3, x r (-122499) 3], .arr [x r 2484 2, x r (-138911) 3], .arr [x r
  (-64286) 3, x r (-112468) 3], .arr [x r (-81961) 3, x r (-5597) 3], .arr [x r (-96497) 3, x r 62742 3]])]

/-- A value in `examples/assets/google_fonts/Tiger.json`. -/
def tiger174 : Json F :=
  .obj [("c", .bool true), ("i", .arr [.arr [x r 5108 3, x r (-6925) 3], .arr [x r (-23038) 3, x r 2271 2],
  .arr [x r (-3256) 3, x r 2543 2], .arr [x r (-2758) 3, x r 1504 3], .arr [x r (-49065) 3, x r 13734 3], .arr
  [n 0, n 0], .arr [x r (-14964) 3, x r (-23925) 3], .arr [x r (-883) 3, x r (-306) 2], .arr [x r 2581 3, x r
  (-6855) 3], .arr [x r (-968) 3, x r (-30806) 3], .arr [x r (-13951) 3, x r (-1613) 3], .arr [x r 879 2, x r
  5242 3], .arr [x r (-323) 3, x r 28951 3], .arr [x r (-121) 2, x r 7177 3], .arr [x r 6568 3, x r 1199 2],
  .arr [x r 6813 3, x r 13698 3], .arr [x r 3342 3, x r 3514 3], .arr [x r 32173 3, x r (-1013) 3], .arr [x r
  12582 3, x r (-13977) 3], .arr [x r 1661 3, x r (-11423) 3], .arr [x r 1926 2, x r (-14525) 3]]), ("o", .arr
  [.arr [x r (-3833) 3, x r 5197 3], .arr [x r 23038 3, x r (-2271) 2], .arr [x r 3264 3, x r (-25511) 3],
  .arr [x r 2849 3, x r (-1563) 3], .arr [x r 25938 3, x r 7844 3], .arr [n 0, n 0], .arr [x r 14964 3, x r
  23925 3], .arr [x r 7878 3, x r 12787 3], .arr [x r (-564) 3, x r 1613 3], .arr [x r 806 3, x r 27096 3],
  .arr [x r 13952 3, x r 1612 3], .arr [x r (-879) 2, x r (-5161) 3], .arr [x r 403 3, x r (-37984) 3], .arr
  [x r 121 2, x r (-7178) 3], .arr [x r (-1417) 3, x r (-2721) 3], .arr [x r (-11963) 3, x r (-24166) 3], .arr
  [x r (-3342) 3, x r (-3513) 3], .arr [x r (-22689) 3, x r 678 3], .arr [x r (-4028) 3, x r 4447 3], .arr [x
  r (-2744) 3, x r 18824 3], .arr [x r (-16242) 3, x r 12388 3]]), ("v", .arr [.arr [x r (-169092) 3, x r
  103181 3], .arr [x r (-113725) 3, x r 93028 3], .arr [x r (-68745) 3, x r (-49185) 3], .arr [x r (-55412) 3,
  x r (-98289) 3], .arr [x r 15988 3, x r (-104319) 3], .arr [x r 70882 3, x r (-96832) 3], .arr [x r 84474 3,
  x r (-44041) 3], .arr [x r 115766 3, x r (-2355) 3], .arr [x r 126451 3, x r 25649 3], .arr [x r 104797 3, x
  r 74556 3], .arr [x r 143102 3, x r 11512 2], .arr [x r 154151 3, x r 111007 3], .arr [x r 122458 3, x r
  73346 3], .arr [x r 143628 3, x r 25246 3], .arr [x r 131798 3, x r (-5304) 3], .arr [x r 101792 3, x r
  (-5317) 2], .arr [x r 91696 3, x r (-119356) 3], .arr [x r 17328 3, x r (-130579) 3], .arr [x r (-73009) 3,
  x r (-104794) 3], .arr [x r (-91076) 3, x r (-463) 3], .arr [x r (-126587) 3, x r 85122 3]])]

/-- A value in `examples/assets/google_fonts/Tiger.json`. -/
def tiger175 : Json F :=
  .obj [("c", .bool true), ("i", .arr [.arr [x r 2016 3, x r (-8387) 3], .arr [x r (-12742) 3, x r 29919 3],
  .arr [x r (-2822) 3, x r 25483 3], .arr [x r (-2742) 3, x r 1533 3], .arr [x r (-4508) 2, x r 5161 3], .arr
  [n 0, n 0], .arr [x r (-1992) 2, x r (-20323) 3], .arr [x r (-1532) 3, x r (-2823) 3], .arr [x r 2581 3, x r
  (-6855) 3], .arr [x r (-968) 3, x r (-30806) 3], .arr [x r (-13951) 3, x r (-1613) 3], .arr [x r 879 2, x r
  5242 3], .arr [x r (-323) 3, x r 28951 3], .arr [x r (-121) 2, x r 7177 3], .arr [x r 1209 3, x r 2822 3],
  .arr [x r 9677 3, x r 12016 3], .arr [x r 3628 3, x r 3227 3], .arr [x r 32015 3, x r (-371) 2], .arr [x r
  12339 3, x r (-14193) 3], .arr [x r 1452 3, x r (-11452) 3], .arr [x r 125 1, x r (-20886) 3]]), ("o", .arr
  [.arr [x r (-1532) 3, x r 629 2], .arr [x r 12741 3, x r (-29919) 3], .arr [x r 2823 3, x r (-25565) 3],
  .arr [x r 2822 3, x r (-1612) 3], .arr [x r 39677 3, x r (-4597) 3], .arr [n 0, n 0], .arr [x r 19919 3, x r
  20323 3], .arr [x r 1613 3, x r 2822 3], .arr [x r (-564) 3, x r 1613 3], .arr [x r 806 3, x r 27096 3],
  .arr [x r 13952 3, x r 1612 3], .arr [x r (-879) 2, x r (-5161) 3], .arr [x r 403 3, x r (-37984) 3], .arr
  [x r 121 2, x r (-7178) 3], .arr [x r (-121) 2, x r (-2823) 3], .arr [x r (-17016) 3, x r (-2121) 2], .arr
  [x r (-3629) 3, x r (-3225) 3], .arr [x r (-22581) 3, x r 258 2], .arr [x r (-3951) 3, x r 4516 3], .arr [x
  r (-2419) 3, x r 1887 2], .arr [x r (-10484) 3, x r 17742 3]]), ("v", .arr [.arr [x r (-16141) 2, x r 117539
  3], .arr [x r (-112378) 3, x r 86733 3], .arr [x r (-96443) 3, x r (-35281) 3], .arr [x r (-77701) 3, x r
  (-74314) 3], .arr [x r (-1412) 3, x r (-87458) 3], .arr [x r 73104 3, x r (-104636) 3], .arr [x r 95039 3, x
  r (-56765) 3], .arr [x r 135683 3, x r (-18862) 3], .arr [x r 13528 2, x r 19395 3], .arr [x r 104797 3, x r
  74556 3], .arr [x r 143102 3, x r 11512 2], .arr [x r 154151 3, x r 111007 3], .arr [x r 122458 3, x r 73346
  3], .arr [x r 152457 3, x r 18992 3], .arr [x r 150038 3, x r (-28862) 3], .arr [x r 110119 3, x r (-69507)
  3], .arr [x r 94152 3, x r (-110604) 3], .arr [x r (-3589) 3, x r (-107377) 3], .arr [x r (-97298) 3, x r
  (-83426) 3], .arr [x r (-116459) 3, x r 13831 3], .arr [x r (-128023) 3, x r 84394 3]])]

/-- A value in `examples/assets/google_fonts/Tiger.json`. -/
def tiger176 : Json F :=
  .obj [("c", .bool true), ("i", .arr [.arr [x r 2016 3, x r (-8387) 3], .arr [x r (-12742) 3, x r 29919 3],
  .arr [x r (-2822) 3, x r 25483 3], .arr [x r (-2742) 3, x r 1533 3], .arr [x r (-4508) 2, x r 5161 3], .arr
  [n 0, n 0], .arr [x r (-1992) 2, x r (-20323) 3], .arr [x r (-1532) 3, x r (-2823) 3], .arr [x r 2581 3, x r
  (-6855) 3], .arr [x r (-968) 3, x r (-30806) 3], .arr [x r (-13951) 3, x r (-1613) 3], .arr [x r 879 2, x r
  5242 3], .arr [x r (-323) 3, x r 28951 3], .arr [x r (-121) 2, x r 7177 3], .arr [x r 1209 3, x r 2822 3],
  .arr [x r 9677 3, x r 12016 3], .arr [x r 3628 3, x r 3227 3], .arr [x r 32015 3, x r (-371) 2], .arr [x r
  12339 3, x r (-14193) 3], .arr [x r 1452 3, x r (-11452) 3], .arr [x r 125 1, x r (-20886) 3]]), ("o", .arr
  [.arr [x r (-1532) 3, x r 629 2], .arr [x r 12741 3, x r (-29919) 3], .arr [x r 2823 3, x r (-25565) 3],
  .arr [x r 2822 3, x r (-1612) 3], .arr [x r 39677 3, x r (-4597) 3], .arr [n 0, n 0], .arr [x r 19919 3, x r
  20323 3], .arr [x r 1613 3, x r 2822 3], .arr [x r (-564) 3, x r 1613 3], .arr [x r 806 3, x r 27096 3],
  .arr [x r 13952 3, x r 1612 3], .arr [x r (-879) 2, x r (-5161) 3], .arr [x r 403 3, x r (-37984) 3], .arr
  [x r 121 2, x r (-7178) 3], .arr [x r (-121) 2, x r (-2823) 3], .arr [x r (-17016) 3, x r (-2121) 2], .arr
  [x r (-3629) 3, x r (-3225) 3], .arr [x r (-22581) 3, x r 258 2], .arr [x r (-3951) 3, x r 4516 3], .arr [x
  r (-2419) 3, x r 1887 2], .arr [x r (-10484) 3, x r 17742 3]]), ("v", .arr [.arr [x r (-16141) 2, x r 117539
  3], .arr [x r (-112378) 3, x r 86733 3], .arr [x r (-90443) 3, x r (-35281) 3], .arr [x r (-77701) 3, x r
  (-84314) 3], .arr [x r (-1412) 3, x r (-97458) 3], .arr [x r 73104 3, x r (-104636) 3], .arr [x r 95039 3, x
  r (-60765) 3], .arr [x r 135683 3, x r (-22862) 3], .arr [x r 13528 2, x r 19395 3], .arr [x r 104797 3, x r
  74556 3], .arr [x r 143102 3, x r 11512 2], .arr [x r 154151 3, x r 111007 3], .arr [x r 122458 3, x r 73346
  3], .arr [x r 152457 3, x r 18992 3], .arr [x r 150038 3, x r (-32862) 3], .arr [x r 110119 3, x r (-73507)
  3], .arr [x r 94152 3, x r (-120604) 3], .arr [x r (-3589) 3, x r (-117377) 3], .arr [x r (-97298) 3, x r
  (-93426) 3], .arr [x r (-112459) 3, x r 13831 3], .arr [x r (-128023) 3, x r 84394 3]])]

/-- A value in `examples/assets/google_fonts/Tiger.json`. -/
def tiger177 : Json F :=
  .arr [.obj [("hd", .bool false), ("ind", n 0), ("ix", n 1), ("ks", .obj [("a", n 1), ("ix", n 2), ("k", .arr
  [.obj [("i", .obj [("x", x r 3 1), ("y", n 1)]), ("o", .obj [("x", x r 167 3), ("y", x r 167 3)]), ("s",
  .arr [tiger172 r]), ("t", n 254)], .obj [("i", .obj [("x", x r 833 3), ("y", x r 833 3)]), ("o", .obj [("x",
  x r 7 1), ("y", n 0)]), ("s", .arr [tiger173 r]), ("t", n 260)], .obj [("i", .obj [("x", x r 667 3), ("y", n
  1)]), ("o", .obj [("x", x r 167 3), ("y", x r 167 3)]), ("s", .arr [tiger174 r]), ("t", n 266)], .obj [("i",
  .obj [("x", x r 667 3), ("y", n 1)]), ("o", .obj [("x", x r 333 3), ("y", n 0)]), ("s", .arr [tiger175 r]),
  ("t", n 272)], .obj [("s", .arr [tiger176 r]), ("t", n 288)]])]), ("mn", .str "ADBE Vector Shape - Group"),
  ("nm", .str "Path 1"), ("ty", .str "sh")], .obj [("bm", n 0), ("c", .obj [("a", n 0), ("ix", n 4), ("k",
  .arr [x r 732999973671 12, x r 365000017952 12, x r 258999992819 12, n 1])]), ("hd", .bool false), ("mn",
  .str "ADBE Vector Graphic - Fill"), ("nm", .str "Fill 1"), ("o", .obj [("a", n 0), ("ix", n 5), ("k", n
  100)]), ("r", n 1), ("ty", .str "fl")], .obj [("a", .obj [("a", n 0), ("ix", n 1), ("k", .arr [n 0, n 0])]),
  ("nm", .str "Transform"), ("o", .obj [("a", n 0), ("ix", n 7), ("k", n 100)]), ("p", .obj [("a", n 0),
  ("ix", n 2), ("k", .arr [x r 380919 3, x r 482587 3])]), ("r", .obj [("a", n 0), ("ix", n 6), ("k", n 0)]),
  ("s", .obj [("a", n 0), ("ix", n 3), ("k", .arr [n 100, n 100])]), ("sa", .obj [("a", n 0), ("ix", n 5),
  ("k", n 0)]), ("sk", .obj [("a", n 0), ("ix", n 4), ("k", n 0)]), ("ty", .str "tr")]]

/-- A value in `examples/assets/google_fonts/Tiger.json`. -/
def tiger178 : Json F :=
  .arr [.obj [("i", .obj [("x", x r 3 1), ("y", n 1)]), ("o", .obj [("x", x r 167 3), ("y", x r 167 3)]),
  ("s", .arr [.obj [("c", .bool true), ("i", .arr [.arr [x r 7411 3, x r 10052 3], .arr [x r 8853 3, x r
  (-2101) 2], .arr [x r (-7971) 3, x r (-797) 3], .arr [x r (-689) 3, x r 6299 3]]), ("o", .arr [.arr [x r
  (-3686) 3, m (-5)], .arr [x r (-712) 2, x r 17017 3], .arr [x r 442 2, x r 442 3], .arr [x r 1153 3, x r
  (-10538) 3]]), ("v", .arr [.arr [x r (-30339) 3, x r (-63512) 3], .arr [x r (-53669) 3, x r (-47246) 3],
  .arr [x r (-45573) 3, x r (-16538) 3], .arr [x r (-39947) 3, x r (-39683) 3]])]]), ("t", n 254)], .obj
  [("i", .obj [("x", x r 833 3), ("y", x r 833 3)]), ("o", .obj [("x", x r 7 1), ("y", n 0)]), ("s", .arr
  [.obj [("c", .bool true), ("i", .arr [.arr [x r 12087 3, x r 3141 3], .arr [x r (-6355) 3, x r (-21895) 3],
  .arr [x r (-6693) 3, x r 4401 3], .arr [x r 3432 3, x r 5327 3]]), ("o", .arr [.arr [x r (-6012) 3, x r
  (-1562) 3], .arr [x r 5187 3, x r 17703 3], .arr [x r 3711 3, x r (-2441) 3], .arr [x r (-5741) 3, x r
  (-8912) 3]]), ("v", .arr [.arr [x r 386 1, x r (-28701) 3], .arr [x r 30723 3, x r (-1374) 3], .arr [x r
  5635 2, x r 1738 2], .arr [x r 46144 3, x r (-414) 2]])]]), ("t", n 260)], .obj [("i", .obj [("x", x r 667
  3), ("y", n 1)]), ("o", .obj [("x", x r 167 3), ("y", x r 167 3)]), ("s", .arr [.obj [("c", .bool true),
  ("i", .arr [.arr [x r 8433 3, x r 9323 3], .arr [x r 6676 3, x r (-21612) 3], .arr [x r (-8039) 3, x r (-93)
  3], .arr [x r (-4) 2, x r 6306 3]]), ("o", .arr [.arr [x r (-4193) 3, x r (-4636) 3], .arr [x r (-5357) 3, x
  r 17501 3], .arr [x r 4457 3, x r 51 3], .arr [x r 67 3, x r (-10553) 3]]), ("v", .arr [.arr [x r 21035 3, x
  r (-56653) 3], .arr [x r (-58) 2, x r (-3848) 2], .arr [x r 1066 2, x r (-8732) 3], .arr [x r 13895 3, x r
  (-32179) 3]])]]), ("t", n 266)], .obj [("i", .obj [("x", x r 667 3), ("y", n 1)]), ("o", .obj [("x", x r 333
  3), ("y", n 0)]), ("s", .arr [.obj [("c", .bool true), ("i", .arr [.arr [x r 11371 3, x r 6613 3], .arr [x r
  161 3, x r (-22822) 3], .arr [x r (-8145) 3, x r 2178 3], .arr [x r 1855 3, x r 6128 3]]), ("o", .arr [.arr
  [x r (-5645) 3, x r (-3307) 3], .arr [x r (-81) 3, x r 18467 3], .arr [x r 4516 3, x r (-1209) 3], .arr [x r
  (-3145) 3, x r (-10242) 3]]), ("v", .arr [.arr [x r 25 1, x r (-24112) 3], .arr [x r (-1379) 2, x r (-402)
  3], .arr [x r 6613 3, x r 25242 3], .arr [x r 2742 3, x r 1614 3]])]]), ("t", n 272)], .obj [("s", .arr
  [.obj [("c", .bool true), ("i", .arr [.arr [x r 11371 3, x r 6613 3], .arr [x r 161 3, x r (-22822) 3], .arr
  [x r (-8145) 3, x r 2178 3], .arr [x r 1855 3, x r 6128 3]]), ("o", .arr [.arr [x r (-5645) 3, x r (-3307)
  3], .arr [x r (-81) 3, x r 18467 3], .arr [x r 4516 3, x r (-1209) 3], .arr [x r (-3145) 3, x r (-10242)
  3]]), ("v", .arr [.arr [x r 25 1, x r (-24112) 3], .arr [x r (-1379) 2, x r (-402) 3], .arr [x r 6613 3, x r
  25242 3], .arr [x r 2742 3, x r 1614 3]])]]), ("t", n 288)]]

/-- A value in `examples/assets/google_fonts/Tiger.json`. -/
def tiger179 : Json F :=
  .arr [.obj [("i", .obj [("x", x r 3 1), ("y", n 1)]), ("o", .obj [("x", x r 167 3), ("y", x r 167 3)]),
  ("s", .arr [.obj [("c", .bool true), ("i", .arr [.arr [x r 11817 3, x r 6207 3], .arr [x r 8475 3, x r
  (-18474) 3], .arr [x r (-6245) 3, x r (-3583) 3], .arr [x r (-3094) 3, x r 6486 3]]), ("o", .arr [.arr [x r
  (-7618) 3, x r (-4037) 3], .arr [x r (-75) 1, x r 16349 3], .arr [x r 9855 3, x r 5782 3], .arr [x r 5293 3,
  x r (-10813) 3]]), ("v", .arr [.arr [x r (-38586) 3, x r (-52273) 3], .arr [x r (-61286) 3, x r (-34549) 3],
  .arr [x r (-59852) 3, x r (-5423) 3], .arr [x r (-45939) 3, x r (-24356) 3]])]]), ("t", n 254)], .obj [("i",
  .obj [("x", x r 833 3), ("y", x r 833 3)]), ("o", .obj [("x", x r 7 1), ("y", n 0)]), ("s", .arr [.obj
  [("c", .bool true), ("i", .arr [.arr [x r 13088 3, x r (-262) 2], .arr [x r (-5052) 3, x r (-19688) 3], .arr
  [x r (-7107) 3, x r 115 2], .arr [x r 1682 3, x r 6987 3]]), ("o", .arr [.arr [x r (-846) 2, x r 1662 3],
  .arr [x r 4471 3, x r 17423 3], .arr [x r 11297 3, x r (-1716) 3], .arr [x r (-2698) 3, x r (-11733) 3]]),
  ("v", .arr [.arr [x r 34214 3, x r (-42113) 3], .arr [x r 27744 3, x r (-1405) 2], .arr [x r 47201 3, x r
  7671 3], .arr [x r 46084 3, x r (-15797) 3]])]]), ("t", n 260)], .obj [("i", .obj [("x", x r 667 3), ("y", n
  1)]), ("o", .obj [("x", x r 167 3), ("y", x r 167 3)]), ("s", .arr [.obj [("c", .bool true), ("i", .arr
  [.arr [x r 12434 3, x r 5123 3], .arr [x r 656 2, x r (-19065) 3], .arr [x r (-6602) 3, x r (-3007) 3], .arr
  [x r (-2421) 3, x r 6704 3]]), ("o", .arr [.arr [x r (-802) 2, x r (-3337) 3], .arr [x r (-5805) 3, x r
  16872 3], .arr [x r 10432 3, x r 4872 3], .arr [x r 4172 3, x r (-11187) 3]]), ("v", .arr [.arr [x r 14558
  3, x r (-48434) 3], .arr [x r (-6279) 3, x r (-28869) 3], .arr [x r (-1851) 3, x r (-107) 3], .arr [x r
  10089 3, x r (-20102) 3]])]]), ("t", n 266)], .obj [("i", .obj [("x", x r 667 3), ("y", n 1)]), ("o", .obj
  [("x", x r 333 3), ("y", n 0)]), ("s", .arr [.obj [("c", .bool true), ("i", .arr [.arr [x r 14113 3, x r
  1451 3], .arr [x r 807 3, x r (-20322) 3], .arr [x r (-7581) 3, x r (-1049) 3], .arr [x r (-404) 3, x r 7178
  3]]), ("o", .arr [.arr [x r (-9113) 3, x r (-968) 3], .arr [x r (-725) 3, x r 17984 3], .arr [x r 12016 3, x
  r 1774 3], .arr [x r 806 3, x r (-12016) 3]]), ("v", .arr [.arr [x r 847 3, x r (-26129) 3], .arr [x r
  (-14235) 3, x r (-1291) 3], .arr [x r (-1008) 3, x r 25322 3], .arr [x r 4959 3, x r 258 2]])]]), ("t", n
  272)], .obj [("s", .arr [.obj [("c", .bool true), ("i", .arr [.arr [x r 14113 3, x r 1451 3], .arr [x r 807
  3, x r (-20322) 3], .arr [x r (-7581) 3, x r (-1049) 3], .arr [x r (-404) 3, x r 7178 3]]), ("o", .arr [.arr
  [x r (-9113) 3, x r (-968) 3], .arr [x r (-725) 3, x r 17984 3], .arr [x r 12016 3, x r 1774 3], .arr [x r
  806 3, x r (-12016) 3]]), ("v", .arr [.arr [x r 847 3, x r (-26129) 3], .arr [x r (-14235) 3, x r (-1291)
  3], .arr [x r (-1008) 3, x r 25322 3], .arr [x r 4959 3, x r 258 2]])]]), ("t", n 288)]]

/-- A value in `examples/assets/google_fonts/Tiger.json`. -/
def tiger180 : Json F :=
  .obj [("c", .bool true), ("i", .arr [.arr [x r (-62928) 3, x r (-71443) 3], .arr [x r (-451) 3, x r (-9986)
  3], .arr [x r 18343 3, x r (-22935) 3], .arr [n 0, n 0], .arr [x r 16129 3, x r (-10184) 3], .arr [x r
  (-24177) 3, x r (-16865) 3], .arr [x r (-13243) 3, x r (-1347) 3], .arr [x r (-28355) 3, x r 27229 3], .arr
  [x r (-6748) 3, x r 2995 3], .arr [n 0, n 0], .arr [n 0, n 0], .arr [n 0, n 0], .arr [n 0, n 0], .arr [n 0,
  n 0], .arr [n 0, n 0], .arr [x r (-11936) 3, x r (-24758) 3], .arr [x r (-29676) 3, x r 483 3], .arr [x r
  (-328) 3, x r 16334 3], .arr [x r (-557) 3, x r 26271 3], .arr [x r (-5718) 3, x r 56321 3], .arr [x r 35159
  3, x r 46593 3], .arr [x r 74208 3, x r 2021 2], .arr [x r 6286 3, x r 3579 3], .arr [x r 2671 2, x r 20014
  3]]), ("o", .arr [.arr [x r 31995 3, x r 36325 3], .arr [x r 191 3, x r 4217 3], .arr [x r (-25045) 3, x r
  31315 3], .arr [n 0, n 0], .arr [x r (-25188) 3, x r 15793 3], .arr [x r 26473 3, x r 18467 3], .arr [x r
  13313 3, x r 1354 3], .arr [x r 28297 3, x r (-27173) 3], .arr [x r 6748 3, x r (-2995) 3], .arr [n 0, n 0],
  .arr [n 0, n 0], .arr [n 0, n 0], .arr [n 0, n 0], .arr [n 0, n 0], .arr [n 0, n 0], .arr [x r 12016 3, x r
  24758 3], .arr [x r 52096 3, x r (-888) 3], .arr [x r 321 3, x r (-15965) 3], .arr [x r 557 3, x r (-26272)
  3], .arr [x r 8068 3, x r (-7947) 2], .arr [x r (-32152) 3, x r (-42607) 3], .arr [x r (-87315) 3, x r
  (-23779) 3], .arr [x r (-9754) 3, x r 542 3], .arr [x r (-70321) 3, x r (-52691) 3]]), ("v", .arr [.arr [x r
  (-238007) 3, x r 6799 3], .arr [x r (-110757) 3, x r 89304 3], .arr [x r (-136792) 3, x r 127362 3], .arr [x
  r (-189586) 3, x r 182135 3], .arr [x r (-218456) 3, x r 197141 3], .arr [x r (-225446) 3, x r 258956 3],
  .arr [x r (-170359) 3, x r 28245 2], .arr [x r (-9667) 2, x r 236854 3], .arr [x r (-3467) 3, x r 160097 3],
  .arr [x r 77628 3, x r 58471 3], .arr [x r 124299 3, x r 54043 3], .arr [x r 126127 3, x r 122079 3], .arr
  [x r 158505 3, x r 18023 2], .arr [x r 174967 3, x r 200981 3], .arr [x r 163258 3, x r 218367 3], .arr [x r
  165355 3, x r 272802 3], .arr [x r 235676 3, x r 292238 3], .arr [x r 279466 3, x r 224561 3], .arr [x r
  27008 2, x r 176166 3], .arr [x r 33157 2, x r 11864 3], .arr [x r 304289 3, x r (-129498) 3], .arr [x r
  15193 2, x r (-226816) 3], .arr [x r (-27131) 3, x r (-210936) 3], .arr [x r (-92073) 3, x r (-22912) 2]])]

/-- A value in `examples/assets/google_fonts/Tiger.json`. -/
def tiger181 : Json F :=
  .obj [("c", .bool true), ("i", .arr [.arr [x r (-52745) 3, x r (-79259) 3], .arr [x r (-4566) 3, x r (-8892)
  3], .arr [x r (-196) 3, x r (-29368) 3], .arr [n 0, n 0], .arr [x r 6114 3, x r (-18068) 3], .arr [x r
  (-29401) 3, x r 2126 3], .arr [x r (-11135) 3, x r 7295 3], .arr [x r (-4876) 3, x r 39009 3], .arr [x r
  (-4889) 3, x r 5532 3], .arr [n 0, n 0], .arr [n 0, n 0], .arr [n 0, n 0], .arr [n 0, n 0], .arr [n 0, n 0],
  .arr [n 0, n 0], .arr [x r (-11936) 3, x r (-24758) 3], .arr [x r (-29676) 3, x r 483 3], .arr [x r (-328)
  3, x r 16334 3], .arr [x r (-557) 3, x r 26271 3], .arr [x r (-5718) 3, x r 56321 3], .arr [x r 35159 3, x r
  46593 3], .arr [x r 74208 3, x r 2021 2], .arr [x r 5748 3, x r 4392 3], .arr [x r 27383 3, x r 13582 3]]),
  ("o", .arr [.arr [x r 26818 3, x r 40298 3], .arr [x r 1928 3, x r 3755 3], .arr [x r 268 3, x r 40098 3],
  .arr [n 0, n 0], .arr [x r (-9619) 3, x r 28131 3], .arr [x r 32193 3, x r (-2328) 3], .arr [x r 11194 3, x
  r (-7333) 3], .arr [x r 4866 3, x r (-38928) 3], .arr [x r 4889 3, x r (-5532) 3], .arr [n 0, n 0], .arr [n
  0, n 0], .arr [n 0, n 0], .arr [n 0, n 0], .arr [n 0, n 0], .arr [n 0, n 0], .arr [x r 12016 3, x r 24758
  3], .arr [x r 52096 3, x r (-888) 3], .arr [x r 321 3, x r (-15965) 3], .arr [x r 557 3, x r (-26272) 3],
  .arr [x r 8068 3, x r (-7947) 2], .arr [x r (-32152) 3, x r (-42608) 3], .arr [x r (-87315) 3, x r (-23779)
  3], .arr [x r (-9738) 3, x r (-775) 3], .arr [x r (-7872) 2, x r (-39046) 3]]), ("v", .arr [.arr [x r
  (-240372) 3, x r (-65942) 3], .arr [x r (-138416) 3, x r 48632 3], .arr [x r (-137422) 3, x r 109397 3],
  .arr [x r (-141598) 3, x r 205054 3], .arr [x r (-154572) 3, x r 234893 3], .arr [x r (-12107) 2, x r 28731
  2], .arr [x r (-63484) 3, x r 270866 3], .arr [x r (-34962) 3, x r 18904 2], .arr [x r (-11396) 3, x r 68352
  3], .arr [x r 62753 3, x r 47538 3], .arr [x r 124299 3, x r 54043 3], .arr [x r 126127 3, x r 122079 3],
  .arr [x r 158505 3, x r 18023 2], .arr [x r 174967 3, x r 200981 3], .arr [x r 163258 3, x r 218367 3], .arr
  [x r 165355 3, x r 272802 3], .arr [x r 235676 3, x r 292238 3], .arr [x r 279466 3, x r 224561 3], .arr [x
  r 27008 2, x r 176166 3], .arr [x r 33157 2, x r 11864 3], .arr [x r 304289 3, x r (-134498) 3], .arr [x r
  15193 2, x r (-236816) 3], .arr [x r (-2124) 3, x r (-253331) 3], .arr [x r (-60745) 3, x r (-261688) 3]])]

/-- A value in `examples/assets/google_fonts/Tiger.json`. -/
def tiger182 : Json F :=
  .obj [("c", .bool true), ("i", .arr [.arr [x r (-55037) 3, x r (-77537) 3], .arr [x r (-4617) 3, x r (-8865)
  3], .arr [x r (-379) 3, x r (-29364) 3], .arr [n 0, n 0], .arr [x r 15053 3, x r (-11512) 3], .arr [x r
  (-25868) 3, x r (-14611) 3], .arr [x r (-13426) 3, x r 371 3], .arr [x r (-9274) 3, x r 38201 3], .arr [x r
  (-4855) 3, x r 5562 3], .arr [n 0, n 0], .arr [n 0, n 0], .arr [n 0, n 0], .arr [n 0, n 0], .arr [n 0, n 0],
  .arr [n 0, n 0], .arr [x r (-11936) 3, x r (-24758) 3], .arr [x r (-29676) 3, x r 483 3], .arr [x r (-242)
  3, x r 16237 3], .arr [x r (-4256) 3, x r 25478 3], .arr [x r (-6721) 3, x r 56185 3], .arr [x r 34712 3, x
  r 46918 3], .arr [x r 787 1, x r 16681 3], .arr [x r 587 2, x r 4212 3], .arr [x r 2393 2, x r 13985 3]]),
  ("o", .arr [.arr [x r 27983 3, x r 39423 3], .arr [x r 1952 3, x r 3743 3], .arr [x r 516 3, x r 40093 3],
  .arr [n 0, n 0], .arr [x r (-23519) 3, x r 17867 3], .arr [x r 28325 3, x r 15999 3], .arr [x r 13495 3, x r
  (-372) 3], .arr [x r 9844 3, x r (-40551) 3], .arr [x r 4855 3, x r (-5561) 3], .arr [n 0, n 0], .arr [n 0,
  n 0], .arr [n 0, n 0], .arr [n 0, n 0], .arr [n 0, n 0], .arr [n 0, n 0], .arr [x r 12016 3, x r 24758 3],
  .arr [x r 52096 3, x r (-888) 3], .arr [x r 236 3, x r (-15966) 3], .arr [x r 3699 3, x r (-24015) 3], .arr
  [x r 845 2, x r (-73217) 3], .arr [x r (-32521) 3, x r (-44007) 3], .arr [x r (-88088) 3, x r (-19286) 3],
  .arr [x r (-8785) 3, x r (-155) 2], .arr [x r (-7389) 2, x r (-45582) 3]]), ("v", .arr [.arr [x r (-24988)
  2, x r (-6034) 2], .arr [x r (-147221) 3, x r 56306 3], .arr [x r (-147435) 3, x r 115475 3], .arr [x r
  (-145959) 3, x r 187741 3], .arr [x r (-167964) 3, x r 204212 3], .arr [x r (-168582) 3, x r 266131 3], .arr
  [x r (-108354) 3, x r 283499 3], .arr [x r (-47207) 3, x r 217445 3], .arr [x r (-20096) 3, x r 75964 3],
  .arr [x r 55535 3, x r 56004 3], .arr [x r 125047 3, x r 57104 3], .arr [x r 128714 3, x r 117489 3], .arr
  [x r 165173 3, x r 172505 3], .arr [x r 178138 3, x r 198735 3], .arr [x r 163258 3, x r 218367 3], .arr [x
  r 165355 3, x r 272802 3], .arr [x r 235676 3, x r 292238 3], .arr [x r 280127 3, x r 220069 3], .arr [x r
  274073 3, x r 162547 3], .arr [x r 330694 3, x r 1141 2], .arr [x r 304187 3, x r (-137512) 3], .arr [x r
  14331 2, x r (-231844) 3], .arr [x r (-15724) 3, x r (-243356) 3], .arr [x r (-47911) 3, x r (-256681) 3]])]

/-- A value in `examples/assets/google_fonts/Tiger.json`. -/
def tiger183 : Json F :=
  .obj [("c", .bool true), ("i", .arr [.arr [x r (-61418) 3, x r (-72745) 3], .arr [x r (-4758) 3, x r (-8791)
  3], .arr [x r (-888) 3, x r (-29355) 3], .arr [n 0, n 0], .arr [x r 11693 3, x r (-15403) 3], .arr [x r
  (-30564) 3, x r (-6854) 3], .arr [x r (-12742) 3, x r 5565 3], .arr [x r (-3952) 3, x r 39113 3], .arr [x r
  (-4758) 3, x r 5645 3], .arr [n 0, n 0], .arr [n 0, n 0], .arr [n 0, n 0], .arr [n 0, n 0], .arr [n 0, n 0],
  .arr [n 0, n 0], .arr [x r (-11936) 3, x r (-24758) 3], .arr [x r (-29676) 3, x r 483 3], .arr [n 0, x r
  15968 3], .arr [x r (-14555) 3, x r 23269 3], .arr [x r (-9516) 3, x r 55805 3], .arr [x r 33468 3, x r
  47822 3], .arr [x r 91209 3, x r 6855 3], .arr [x r 621 2, x r 371 2], .arr [x r 14317 3, x r 15108 3]]),
  ("o", .arr [.arr [x r 31228 3, x r 36986 3], .arr [x r 2016 3, x r 3709 3], .arr [x r 1209 3, x r 4008 2],
  .arr [n 0, n 0], .arr [x r (-18306) 3, x r 23951 3], .arr [x r 33468 3, x r 75 1], .arr [x r 12822 3, x r
  (-5564) 3], .arr [x r 3951 3, x r (-39032) 3], .arr [x r 4758 3, x r (-5645) 3], .arr [n 0, n 0], .arr [n 0,
  n 0], .arr [n 0, n 0], .arr [n 0, n 0], .arr [n 0, n 0], .arr [n 0, n 0], .arr [x r 12016 3, x r 24758 3],
  .arr [x r 52096 3, x r (-888) 3], .arr [n 0, x r (-15968) 3], .arr [x r 12445 3, x r (-17731) 3], .arr [x r
  9516 3, x r (-55806) 3], .arr [x r (-33547) 3, x r (-47903) 3], .arr [x r (-90241) 3, x r (-6774) 3], .arr
  [x r (-6129) 3, x r (-3709) 3], .arr [x r (-60443) 3, x r (-63781) 3]]), ("v", .arr [.arr [x r (-276354) 3,
  x r (-44741) 3], .arr [x r (-171738) 3, x r 77676 3], .arr [x r (-175318) 3, x r 1324 1], .arr [x r
  (-166012) 3, x r 216754 3], .arr [x r (-189076) 3, x r 237722 3], .arr [x r (-170851) 3, x r 297881 3], .arr
  [x r (-99964) 3, x r 290705 3], .arr [x r (-65045) 3, x r 208367 3], .arr [x r (-4432) 2, x r 97159 3], .arr
  [x r 35437 3, x r 79578 3], .arr [x r 127129 3, x r 65627 3], .arr [x r 135919 3, x r 104706 3], .arr [x r
  183742 3, x r 150996 3], .arr [x r 186967 3, x r 192481 3], .arr [x r 163258 3, x r 218367 3], .arr [x r
  165355 3, x r 272802 3], .arr [x r 235676 3, x r 292238 3], .arr [x r 281966 3, x r 207561 3], .arr [x r
  285192 3, x r 124626 3], .arr [x r 328256 3, x r 10144 3], .arr [x r 303901 3, x r (-145902) 3], .arr [x r
  119307 3, x r (-217998) 3], .arr [x r (-53594) 3, x r (-215579) 3], .arr [x r (-84648) 3, x r (-2326) 1]])]

/-- A value in `examples/assets/google_fonts/Tiger.json`. -/
def tiger184 : Json F :=
  .obj [("c", .bool true), ("i", .arr [.arr [x r (-61418) 3, x r (-72745) 3], .arr [x r (-4758) 3, x r (-8791)
  3], .arr [x r (-888) 3, x r (-29355) 3], .arr [n 0, n 0], .arr [x r 11693 3, x r (-15403) 3], .arr [x r
  (-30564) 3, x r (-6854) 3], .arr [x r (-12742) 3, x r 5565 3], .arr [x r (-3952) 3, x r 39113 3], .arr [x r
  (-4758) 3, x r 5645 3], .arr [n 0, n 0], .arr [n 0, n 0], .arr [n 0, n 0], .arr [n 0, n 0], .arr [n 0, n 0],
  .arr [n 0, n 0], .arr [x r (-11936) 3, x r (-24758) 3], .arr [x r (-29676) 3, x r 483 3], .arr [n 0, x r
  15968 3], .arr [x r (-3226) 3, x r 879 2], .arr [x r (-9516) 3, x r 55805 3], .arr [x r 33468 3, x r 47822
  3], .arr [x r 91209 3, x r 6855 3], .arr [x r 621 2, x r 371 2], .arr [x r 14317 3, x r 15108 3]]), ("o",
  .arr [.arr [x r 31228 3, x r 36986 3], .arr [x r 2016 3, x r 3709 3], .arr [x r 1209 3, x r 4008 2], .arr [n
  0, n 0], .arr [x r (-18306) 3, x r 23951 3], .arr [x r 33468 3, x r 75 1], .arr [x r 12822 3, x r (-5564)
  3], .arr [x r 3951 3, x r (-39032) 3], .arr [x r 4758 3, x r (-5645) 3], .arr [n 0, n 0], .arr [n 0, n 0],
  .arr [n 0, n 0], .arr [n 0, n 0], .arr [n 0, n 0], .arr [n 0, n 0], .arr [x r 12016 3, x r 24758 3], .arr [x
  r 52096 3, x r (-888) 3], .arr [n 0, x r (-15968) 3], .arr [x r 3145 3, x r (-879) 2], .arr [x r 9516 3, x r
  (-55806) 3], .arr [x r (-33547) 3, x r (-47903) 3], .arr [x r (-90241) 3, x r (-6774) 3], .arr [x r (-6129)
  3, x r (-3709) 3], .arr [x r (-60443) 3, x r (-63781) 3]]), ("v", .arr [.arr [x r (-276354) 3, x r (-54741)
  3], .arr [x r (-171738) 3, x r 71676 3], .arr [x r (-169318) 3, x r 132401 3], .arr [x r (-166012) 3, x r
  216754 3], .arr [x r (-189076) 3, x r 237722 3], .arr [x r (-170851) 3, x r 297881 3], .arr [x r (-99964) 3,
  x r 290705 3], .arr [x r (-65045) 3, x r 208367 3], .arr [x r (-4432) 2, x r 87159 3], .arr [x r 35437 3, x
  r 69578 3], .arr [x r 127129 3, x r 65627 3], .arr [x r 135919 3, x r 100707 3], .arr [x r 183742 3, x r
  146997 3], .arr [x r 186967 3, x r 192481 3], .arr [x r 163258 3, x r 218367 3], .arr [x r 165355 3, x r
  272802 3], .arr [x r 235676 3, x r 292238 3], .arr [x r 281966 3, x r 207561 3], .arr [x r 285192 3, x r
  120626 3], .arr [x r 328256 3, x r 144 3], .arr [x r 303901 3, x r (-155902) 3], .arr [x r 119307 3, x r
  (-227998) 3], .arr [x r (-53594) 3, x r (-225579) 3], .arr [x r (-70648) 3, x r (-2416) 1]])]

/-- A value in `examples/assets/google_fonts/Tiger.json`. -/
def tiger185 : Json F :=
  .arr [.obj [("hd", .bool false), ("ind", n 0), ("ix", n 1), ("ks", .obj [("a", n 1), ("ix", n 2), ("k", .arr
  [.obj [("i", .obj [("x", x r 3 1), ("y", n 1)]), ("o", .obj [("x", x r 167 3), ("y", x r 167 3)]), ("s",
  .arr [tiger180 r]), ("t", n 254)], .obj [("i", .obj [("x", x r 833 3), ("y", x r 833 3)]), ("o", .obj [("x",
  x r 7 1), ("y", n 0)]), ("s", .arr [tiger181 r]), ("t", n 260)], .obj [("i", .obj [("x", x r 667 3), ("y", n
  1)]), ("o", .obj [("x", x r 167 3), ("y", x r 167 3)]), ("s", .arr [tiger182 r]), ("t", n 266)], .obj [("i",
  .obj [("x", x r 667 3), ("y", n 1)]), ("o", .obj [("x", x r 333 3), ("y", n 0)]), ("s", .arr [tiger183 r]),
  ("t", n 272)], .obj [("s", .arr [tiger184 r]), ("t", n 288)]])]), ("mn", .str "ADBE Vector Shape - Group"),
  ("nm", .str "Path 1"), ("ty", .str "sh")], .obj [("bm", n 0), ("c", .obj [("a", n 0), ("ix", n 4), ("k",
  .arr [n 1, x r 588000009574 12, x r 75 3, n 1])]), ("hd", .bool false), ("mn", .str
  "ADBE Vector Graphic - Fill"), ("nm", .str "Fill 1"), ("o", .obj [("a", n 0), ("ix", n 5), ("k", n 100)]),
  ("r", n 1), ("ty", .str "fl")], .obj [("a", .obj [("a", n 0), ("ix", n 1), ("k", .arr [n 0, n 0])]), ("nm",
  .str "Transform"), ("o", .obj [("a", n 0), ("ix", n 7), ("k", n 100)]), ("p", .obj [("a", n 0), ("ix", n 2),
  ("k", .arr [x r 338022 3, x r 305631 3])]), ("r", .obj [("a", n 0), ("ix", n 6), ("k", n 0)]), ("s", .obj
  [("a", n 0), ("ix", n 3), ("k", .arr [n 100, n 100])]), ("sa", .obj [("a", n 0), ("ix", n 5), ("k", n 0)]),
  ("sk", .obj [("a", n 0), ("ix", n 4), ("k", n 0)]), ("ty", .str "tr")]]

/-- A value in `examples/assets/google_fonts/Tiger.json`. -/
def tiger186 : Json F :=
  .arr [.obj [("bm", n 0), ("cix", n 2), ("hd", .bool false), ("it", .arr [.obj [("hd", .bool false), ("ind",
  n 0), ("ix", n 1), ("ks", .obj [("a", n 1), ("ix", n 2), ("k", tiger158 r)]), ("mn", .str
  "ADBE Vector Shape - Group"), ("nm", .str "Path 1"), ("ty", .str "sh")], .obj [("bm", n 0), ("c", .obj
  [("a", n 0), ("ix", n 4), ("k", .arr [x r 2 1, x r 19199999641 11, x r 184000007779 12, n 1])]), ("hd",
  .bool false), ("mn", .str "ADBE Vector Graphic - Fill"), ("nm", .str "Fill 1"), ("o", .obj [("a", n 0),
  ("ix", n 5), ("k", n 100)]), ("r", n 1), ("ty", .str "fl")], .obj [("a", .obj [("a", n 0), ("ix", n 1),
  ("k", .arr [n 0, n 0])]), ("nm", .str "Transform"), ("o", .obj [("a", n 0), ("ix", n 7), ("k", n 100)]),
  ("p", .obj [("a", n 0), ("ix", n 2), ("k", .arr [x r 537812 3, x r 408234 3])]), ("r", .obj [("a", n 0),
  ("ix", n 6), ("k", n 0)]), ("s", .obj [("a", n 0), ("ix", n 3), ("k", .arr [n 100, n 100])]), ("sa", .obj
  [("a", n 0), ("ix", n 5), ("k", n 0)]), ("sk", .obj [("a", n 0), ("ix", n 4), ("k", n 0)]), ("ty", .str
  "tr")]]), ("ix", n 1), ("mn", .str "ADBE Vector Group"), ("nm", .str "Group 1"), ("np", n 2), ("ty", .str
  "gr")], .obj [("bm", n 0), ("cix", n 2), ("hd", .bool false), ("it", .arr [.obj [("hd", .bool false),
  ("ind", n 0), ("ix", n 1), ("ks", .obj [("a", n 1), ("ix", n 2), ("k", tiger159 r)]), ("mn", .str
  "ADBE Vector Shape - Group"), ("nm", .str "Path 1"), ("ty", .str "sh")], .obj [("bm", n 0), ("c", .obj
  [("a", n 0), ("ix", n 4), ("k", .arr [x r 2 1, x r 19199999641 11, x r 184000007779 12, n 1])]), ("hd",
  .bool false), ("mn", .str "ADBE Vector Graphic - Fill"), ("nm", .str "Fill 1"), ("o", .obj [("a", n 0),
  ("ix", n 5), ("k", n 100)]), ("r", n 1), ("ty", .str "fl")], .obj [("a", .obj [("a", n 0), ("ix", n 1),
  ("k", .arr [n 0, n 0])]), ("nm", .str "Transform"), ("o", .obj [("a", n 0), ("ix", n 7), ("k", n 100)]),
  ("p", .obj [("a", n 0), ("ix", n 2), ("k", .arr [x r 554908 3, x r 310372 3])]), ("r", .obj [("a", n 0),
  ("ix", n 6), ("k", n 0)]), ("s", .obj [("a", n 0), ("ix", n 3), ("k", .arr [n 100, n 100])]), ("sa", .obj
  [("a", n 0), ("ix", n 5), ("k", n 0)]), ("sk", .obj [("a", n 0), ("ix", n 4), ("k", n 0)]), ("ty", .str
  "tr")]]), ("ix", n 2), ("mn", .str "ADBE Vector Group"), ("nm", .str "Group 2"), ("np", n 2), ("ty", .str
  "gr")], .obj [("bm", n 0), ("cix", n 2), ("hd", .bool false), ("it", .arr [.obj [("hd", .bool false),
  ("ind", n 0), ("ix", n 1), ("ks", .obj [("a", n 1), ("ix", n 2), ("k", tiger160 r)]), ("mn", .str
  "ADBE Vector Shape - Group"), ("nm", .str "Path 1"), ("ty", .str "sh")], .obj [("bm", n 0), ("c", .obj
  [("a", n 0), ("ix", n 4), ("k", .arr [x r 2 1, x r 19199999641 11, x r 184000007779 12, n 1])]), ("hd",
  .bool false), ("mn", .str "ADBE Vector Graphic - Fill"), ("nm", .str "Fill 1"), ("o", .obj [("a", n 0),
  ("ix", n 5), ("k", n 100)]), ("r", n 1), ("ty", .str "fl")], .obj [("a", .obj [("a", n 0), ("ix", n 1),
  ("k", .arr [n 0, n 0])]), ("nm", .str "Transform"), ("o", .obj [("a", n 0), ("ix", n 7), ("k", n 100)]),
  ("p", .obj [("a", n 0), ("ix", n 2), ("k", .arr [x r 439063 3, x r 320694 3])]), ("r", .obj [("a", n 0),
  ("ix", n 6), ("k", n 0)]), ("s", .obj [("a", n 0), ("ix", n 3), ("k", .arr [n 100, n 100])]), ("sa", .obj
  [("a", n 0), ("ix", n 5), ("k", n 0)]), ("sk", .obj [("a", n 0), ("ix", n 4), ("k", n 0)]), ("ty", .str
  "tr")]]), ("ix", n 3), ("mn", .str "ADBE Vector Group"), ("nm", .str "Group 3"), ("np", n 2), ("ty", .str
  "gr")], .obj [("bm", n 0), ("cix", n 2), ("hd", .bool false), ("it", .arr [.obj [("hd", .bool false),
  ("ind", n 0), ("ix", n 1), ("ks", .obj [("a", n 1), ("ix", n 2), ("k", tiger161 r)]), ("mn", .str
  "ADBE Vector Shape - Group"), ("nm", .str "Path 1"), ("ty", .str "sh")], .obj [("bm", n 0), ("c", .obj
  [("a", n 0), ("ix", n 4), ("k", .arr [x r 2 1, x r 19199999641 11, x r 184000007779 12, n 1])]), ("hd",
  .bool false), ("mn", .str "ADBE Vector Graphic - Fill"), ("nm", .str "Fill 1"), ("o", .obj [("a", n 0),
  ("ix", n 5), ("k", n 100)]), ("r", n 1), ("ty", .str "fl")], .obj [("a", .obj [("a", n 0), ("ix", n 1),
  ("k", .arr [n 0, n 0])]), ("nm", .str "Transform"), ("o", .obj [("a", n 0), ("ix", n 7), ("k", n 100)]),
  ("p", .obj [("a", n 0), ("ix", n 2), ("k", .arr [x r 351605 3, x r 326783 3])]), ("r", .obj [("a", n 0),
  ("ix", n 6), ("k", n 0)]), ("s", .obj [("a", n 0), ("ix", n 3), ("k", .arr [n 100, n 100])]), ("sa", .obj
  [("a", n 0), ("ix", n 5), ("k", n 0)]), ("sk", .obj [("a", n 0), ("ix", n 4), ("k", n 0)]), ("ty", .str
  "tr")]]), ("ix", n 4), ("mn", .str "ADBE Vector Group"), ("nm", .str "Group 4"), ("np", n 2), ("ty", .str
  "gr")], .obj [("bm", n 0), ("cix", n 2), ("hd", .bool false), ("it", .arr [.obj [("hd", .bool false),
  ("ind", n 0), ("ix", n 1), ("ks", .obj [("a", n 1), ("ix", n 2), ("k", tiger162 r)]), ("mn", .str
  "ADBE Vector Shape - Group"), ("nm", .str "Path 1"), ("ty", .str "sh")], .obj [("bm", n 0), ("c", .obj
  [("a", n 0), ("ix", n 4), ("k", .arr [x r 2 1, x r 19199999641 11, x r 184000007779 12, n 1])]), ("hd",
  .bool false), ("mn", .str "ADBE Vector Graphic - Fill"), ("nm", .str "Fill 1"), ("o", .obj [("a", n 0),
  ("ix", n 5), ("k", n 100)]), ("r", n 1), ("ty", .str "fl")], .obj [("a", .obj [("a", n 0), ("ix", n 1),
  ("k", .arr [n 0, n 0])]), ("nm", .str "Transform"), ("o", .obj [("a", n 0), ("ix", n 7), ("k", n 100)]),
  ("p", .obj [("a", n 0), ("ix", n 2), ("k", .arr [x r 600029 3, x r 186059 3])]), ("r", .obj [("a", n 0),
  ("ix", n 6), ("k", n 0)]), ("s", .obj [("a", n 0), ("ix", n 3), ("k", .arr [n 100, n 100])]), ("sa", .obj
  [("a", n 0), ("ix", n 5), ("k", n 0)]), ("sk", .obj [("a", n 0), ("ix", n 4), ("k", n 0)]), ("ty", .str
  "tr")]]), ("ix", n 5), ("mn", .str "ADBE Vector Group"), ("nm", .str "Group 5"), ("np", n 2), ("ty", .str
  "gr")], .obj [("bm", n 0), ("cix", n 2), ("hd", .bool false), ("it", .arr [.obj [("hd", .bool false),
  ("ind", n 0), ("ix", n 1), ("ks", .obj [("a", n 1), ("ix", n 2), ("k", tiger163 r)]), ("mn", .str
  "ADBE Vector Shape - Group"), ("nm", .str "Path 1"), ("ty", .str "sh")], .obj [("bm", n 0), ("c", .obj
  [("a", n 0), ("ix", n 4), ("k", .arr [x r 2 1, x r 19199999641 11, x r 184000007779 12, n 1])]), ("hd",
  .bool false), ("mn", .str "ADBE Vector Graphic - Fill"), ("nm", .str "Fill 1"), ("o", .obj [("a", n 0),
  ("ix", n 5), ("k", n 100)]), ("r", n 1), ("ty", .str "fl")], .obj [("a", .obj [("a", n 0), ("ix", n 1),
  ("k", .arr [n 0, n 0])]), ("nm", .str "Transform"), ("o", .obj [("a", n 0), ("ix", n 7), ("k", n 100)]),
  ("p", .obj [("a", n 0), ("ix", n 2), ("k", .arr [x r 528739 3, x r 162188 3])]), ("r", .obj [("a", n 0),
  ("ix", n 6), ("k", n 0)]), ("s", .obj [("a", n 0), ("ix", n 3), ("k", .arr [n 100, n 100])]), ("sa", .obj
  [("a", n 0), ("ix", n 5), ("k", n 0)]), ("sk", .obj [("a", n 0), ("ix", n 4), ("k", n 0)]), ("ty", .str
  "tr")]]), ("ix", n 6), ("mn", .str "ADBE Vector Group"), ("nm", .str "Group 6"), ("np", n 2), ("ty", .str
  "gr")], .obj [("bm", n 0), ("cix", n 2), ("hd", .bool false), ("it", .arr [.obj [("hd", .bool false),
  ("ind", n 0), ("ix", n 1), ("ks", .obj [("a", n 1), ("ix", n 2), ("k", tiger164 r)]), ("mn", .str
  "ADBE Vector Shape - Group"), ("nm", .str "Path 1"), ("ty", .str "sh")], .obj [("bm", n 0), ("c", .obj
  [("a", n 0), ("ix", n 4), ("k", .arr [x r 2 1, x r 19199999641 11, x r 184000007779 12, n 1])]), ("hd",
  .bool false), ("mn", .str "ADBE Vector Graphic - Fill"), ("nm", .str "Fill 1"), ("o", .obj [("a", n 0),
  ("ix", n 5), ("k", n 100)]), ("r", n 1), ("ty", .str "fl")], .obj [("a", .obj [("a", n 0), ("ix", n 1),
  ("k", .arr [n 0, n 0])]), ("nm", .str "Transform"), ("o", .obj [("a", n 0), ("ix", n 7), ("k", n 100)]),
  ("p", .obj [("a", n 0), ("ix", n 2), ("k", .arr [x r 43112 2, x r 156785 3])]), ("r", .obj [("a", n 0),
  ("ix", n 6), ("k", n 0)]), ("s", .obj [("a", n 0), ("ix", n 3), ("k", .arr [n 100, n 100])]), ("sa", .obj
  [("a", n 0), ("ix", n 5), ("k", n 0)]), ("sk", .obj [("a", n 0), ("ix", n 4), ("k", n 0)]), ("ty", .str
  "tr")]]), ("ix", n 7), ("mn", .str "ADBE Vector Group"), ("nm", .str "Group 7"), ("np", n 2), ("ty", .str
  "gr")], .obj [("bm", n 0), ("cix", n 2), ("hd", .bool false), ("it", .arr [.obj [("hd", .bool false),
  ("ind", n 0), ("ix", n 1), ("ks", .obj [("a", n 1), ("ix", n 2), ("k", tiger165 r)]), ("mn", .str
  "ADBE Vector Shape - Group"), ("nm", .str "Path 1"), ("ty", .str "sh")], .obj [("bm", n 0), ("c", .obj
  [("a", n 0), ("ix", n 4), ("k", .arr [x r 2 1, x r 19199999641 11, x r 184000007779 12, n 1])]), ("hd",
  .bool false), ("mn", .str "ADBE Vector Graphic - Fill"), ("nm", .str "Fill 1"), ("o", .obj [("a", n 0),
  ("ix", n 5), ("k", n 100)]), ("r", n 1), ("ty", .str "fl")], .obj [("a", .obj [("a", n 0), ("ix", n 1),
  ("k", .arr [n 0, n 0])]), ("nm", .str "Transform"), ("o", .obj [("a", n 0), ("ix", n 7), ("k", n 100)]),
  ("p", .obj [("a", n 0), ("ix", n 2), ("k", .arr [x r 329952 3, x r 154446 3])]), ("r", .obj [("a", n 0),
  ("ix", n 6), ("k", n 0)]), ("s", .obj [("a", n 0), ("ix", n 3), ("k", .arr [n 100, n 100])]), ("sa", .obj
  [("a", n 0), ("ix", n 5), ("k", n 0)]), ("sk", .obj [("a", n 0), ("ix", n 4), ("k", n 0)]), ("ty", .str
  "tr")]]), ("ix", n 8), ("mn", .str "ADBE Vector Group"), ("nm", .str "Group 8"), ("np", n 2), ("ty", .str
  "gr")], .obj [("bm", n 0), ("cix", n 2), ("hd", .bool false), ("it", .arr [.obj [("hd", .bool false),
  ("ind", n 0), ("ix", n 1), ("ks", .obj [("a", n 1), ("ix", n 2), ("k", tiger166 r)]), ("mn", .str
  "ADBE Vector Shape - Group"), ("nm", .str "Path 1"), ("ty", .str "sh")], .obj [("bm", n 0), ("c", .obj
  [("a", n 0), ("ix", n 4), ("k", .arr [x r 2 1, x r 19199999641 11, x r 184000007779 12, n 1])]), ("hd",
  .bool false), ("mn", .str "ADBE Vector Graphic - Fill"), ("nm", .str "Fill 1"), ("o", .obj [("a", n 0),
  ("ix", n 5), ("k", n 100)]), ("r", n 1), ("ty", .str "fl")], .obj [("a", .obj [("a", n 0), ("ix", n 1),
  ("k", .arr [n 0, n 0])]), ("nm", .str "Transform"), ("o", .obj [("a", n 0), ("ix", n 7), ("k", n 100)]),
  ("p", .obj [("a", n 0), ("ix", n 2), ("k", .arr [x r 285759 3, x r 244243 3])]), ("r", .obj [("a", n 0),
  ("ix", n 6), ("k", n 0)]), ("s", .obj [("a", n 0), ("ix", n 3), ("k", .arr [n 100, n 100])]), ("sa", .obj
  [("a", n 0), ("ix", n 5), ("k", n 0)]), ("sk", .obj [("a", n 0), ("ix", n 4), ("k", n 0)]), ("ty", .str
  "tr")]]), ("ix", n 9), ("mn", .str "ADBE Vector Group"), ("nm", .str "Group 9"), ("np", n 2), ("ty", .str
  "gr")], .obj [("bm", n 0), ("cix", n 2), ("hd", .bool false), ("it", .arr [.obj [("hd", .bool false),
  ("ind", n 0), ("ix", n 1), ("ks", .obj [("a", n 1), ("ix", n 2), ("k", tiger167 r)]), ("mn", .str
  "ADBE Vector Shape - Group"), ("nm", .str "Path 1"), ("ty", .str "sh")], .obj [("bm", n 0), ("c", .obj
  [("a", n 0), ("ix", n 4), ("k", .arr [x r 2 1, x r 19199999641 11, x r 184000007779 12, n 1])]), ("hd",
  .bool false), ("mn", .str "ADBE Vector Graphic - Fill"), ("nm", .str "Fill 1"), ("o", .obj [("a", n 0),
  ("ix", n 5), ("k", n 100)]), ("r", n 1), ("ty", .str "fl")], .obj [("a", .obj [("a", n 0), ("ix", n 1),
  ("k", .arr [n 0, n 0])]), ("nm", .str "Transform"), ("o", .obj [("a", n 0), ("ix", n 7), ("k", n 100)]),
  ("p", .obj [("a", n 0), ("ix", n 2), ("k", .arr [x r 231082 3, x r 309767 3])]), ("r", .obj [("a", n 0),
  ("ix", n 6), ("k", n 0)]), ("s", .obj [("a", n 0), ("ix", n 3), ("k", .arr [n 100, n 100])]), ("sa", .obj
  [("a", n 0), ("ix", n 5), ("k", n 0)]), ("sk", .obj [("a", n 0), ("ix", n 4), ("k", n 0)]), ("ty", .str
  "tr")]]), ("ix", n 10), ("mn", .str "ADBE Vector Group"), ("nm", .str "Group 10"), ("np", n 2), ("ty", .str
  "gr")], .obj [("bm", n 0), ("cix", n 2), ("hd", .bool false), ("it", .arr [.obj [("hd", .bool false),
  ("ind", n 0), ("ix", n 1), ("ks", .obj [("a", n 1), ("ix", n 2), ("k", tiger168 r)]), ("mn", .str
  "ADBE Vector Shape - Group"), ("nm", .str "Path 1"), ("ty", .str "sh")], .obj [("bm", n 0), ("c", .obj
  [("a", n 0), ("ix", n 4), ("k", .arr [x r 991999966491 12, x r 929000016755 12, x r 8 1, n 1])]), ("hd",
  .bool false), ("mn", .str "ADBE Vector Graphic - Fill"), ("nm", .str "Fill 1"), ("o", .obj [("a", n 0),
  ("ix", n 5), ("k", n 100)]), ("r", n 1), ("ty", .str "fl")], .obj [("a", .obj [("a", n 0), ("ix", n 1),
  ("k", .arr [n 0, n 0])]), ("nm", .str "Transform"), ("o", .obj [("a", n 0), ("ix", n 7), ("k", n 100)]),
  ("p", .obj [("a", n 0), ("ix", n 2), ("k", .arr [x r 102609 3, x r 292047 3])]), ("r", .obj [("a", n 0),
  ("ix", n 6), ("k", n 0)]), ("s", .obj [("a", n 0), ("ix", n 3), ("k", .arr [n 100, n 100])]), ("sa", .obj
  [("a", n 0), ("ix", n 5), ("k", n 0)]), ("sk", .obj [("a", n 0), ("ix", n 4), ("k", n 0)]), ("ty", .str
  "tr")]]), ("ix", n 11), ("mn", .str "ADBE Vector Group"), ("nm", .str "Group 11"), ("np", n 2), ("ty", .str
  "gr")], .obj [("bm", n 0), ("cix", n 2), ("hd", .bool false), ("it", .arr [.obj [("hd", .bool false),
  ("ind", n 0), ("ix", n 1), ("ks", .obj [("a", n 1), ("ix", n 2), ("k", tiger169 r)]), ("mn", .str
  "ADBE Vector Shape - Group"), ("nm", .str "Path 1"), ("ty", .str "sh")], .obj [("bm", n 0), ("c", .obj
  [("a", n 0), ("ix", n 4), ("k", .arr [x r 2 1, x r 19199999641 11, x r 195999998205 12, n 1])]), ("hd",
  .bool false), ("mn", .str "ADBE Vector Graphic - Fill"), ("nm", .str "Fill 1"), ("o", .obj [("a", n 0),
  ("ix", n 5), ("k", n 100)]), ("r", n 1), ("ty", .str "fl")], .obj [("a", .obj [("a", n 0), ("ix", n 1),
  ("k", .arr [n 0, n 0])]), ("nm", .str "Transform"), ("o", .obj [("a", n 0), ("ix", n 7), ("k", n 100)]),
  ("p", .obj [("a", n 0), ("ix", n 2), ("k", .arr [x r 207453 3, x r 391661 3])]), ("r", .obj [("a", n 0),
  ("ix", n 6), ("k", n 0)]), ("s", .obj [("a", n 0), ("ix", n 3), ("k", .arr [n 100, n 100])]), ("sa", .obj
  [("a", n 0), ("ix", n 5), ("k", n 0)]), ("sk", .obj [("a", n 0), ("ix", n 4), ("k", n 0)]), ("ty", .str
  "tr")]]), ("ix", n 12), ("mn", .str "ADBE Vector Group"), ("nm", .str "Group 12"), ("np", n 2), ("ty", .str
  "gr")], .obj [("bm", n 0), ("cix", n 2), ("hd", .bool false), ("it", .arr [.obj [("hd", .bool false),
  ("ind", n 0), ("ix", n 1), ("ks", .obj [("a", n 1), ("ix", n 2), ("k", tiger170 r)]), ("mn", .str
  "ADBE Vector Shape - Group"), ("nm", .str "Path 1"), ("ty", .str "sh")], .obj [("bm", n 0), ("c", .obj
  [("a", n 0), ("ix", n 4), ("k", .arr [x r 2 1, x r 19199999641 11, x r 195999998205 12, n 1])]), ("hd",
  .bool false), ("mn", .str "ADBE Vector Graphic - Fill"), ("nm", .str "Fill 1"), ("o", .obj [("a", n 0),
  ("ix", n 5), ("k", n 100)]), ("r", n 1), ("ty", .str "fl")], .obj [("a", .obj [("a", n 0), ("ix", n 1),
  ("k", .arr [n 0, n 0])]), ("nm", .str "Transform"), ("o", .obj [("a", n 0), ("ix", n 7), ("k", n 100)]),
  ("p", .obj [("a", n 0), ("ix", n 2), ("k", .arr [x r 212655 3, x r 457749 3])]), ("r", .obj [("a", n 0),
  ("ix", n 6), ("k", n 0)]), ("s", .obj [("a", n 0), ("ix", n 3), ("k", .arr [n 100, n 100])]), ("sa", .obj
  [("a", n 0), ("ix", n 5), ("k", n 0)]), ("sk", .obj [("a", n 0), ("ix", n 4), ("k", n 0)]), ("ty", .str
  "tr")]]), ("ix", n 13), ("mn", .str "ADBE Vector Group"), ("nm", .str "Group 13"), ("np", n 2), ("ty", .str
  "gr")], .obj [("bm", n 0), ("cix", n 2), ("hd", .bool false), ("it", .arr [.obj [("hd", .bool false),
  ("ind", n 0), ("ix", n 1), ("ks", .obj [("a", n 1), ("ix", n 2), ("k", tiger171 r)]), ("mn", .str
  "ADBE Vector Shape - Group"), ("nm", .str "Path 1"), ("ty", .str "sh")], .obj [("bm", n 0), ("c", .obj
  [("a", n 0), ("ix", n 4), ("k", .arr [x r 995999983245 12, x r 416000007181 12, x r 122000002394 12, n
  1])]), ("hd", .bool false), ("mn", .str "ADBE Vector Graphic - Fill"), ("nm", .str "Fill 1"), ("o", .obj
  [("a", n 0), ("ix", n 5), ("k", n 100)]), ("r", n 1), ("ty", .str "fl")], .obj [("a", .obj [("a", n 0),
  ("ix", n 1), ("k", .arr [n 0, n 0])]), ("nm", .str "Transform"), ("o", .obj [("a", n 0), ("ix", n 7), ("k",
  n 100)]), ("p", .obj [("a", n 0), ("ix", n 2), ("k", .arr [x r 540513 3, x r 573715 3])]), ("r", .obj [("a",
  n 0), ("ix", n 6), ("k", n 0)]), ("s", .obj [("a", n 0), ("ix", n 3), ("k", .arr [n 100, n 100])]), ("sa",
  .obj [("a", n 0), ("ix", n 5), ("k", n 0)]), ("sk", .obj [("a", n 0), ("ix", n 4), ("k", n 0)]), ("ty", .str
  "tr")]]), ("ix", n 14), ("mn", .str "ADBE Vector Group"), ("nm", .str "Group 14"), ("np", n 2), ("ty", .str
  "gr")], .obj [("bm", n 0), ("cix", n 2), ("hd", .bool false), ("it", tiger177 r), ("ix", n 15), ("mn", .str
  "ADBE Vector Group"), ("nm", .str "Group 15"), ("np", n 2), ("ty", .str "gr")], .obj [("bm", n 0), ("cix", n
  2), ("hd", .bool false), ("it", .arr [.obj [("hd", .bool false), ("ind", n 0), ("ix", n 1), ("ks", .obj
  [("a", n 1), ("ix", n 2), ("k", tiger178 r)]), ("mn", .str "ADBE Vector Shape - Group"), ("nm", .str
  "Path 1"), ("ty", .str "sh")], .obj [("bm", n 0), ("c", .obj [("a", n 0), ("ix", n 4), ("k", .arr [x r
  995999983245 12, x r 416000007181 12, x r 122000002394 12, n 1])]), ("hd", .bool false), ("mn", .str
  "ADBE Vector Graphic - Fill"), ("nm", .str "Fill 1"), ("o", .obj [("a", n 0), ("ix", n 5), ("k", n 100)]),
  ("r", n 1), ("ty", .str "fl")], .obj [("a", .obj [("a", n 0), ("ix", n 1), ("k", .arr [n 0, n 0])]), ("nm",
  .str "Transform"), ("o", .obj [("a", n 0), ("ix", n 7), ("k", n 100)]), ("p", .obj [("a", n 0), ("ix", n 2),
  ("k", .arr [x r 151526 3, x r 574884 3])]), ("r", .obj [("a", n 0), ("ix", n 6), ("k", n 0)]), ("s", .obj
  [("a", n 0), ("ix", n 3), ("k", .arr [n 100, n 100])]), ("sa", .obj [("a", n 0), ("ix", n 5), ("k", n 0)]),
  ("sk", .obj [("a", n 0), ("ix", n 4), ("k", n 0)]), ("ty", .str "tr")]]), ("ix", n 16), ("mn", .str
  "ADBE Vector Group"), ("nm", .str "Group 16"), ("np", n 2), ("ty", .str "gr")], .obj [("bm", n 0), ("cix", n
  2), ("hd", .bool false), ("it", .arr [.obj [("hd", .bool false), ("ind", n 0), ("ix", n 1), ("ks", .obj
  [("a", n 1), ("ix", n 2), ("k", tiger179 r)]), ("mn", .str "ADBE Vector Shape - Group"), ("nm", .str
  "Path 1"), ("ty", .str "sh")], .obj [("bm", n 0), ("c", .obj [("a", n 0), ("ix", n 4), ("k", .arr [x r
  995999983245 12, x r 416000007181 12, x r 122000002394 12, n 1])]), ("hd", .bool false), ("mn", .str
  "ADBE Vector Graphic - Fill"), ("nm", .str "Fill 1"), ("o", .obj [("a", n 0), ("ix", n 5), ("k", n 100)]),
  ("r", n 1), ("ty", .str "fl")], .obj [("a", .obj [("a", n 0), ("ix", n 1), ("k", .arr [n 0, n 0])]), ("nm",
  .str "Transform"), ("o", .obj [("a", n 0), ("ix", n 7), ("k", n 100)]), ("p", .obj [("a", n 0), ("ix", n 2),
  ("k", .arr [x r 192615 3, x r 581417 3])]), ("r", .obj [("a", n 0), ("ix", n 6), ("k", n 0)]), ("s", .obj
  [("a", n 0), ("ix", n 3), ("k", .arr [n 100, n 100])]), ("sa", .obj [("a", n 0), ("ix", n 5), ("k", n 0)]),
  ("sk", .obj [("a", n 0), ("ix", n 4), ("k", n 0)]), ("ty", .str "tr")]]), ("ix", n 17), ("mn", .str
  "ADBE Vector Group"), ("nm", .str "Group 17"), ("np", n 2), ("ty", .str "gr")], .obj [("bm", n 0), ("cix", n
  2), ("hd", .bool false), ("it", tiger185 r), ("ix", n 18), ("mn", .str "ADBE Vector Group"), ("nm", .str
  "Group 18"), ("np", n 2), ("ty", .str "gr")]]

/-- A value in `examples/assets/google_fonts/Tiger.json`. -/
def tiger187 : Json F :=
  .arr [.obj [("i", .obj [("x", x r 667 3), ("y", x r 667 3)]), ("o", .obj [("x", x r 167 3), ("y", x r 167
  3)]), ("s", .arr [x r 287877 3, x r 680514 3, n 0]), ("t", n 30), ("ti", .arr [n 0, n 0, n 0]), ("to", .arr
  [n 0, n 0, n 0])], .obj [("i", .obj [("x", x r 833 3), ("y", x r 833 3)]), ("o", .obj [("x", x r 333 3),
  ("y", x r 333 3)]), ("s", .arr [x r 287877 3, x r 680514 3, n 0]), ("t", n 38), ("ti", .arr [n 0, n 0, n
  0]), ("to", .arr [n 0, n 0, n 0])], .obj [("i", .obj [("x", x r 3 1), ("y", n 1)]), ("o", .obj [("x", x r
  167 3), ("y", x r 167 3)]), ("s", .arr [x r 287877 3, x r 680514 3, n 0]), ("t", n 48), ("ti", .arr [n 0, n
  0, n 0]), ("to", .arr [n 0, n 0, n 0])], .obj [("i", .obj [("x", x r 833 3), ("y", x r 833 3)]), ("o", .obj
  [("x", x r 7 1), ("y", n 0)]), ("s", .arr [x r 302377 3, x r 570014 3, n 0]), ("t", n 58), ("ti", .arr [n 0,
  n 0, n 0]), ("to", .arr [n 0, n 0, n 0])], .obj [("i", .obj [("x", x r 667 3), ("y", x r 667 3)]), ("o",
  .obj [("x", x r 167 3), ("y", x r 167 3)]), ("s", .arr [x r 326377 3, x r 786014 3, n 0]), ("t", n 78),
  ("ti", .arr [n 0, n 0, n 0]), ("to", .arr [n 0, n 0, n 0])], .obj [("i", .obj [("x", x r 833 3), ("y", x r
  833 3)]), ("o", .obj [("x", x r 333 3), ("y", n 0)]), ("s", .arr [x r 326377 3, x r 786014 3, n 0]), ("t", n
  246), ("ti", .arr [n 0, n 0, n 0]), ("to", .arr [n 0, n 0, n 0])], .obj [("i", .obj [("x", x r 667 3), ("y",
  n 1)]), ("o", .obj [("x", x r 167 3), ("y", x r 167 3)]), ("s", .arr [x r 293377 3, x r 665691 3, n 0]),
  ("t", n 254), ("ti", .arr [n 0, n 0, n 0]), ("to", .arr [n 0, n 0, n 0])], .obj [("i", .obj [("x", x r 667
  3), ("y", n 1)]), ("o", .obj [("x", x r 7 1), ("y", n 0)]), ("s", .arr [x r 328377 3, x r 638014 3, n 0]),
  ("t", n 260), ("ti", .arr [n 0, n 0, n 0]), ("to", .arr [n 0, n 0, n 0])], .obj [("i", .obj [("x", x r 667
  3), ("y", x r 667 3)]), ("o", .obj [("x", x r 333 3), ("y", x r 333 3)]), ("s", .arr [x r 287877 3, x r
  680514 3, n 0]), ("t", n 268), ("ti", .arr [n 0, n 0, n 0]), ("to", .arr [n 0, n 0, n 0])], .obj [("s", .arr
  [x r 287877 3, x r 680514 3, n 0]), ("t", n 278)]]

/-- A value in `examples/assets/google_fonts/Tiger.json`. -/
def tiger188 : Json F :=
  .arr [.obj [("i", .obj [("x", .arr [x r 667 3]), ("y", .arr [n 1])]), ("o", .obj [("x", .arr [x r 167 3]),
  ("y", .arr [n 0])]), ("s", .arr [x r (-33515) 3]), ("t", n 30)], .obj [("i", .obj [("x", .arr [x r 833 3]),
  ("y", .arr [x r 833 3])]), ("o", .obj [("x", .arr [x r 333 3]), ("y", .arr [n 0])]), ("s", .arr [x r
  (-33515) 3]), ("t", n 38)], .obj [("i", .obj [("x", .arr [x r 3 1]), ("y", .arr [n 1])]), ("o", .obj [("x",
  .arr [x r 167 3]), ("y", .arr [x r 167 3])]), ("s", .arr [n 0]), ("t", n 48)], .obj [("i", .obj [("x", .arr
  [x r 833 3]), ("y", .arr [x r 833 3])]), ("o", .obj [("x", .arr [x r 7 1]), ("y", .arr [n 0])]), ("s", .arr
  [x r 16387 3]), ("t", n 58)], .obj [("i", .obj [("x", .arr [x r 667 3]), ("y", .arr [n 1])]), ("o", .obj
  [("x", .arr [x r 167 3]), ("y", .arr [n 0])]), ("s", .arr [x r 32502 3]), ("t", n 78)], .obj [("i", .obj
  [("x", .arr [x r 833 3]), ("y", .arr [x r 833 3])]), ("o", .obj [("x", .arr [x r 333 3]), ("y", .arr [n
  0])]), ("s", .arr [x r 32502 3]), ("t", n 246)], .obj [("i", .obj [("x", .arr [x r 667 3]), ("y", .arr [n
  1])]), ("o", .obj [("x", .arr [x r 167 3]), ("y", .arr [x r 167 3])]), ("s", .arr [x r (-7304) 3]), ("t", n
  254)], .obj [("i", .obj [("x", .arr [x r 667 3]), ("y", .arr [n 1])]), ("o", .obj [("x", .arr [x r 7 1]),
  ("y", .arr [n 0])]), ("s", .arr [x r (-1597) 2]), ("t", n 260)], .obj [("i", .obj [("x", .arr [x r 667 3]),
  ("y", .arr [n 1])]), ("o", .obj [("x", .arr [x r 333 3]), ("y", .arr [n 0])]), ("s", .arr [x r (-33515) 3]),
  ("t", n 268)], .obj [("s", .arr [x r (-33515) 3]), ("t", n 278)]]

/-- A value in `examples/assets/google_fonts/Tiger.json`. -/
def tiger189 : Json F :=
  .arr [.obj [("i", .obj [("x", x r 667 3), ("y", n 1)]), ("o", .obj [("x", x r 167 3), ("y", x r 167 3)]),
  ("s", .arr [.obj [("c", .bool true), ("i", .arr [.arr [x r 5689 3, x r 1803 3], .arr [n 0, n 0], .arr [n 0,
  n 0]]), ("o", .arr [.arr [x r (-4851) 3, x r (-1537) 3], .arr [n 0, n 0], .arr [n 0, n 0]]), ("v", .arr
  [.arr [x r 7724 3, x r (-23534) 3], .arr [x r 1544 3, x r (-25393) 3], .arr [x r 13044 3, x r (-21533)
  3]])]]), ("t", n 30)], .obj [("i", .obj [("x", x r 833 3), ("y", x r 833 3)]), ("o", .obj [("x", x r 333 3),
  ("y", n 0)]), ("s", .arr [.obj [("c", .bool true), ("i", .arr [.arr [x r 5689 3, x r 1803 3], .arr [n 0, n
  0], .arr [n 0, n 0]]), ("o", .arr [.arr [x r (-4851) 3, x r (-1537) 3], .arr [n 0, n 0], .arr [n 0, n 0]]),
  ("v", .arr [.arr [x r 23773 3, x r (-12905) 3], .arr [x r 17594 3, x r (-14764) 3], .arr [x r 29094 3, x r
  (-10904) 3]])]]), ("t", n 38)], .obj [("i", .obj [("x", x r 833 3), ("y", x r 833 3)]), ("o", .obj [("x", x
  r 167 3), ("y", x r 167 3)]), ("s", .arr [.obj [("c", .bool true), ("i", .arr [.arr [x r 5824 3, x r 93 2],
  .arr [x r (-1756) 3, x r (-5113) 3], .arr [x r (-1912) 3, x r 6439 3]]), ("o", .arr [.arr [x r (-6289) 3, x
  r (-793) 3], .arr [x r 1288 3, x r 3746 3], .arr [x r 1444 3, x r (-4917) 3]]), ("v", .arr [.arr [x r 2867
  2, x r (-18106) 3], .arr [x r 18105 3, x r (-1126) 2], .arr [x r 38089 3, x r (-8527) 3]])]]), ("t", n 44)],
  .obj [("i", .obj [("x", x r 833 3), ("y", x r 833 3)]), ("o", .obj [("x", x r 167 3), ("y", x r 167 3)]),
  ("s", .arr [.obj [("c", .bool true), ("i", .arr [.arr [x r 5968 3, n 0], .arr [x r (-3629) 3, x r (-10565)
  3], .arr [x r (-3951) 3, x r 13306 3]]), ("o", .arr [.arr [x r (-7822) 3, n 0], .arr [x r 2661 3, x r 7741
  3], .arr [x r 2984 3, x r (-10161) 3]]), ("v", .arr [.arr [x r 1049 3, x r (-15484) 3], .arr [x r (-14193)
  3, x r 645 3], .arr [x r 14839 3, x r 2178 3]])]]), ("t", n 48)], .obj [("i", .obj [("x", x r 833 3), ("y",
  x r 833 3)]), ("o", .obj [("x", x r 167 3), ("y", x r 167 3)]), ("s", .arr [.obj [("c", .bool true), ("i",
  .arr [.arr [x r 4576 3, x r 3719 3], .arr [x r 3799 3, x r (-10364) 3], .arr [x r (-11322) 3, x r 7741 3]]),
  ("o", .arr [.arr [x r (-5998) 3, x r (-4875) 3], .arr [x r (-2784) 3, x r 7594 3], .arr [x r 862 2, x r
  (-5932) 3]]), ("v", .arr [.arr [x r (-30472) 3, x r (-54081) 3], .arr [x r (-52211) 3, x r (-51212) 3], .arr
  [x r (-30904) 3, x r (-31944) 3]])]]), ("t", n 62)], .obj [("i", .obj [("x", x r 833 3), ("y", x r 833 3)]),
  ("o", .obj [("x", x r 167 3), ("y", x r 167 3)]), ("s", .arr [.obj [("c", .bool true), ("i", .arr [.arr [x r
  3715 3, x r 4562 3], .arr [x r 5815 3, x r (-9353) 3], .arr [x r (-12632) 3, x r 5263 3]]), ("o", .arr [.arr
  [x r (-487) 2, x r (-598) 2], .arr [x r (-4261) 3, x r 6853 3], .arr [x r 9626 3, x r (-4044) 3]]), ("v",
  .arr [.arr [x r (-326) 1, x r (-76119) 3], .arr [x r (-54419) 3, x r (-7773) 2], .arr [x r (-37517) 3, x r
  (-54582) 3]])]]), ("t", n 68)], .obj [("i", .obj [("x", x r 667 3), ("y", n 1)]), ("o", .obj [("x", x r 167
  3), ("y", x r 167 3)]), ("s", .arr [.obj [("c", .bool true), ("i", .arr [.arr [x r 5585 3, x r 1698 3], .arr
  [x r (-392) 3, x r (-1092) 2], .arr [x r (-7484) 3, x r 11328 3]]), ("o", .arr [.arr [x r (-732) 2, x r
  (-2226) 3], .arr [x r 287 3, x r 8002 3], .arr [x r 5684 3, x r (-866) 2]]), ("v", .arr [.arr [x r 10737 3,
  x r (-3486) 2], .arr [x r (-8117) 3, x r (-24104) 3], .arr [x r 18616 3, x r (-14408) 3]])]]), ("t", n 74)],
  .obj [("i", .obj [("x", x r 667 3), ("y", n 1)]), ("o", .obj [("x", x r 333 3), ("y", n 0)]), ("s", .arr
  [.obj [("c", .bool true), ("i", .arr [.arr [x r 551 2, x r 2292 3], .arr [x r 704 3, x r (-11149) 3], .arr
  [x r (-8758) 3, x r 10768 3]]), ("o", .arr [.arr [x r (-7222) 3, x r (-3004) 3], .arr [x r (-516) 3, x r
  8169 3], .arr [x r 6658 3, x r (-8236) 3]]), ("v", .arr [.arr [x r (-8181) 3, x r (-39155) 3], .arr [x r
  (-28449) 3, x r (-30117) 3], .arr [x r (-2232) 3, x r (-17552) 3]])]]), ("t", n 86)], .obj [("i", .obj
  [("x", x r 833 3), ("y", x r 833 3)]), ("o", .obj [("x", x r 333 3), ("y", n 0)]), ("s", .arr [.obj [("c",
  .bool true), ("i", .arr [.arr [x r 551 2, x r 2292 3], .arr [x r 704 3, x r (-11149) 3], .arr [x r (-8758)
  3, x r 10768 3]]), ("o", .arr [.arr [x r (-7222) 3, x r (-3004) 3], .arr [x r (-516) 3, x r 8169 3], .arr [x
  r 6658 3, x r (-8236) 3]]), ("v", .arr [.arr [x r (-8181) 3, x r (-39155) 3], .arr [x r (-28449) 3, x r
  (-30117) 3], .arr [x r (-2232) 3, x r (-17552) 3]])]]), ("t", n 246)], .obj [("i", .obj [("x", x r 667 3),
  ("y", n 1)]), ("o", .obj [("x", x r 167 3), ("y", x r 167 3)]), ("s", .arr [.obj [("c", .bool true), ("i",
  .arr [.arr [x r 551 2, x r 2292 3], .arr [x r 704 3, x r (-11149) 3], .arr [x r (-8758) 3, x r 10768 3]]),
  ("o", .arr [.arr [x r (-7222) 3, x r (-3004) 3], .arr [x r (-516) 3, x r 8169 3], .arr [x r 6658 3, x r
  (-8236) 3]]), ("v", .arr [.arr [x r (-8181) 3, x r (-39155) 3], .arr [x r (-28449) 3, x r (-30117) 3], .arr
  [x r (-2232) 3, x r (-17552) 3]])]]), ("t", n 254)], .obj [("i", .obj [("x", x r 667 3), ("y", n 1)]), ("o",
  .obj [("x", x r 7 1), ("y", n 0)]), ("s", .arr [.obj [("c", .bool true), ("i", .arr [.arr [x r 4002 3, x r
  4427 3], .arr [x r 5402 3, x r (-9778) 3], .arr [x r (-12521) 3, x r 5991 3]]), ("o", .arr [.arr [x r
  (-5245) 3, x r (-5803) 3], .arr [x r (-3959) 3, x r 7165 3], .arr [x r 9539 3, x r (-46) 1]]), ("v", .arr
  [.arr [x r (-39075) 3, x r (-54986) 3], .arr [x r (-61261) 3, x r (-55478) 3], .arr [x r (-42931) 3, x r
  (-32913) 3]])]]), ("t", n 260)], .obj [("i", .obj [("x", x r 667 3), ("y", n 1)]), ("o", .obj [("x", x r 333
  3), ("y", n 0)]), ("s", .arr [.obj [("c", .bool true), ("i", .arr [.arr [x r 5689 3, x r 1803 3], .arr [n 0,
  n 0], .arr [n 0, n 0]]), ("o", .arr [.arr [x r (-4851) 3, x r (-1537) 3], .arr [n 0, n 0], .arr [n 0, n
  0]]), ("v", .arr [.arr [x r 7724 3, x r (-23534) 3], .arr [x r 1544 3, x r (-25393) 3], .arr [x r 13044 3, x
  r (-21533) 3]])]]), ("t", n 268)], .obj [("s", .arr [.obj [("c", .bool true), ("i", .arr [.arr [x r 5689 3,
  x r 1803 3], .arr [n 0, n 0], .arr [n 0, n 0]]), ("o", .arr [.arr [x r (-4851) 3, x r (-1537) 3], .arr [n 0,
  n 0], .arr [n 0, n 0]]), ("v", .arr [.arr [x r 7724 3, x r (-23534) 3], .arr [x r 1544 3, x r (-25393) 3],
  .arr [x r 13044 3, x r (-21533) 3]])]]), ("t", n 278)]]

/-- A value in `examples/assets/google_fonts/Tiger.json`. -/
def tiger190 : Json F :=
  .arr [.obj [("i", .obj [("x", x r 667 3), ("y", n 1)]), ("o", .obj [("x", x r 167 3), ("y", x r 167 3)]),
  ("s", .arr [.obj [("c", .bool true), ("i", .arr [.arr [x r 18887 3, x r (-1187) 3], .arr [n 0, n 0], .arr [x
  r (-16034) 3, x r 4725 3], .arr [x r 556 3, x r 1923 3]]), ("o", .arr [.arr [x r (-13308) 3, x r 836 3],
  .arr [n 0, n 0], .arr [x r 6258 3, x r (-1844) 3], .arr [x r (-322) 3, x r (-222) 3]]), ("v", .arr [.arr [x
  r (-6473) 3, x r (-10101) 3], .arr [x r (-24947) 3, x r (-9635) 3], .arr [x r 13967 3, x r (-1271) 2], .arr
  [x r 28584 3, x r (-2096) 2]])]]), ("t", n 30)], .obj [("i", .obj [("x", x r 833 3), ("y", x r 833 3)]),
  ("o", .obj [("x", x r 333 3), ("y", n 0)]), ("s", .arr [.obj [("c", .bool true), ("i", .arr [.arr [x r 18887
  3, x r (-1187) 3], .arr [n 0, n 0], .arr [x r (-16034) 3, x r 4725 3], .arr [x r 556 3, x r 1923 3]]), ("o",
  .arr [.arr [x r (-13308) 3, x r 836 3], .arr [n 0, n 0], .arr [x r 6258 3, x r (-1844) 3], .arr [x r (-322)
  3, x r (-222) 3]]), ("v", .arr [.arr [x r 9577 3, x r 528 3], .arr [x r (-8897) 3, x r 994 3], .arr [x r
  30017 3, x r (-2081) 3], .arr [x r 44634 3, x r (-10331) 3]])]]), ("t", n 38)], .obj [("i", .obj [("x", x r
  833 3), ("y", x r 833 3)]), ("o", .obj [("x", x r 167 3), ("y", x r 167 3)]), ("s", .arr [.obj [("c", .bool
  true), ("i", .arr [.arr [x r 16733 3, x r (-4398) 3], .arr [x r (-2303) 3, x r (-5659) 3], .arr [x r
  (-17251) 3, x r 10088 3], .arr [x r 3018 3, x r 3881 3]]), ("o", .arr [.arr [x r (-13229) 3, x r 3905 3],
  .arr [x r 2107 3, x r 519 2], .arr [x r 7796 3, x r (-4854) 3], .arr [x r (-2898) 3, x r (-3003) 3]]), ("v",
  .arr [.arr [x r 1547 2, x r (-13516) 3], .arr [x r (-101) 2, x r 2374 3], .arr [x r 40224 3, x r 944 3],
  .arr [x r 50812 3, x r (-1908) 2]])]]), ("t", n 44)], .obj [("i", .obj [("x", x r 833 3), ("y", x r 833
  3)]), ("o", .obj [("x", x r 167 3), ("y", x r 167 3)]), ("s", .arr [.obj [("c", .bool true), ("i", .arr
  [.arr [x r 14436 3, x r (-7822) 3], .arr [x r (-4759) 3, x r (-11693) 3], .arr [x r (-18548) 3, x r 15807
  3], .arr [x r 5645 3, x r 5968 3]]), ("o", .arr [.arr [x r (-13145) 3, x r 7178 3], .arr [x r 4354 3, x r
  10725 3], .arr [x r 9436 3, x r (-8064) 3], .arr [x r (-5645) 3, x r (-5968) 3]]), ("v", .arr [.arr [x r
  (-11089) 3, x r (-20323) 3], .arr [x r (-25443) 3, x r 12016 3], .arr [x r 18266 3, x r 12338 3], .arr [x r
  24557 3, x r (-20242) 3]])]]), ("t", n 48)], .obj [("i", .obj [("x", x r 833 3), ("y", x r 833 3)]), ("o",
  .obj [("x", x r 167 3), ("y", x r 167 3)]), ("s", .arr [.obj [("c", .bool true), ("i", .arr [.arr [x r 15944
  3, x r 2998 3], .arr [x r 3648 3, x r (-11928) 3], .arr [x r (-24074) 3, x r 595 3], .arr [x r 609 3, x r
  8094 3]]), ("o", .arr [.arr [x r (-14553) 3, x r (-2688) 3], .arr [x r (-3345) 3, x r 10937 3], .arr [x r
  12261 3, x r (-303) 3], .arr [x r (-609) 3, x r (-8094) 3]]), ("v", .arr [.arr [x r (-39471) 3, x r (-35458)
  3], .arr [x r (-70631) 3, x r (-19606) 3], .arr [x r (-37316) 3, x r 7879 3], .arr [x r (-12189) 3, x r
  (-13183) 3]])]]), ("t", n 62)], .obj [("i", .obj [("x", x r 833 3), ("y", x r 833 3)]), ("o", .obj [("x", x
  r 167 3), ("y", x r 167 3)]), ("s", .arr [.obj [("c", .bool true), ("i", .arr [.arr [x r 14967 3, x r 6166
  3], .arr [x r 5986 3, x r (-10912) 3], .arr [x r (-23638) 3, x r (-4307) 3], .arr [x r (-1048) 3, x r 8031
  3]]), ("o", .arr [.arr [x r (-13671) 3, x r (-558) 2], .arr [x r (-5488) 3, x r 10005 3], .arr [x r 12039 3,
  x r 2193 3], .arr [x r 1048 3, x r (-8031) 3]]), ("v", .arr [.arr [x r (-43755) 3, x r (-50645) 3], .arr [x
  r (-77413) 3, x r (-41486) 3], .arr [x r (-50449) 3, x r (-7871) 3], .arr [x r (-21626) 3, x r (-23345)
  3]])]]), ("t", n 68)], .obj [("i", .obj [("x", x r 667 3), ("y", n 1)]), ("o", .obj [("x", x r 167 3), ("y",
  x r 167 3)]), ("s", .arr [.obj [("c", .bool true), ("i", .arr [.arr [x r 15736 3, x r (-3212) 3], .arr [x r
  (-1115) 3, x r (-12298) 3], .arr [x r (-21843) 3, x r 9544 3], .arr [x r 3584 3, x r 7192 3]]), ("o", .arr
  [.arr [x r (-14344) 3, x r 2977 3], .arr [x r 1023 3, x r 11276 3], .arr [x r 11125 3, x r (-4861) 3], .arr
  [x r (-3584) 3, x r (-7192) 3]]), ("v", .arr [.arr [x r 136 2, x r (-29696) 3], .arr [x r (-21276) 3, x r
  (-3517) 3], .arr [x r 19536 3, x r 9223 3], .arr [x r 34695 3, x r (-19476) 3]])]]), ("t", n 74)], .obj
  [("i", .obj [("x", x r 667 3), ("y", n 1)]), ("o", .obj [("x", x r 333 3), ("y", n 0)]), ("s", .arr [.obj
  [("c", .bool true), ("i", .arr [.arr [x r 16333 3, x r (-1678) 3], .arr [x r 108 3, x r (-12624) 3], .arr [x
  r (-23186) 3, x r 7503 3], .arr [x r 292 2, x r 7678 3]]), ("o", .arr [.arr [x r (-14894) 3, x r 1579 3],
  .arr [x r (-99) 3, x r 11575 3], .arr [x r 11809 3, x r (-3821) 3], .arr [x r (-292) 2, x r (-7678) 3]]),
  ("v", .arr [.arr [x r (-16282) 3, x r (-30659) 3], .arr [x r (-41955) 3, x r (-6314) 3], .arr [x r (-1723)
  3, x r 10771 3], .arr [x r 16598 3, x r (-16894) 3]])]]), ("t", n 86)], .obj [("i", .obj [("x", x r 833 3),
  ("y", x r 833 3)]), ("o", .obj [("x", x r 333 3), ("y", n 0)]), ("s", .arr [.obj [("c", .bool true), ("i",
  .arr [.arr [x r 16333 3, x r (-1678) 3], .arr [x r 108 3, x r (-12624) 3], .arr [x r (-23186) 3, x r 7503
  3], .arr [x r 292 2, x r 7678 3]]), ("o", .arr [.arr [x r (-14894) 3, x r 1579 3], .arr [x r (-99) 3, x r
  11575 3], .arr [x r 11809 3, x r (-3821) 3], .arr [x r (-292) 2, x r (-7678) 3]]), ("v", .arr [.arr [x r
  (-16282) 3, x r (-30659) 3], .arr [x r (-41955) 3, x r (-6314) 3], .arr [x r (-1723) 3, x r 10771 3], .arr
  [x r 16598 3, x r (-16894) 3]])]]), ("t", n 246)], .obj [("i", .obj [("x", x r 667 3), ("y", n 1)]), ("o",
  .obj [("x", x r 167 3), ("y", x r 167 3)]), ("s", .arr [.obj [("c", .bool true), ("i", .arr [.arr [x r 16333
  3, x r (-1678) 3], .arr [x r 108 3, x r (-12624) 3], .arr [x r (-23186) 3, x r 7503 3], .arr [x r 292 2, x r
  7678 3]]), ("o", .arr [.arr [x r (-14894) 3, x r 1579 3], .arr [x r (-99) 3, x r 11575 3], .arr [x r 11809
  3, x r (-3821) 3], .arr [x r (-292) 2, x r (-7678) 3]]), ("v", .arr [.arr [x r (-16282) 3, x r (-30659) 3],
  .arr [x r (-41955) 3, x r (-6314) 3], .arr [x r (-1723) 3, x r 10771 3], .arr [x r 16598 3, x r (-16894)
  3]])]]), ("t", n 254)], .obj [("i", .obj [("x", x r 667 3), ("y", n 1)]), ("o", .obj [("x", x r 7 1), ("y",
  n 0)]), ("s", .arr [.obj [("c", .bool true), ("i", .arr [.arr [x r 15483 3, x r 5465 3], .arr [x r 5494 3, x
  r (-11366) 3], .arr [x r (-24168) 3, x r (-3128) 3], .arr [x r (-642) 3, x r 819 2]]), ("o", .arr [.arr [x r
  (-14139) 3, x r (-4939) 3], .arr [x r (-5037) 3, x r 10422 3], .arr [x r 1231 2, x r 1593 3], .arr [x r 642
  3, x r (-819) 2]]), ("v", .arr [.arr [x r (-49103) 3, x r (-31026) 3], .arr [x r (-8272) 2, x r (-1999) 2],
  .arr [x r (-5365) 2, x r 12652 3], .arr [x r (-25262) 3, x r (-4527) 3]])]]), ("t", n 260)], .obj [("i",
  .obj [("x", x r 667 3), ("y", n 1)]), ("o", .obj [("x", x r 333 3), ("y", n 0)]), ("s", .arr [.obj [("c",
  .bool true), ("i", .arr [.arr [x r 18887 3, x r (-1187) 3], .arr [n 0, n 0], .arr [x r (-16034) 3, x r 4725
  3], .arr [x r 556 3, x r 1923 3]]), ("o", .arr [.arr [x r (-13308) 3, x r 836 3], .arr [n 0, n 0], .arr [x r
  6258 3, x r (-1844) 3], .arr [x r (-322) 3, x r (-222) 3]]), ("v", .arr [.arr [x r (-6473) 3, x r (-10101)
  3], .arr [x r (-24947) 3, x r (-9635) 3], .arr [x r 13967 3, x r (-1271) 2], .arr [x r 28584 3, x r (-2096)
  2]])]]), ("t", n 268)], .obj [("s", .arr [.obj [("c", .bool true), ("i", .arr [.arr [x r 18887 3, x r
  (-1187) 3], .arr [n 0, n 0], .arr [x r (-16034) 3, x r 4725 3], .arr [x r 556 3, x r 1923 3]]), ("o", .arr
  [.arr [x r (-13308) 3, x r 836 3], .arr [n 0, n 0], .arr [x r 6258 3, x r (-1844) 3], .arr [x r (-322) 3, x
  r (-222) 3]]), ("v", .arr [.arr [x r (-6473) 3, x r (-10101) 3], .arr [x r (-24947) 3, x r (-9635) 3], .arr
  [x r 13967 3, x r (-1271) 2], .arr [x r 28584 3, x r (-2096) 2]])]]), ("t", n 278)]]

/-- A value in `examples/assets/google_fonts/Tiger.json`. -/
def tiger191 : Json F :=
  .arr [.obj [("i", .obj [("x", x r 667 3), ("y", n 1)]), ("o", .obj [("x", x r 167 3), ("y", x r 167 3)]),
  ("s", .arr [.obj [("c", .bool true), ("i", .arr [.arr [n 0, n 0], .arr [x r (-2983) 3, x r (-2984) 3], .arr
  [x r (-5322) 3, x r 5968 3], .arr [x r 6129 3, x r 75 1], .arr [n 0, n 0]]), ("o", .arr [.arr [n 0, n 0],
  .arr [x r 2984 3, x r 2984 3], .arr [x r 7984 3, x r (-879) 2], .arr [x r (-5242) 3, x r (-6532) 3], .arr [n
  0, n 0]]), ("v", .arr [.arr [x r (-977) 3, x r (-39741) 3], .arr [x r 16604 3, x r (-28643) 3], .arr [x r
  37814 3, x r (-22676) 3], .arr [x r 30314 3, x r (-51707) 3], .arr [x r 11055 3, x r (-69605) 3]])]]), ("t",
  n 30)], .obj [("i", .obj [("x", x r 833 3), ("y", x r 833 3)]), ("o", .obj [("x", x r 333 3), ("y", n 0)]),
  ("s", .arr [.obj [("c", .bool true), ("i", .arr [.arr [n 0, n 0], .arr [x r (-2983) 3, x r (-2984) 3], .arr
  [x r (-5322) 3, x r 5968 3], .arr [x r 6129 3, x r 75 1], .arr [n 0, n 0]]), ("o", .arr [.arr [n 0, n 0],
  .arr [x r 2984 3, x r 2984 3], .arr [x r 7984 3, x r (-879) 2], .arr [x r (-5242) 3, x r (-6532) 3], .arr [n
  0, n 0]]), ("v", .arr [.arr [x r 2566 3, x r (-37394) 3], .arr [x r 20148 3, x r (-26296) 3], .arr [x r
  40732 3, x r (-20743) 3], .arr [x r 30314 3, x r (-51707) 3], .arr [x r 11055 3, x r (-69605) 3]])]]), ("t",
  n 38)], .obj [("i", .obj [("x", x r 3 1), ("y", n 1)]), ("o", .obj [("x", x r 167 3), ("y", x r 167 3)]),
  ("s", .arr [.obj [("c", .bool true), ("i", .arr [.arr [n 0, n 0], .arr [x r (-2983) 3, x r (-2984) 3], .arr
  [x r (-5322) 3, x r 5968 3], .arr [x r 6129 3, x r 75 1], .arr [n 0, n 0]]), ("o", .arr [.arr [n 0, n 0],
  .arr [x r 2984 3, x r 2984 3], .arr [x r 7984 3, x r (-879) 2], .arr [x r (-5242) 3, x r (-6532) 3], .arr [n
  0, n 0]]), ("v", .arr [.arr [x r (-22661) 3, x r 1371 3], .arr [x r (-6533) 3, x r 13307 3], .arr [x r 14677
  3, x r 19273 3], .arr [x r 7177 3, x r (-9758) 3], .arr [x r (-7984) 3, x r (-25242) 3]])]]), ("t", n 48)],
  .obj [("i", .obj [("x", x r 667 3), ("y", n 1)]), ("o", .obj [("x", x r 7 1), ("y", n 0)]), ("s", .arr [.obj
  [("c", .bool true), ("i", .arr [.arr [n 0, n 0], .arr [x r (-2983) 3, x r (-2984) 3], .arr [x r (-5322) 3, x
  r 5968 3], .arr [x r 6129 3, x r 75 1], .arr [n 0, n 0]]), ("o", .arr [.arr [n 0, n 0], .arr [x r 2984 3, x
  r 2984 3], .arr [x r 7984 3, x r (-879) 2], .arr [x r (-5242) 3, x r (-6532) 3], .arr [n 0, n 0]]), ("v",
  .arr [.arr [x r (-22661) 3, x r 1371 3], .arr [x r (-6533) 3, x r 13307 3], .arr [x r 14677 3, x r 19273 3],
  .arr [x r 7177 3, x r (-9758) 3], .arr [x r (-7984) 3, x r (-25242) 3]])]]), ("t", n 58)], .obj [("i", .obj
  [("x", x r 833 3), ("y", x r 833 3)]), ("o", .obj [("x", x r 333 3), ("y", n 0)]), ("s", .arr [.obj [("c",
  .bool true), ("i", .arr [.arr [n 0, n 0], .arr [x r (-2983) 3, x r (-2984) 3], .arr [x r (-5322) 3, x r 5968
  3], .arr [x r 6129 3, x r 75 1], .arr [n 0, n 0]]), ("o", .arr [.arr [n 0, n 0], .arr [x r 2984 3, x r 2984
  3], .arr [x r 7984 3, x r (-879) 2], .arr [x r (-5242) 3, x r (-6532) 3], .arr [n 0, n 0]]), ("v", .arr
  [.arr [x r (-22661) 3, x r 1371 3], .arr [x r (-6533) 3, x r 13307 3], .arr [x r 14677 3, x r 19273 3], .arr
  [x r 7177 3, x r (-9758) 3], .arr [x r (-7984) 3, x r (-25242) 3]])]]), ("t", n 246)], .obj [("i", .obj
  [("x", x r 667 3), ("y", n 1)]), ("o", .obj [("x", x r 167 3), ("y", x r 167 3)]), ("s", .arr [.obj [("c",
  .bool true), ("i", .arr [.arr [n 0, n 0], .arr [x r (-2983) 3, x r (-2984) 3], .arr [x r (-5322) 3, x r 5968
  3], .arr [x r 6129 3, x r 75 1], .arr [n 0, n 0]]), ("o", .arr [.arr [n 0, n 0], .arr [x r 2984 3, x r 2984
  3], .arr [x r 7984 3, x r (-879) 2], .arr [x r (-5242) 3, x r (-6532) 3], .arr [n 0, n 0]]), ("v", .arr
  [.arr [x r (-22661) 3, x r 1371 3], .arr [x r (-6533) 3, x r 13307 3], .arr [x r 14677 3, x r 19273 3], .arr
  [x r 7177 3, x r (-9758) 3], .arr [x r (-7984) 3, x r (-25242) 3]])]]), ("t", n 254)], .obj [("i", .obj
  [("x", x r 667 3), ("y", n 1)]), ("o", .obj [("x", x r 7 1), ("y", n 0)]), ("s", .arr [.obj [("c", .bool
  true), ("i", .arr [.arr [n 0, n 0], .arr [x r (-3466) 3, x r (-2407) 3], .arr [x r (-4179) 3, x r 6818 3],
  .arr [x r 7362 3, x r 6294 3], .arr [n 0, n 0]]), ("o", .arr [.arr [n 0, n 0], .arr [x r 3466 3, x r 2407
  3], .arr [x r 6298 3, x r (-10067) 3], .arr [x r (-6318) 3, x r (-5498) 3], .arr [n 0, n 0]]), ("v", .arr
  [.arr [x r (-21853) 3, x r 6469 3], .arr [x r (-3863) 3, x r 15353 3], .arr [x r 18069 3, x r 17463 3], .arr
  [x r 5538 3, x r (-9777) 3], .arr [x r (-1213) 2, x r (-22326) 3]])]]), ("t", n 260)], .obj [("i", .obj
  [("x", x r 667 3), ("y", n 1)]), ("o", .obj [("x", x r 333 3), ("y", n 0)]), ("s", .arr [.obj [("c", .bool
  true), ("i", .arr [.arr [n 0, n 0], .arr [x r (-2983) 3, x r (-2984) 3], .arr [x r (-5322) 3, x r 5968 3],
  .arr [x r 6129 3, x r 75 1], .arr [n 0, n 0]]), ("o", .arr [.arr [n 0, n 0], .arr [x r 2984 3, x r 2984 3],
  .arr [x r 7984 3, x r (-879) 2], .arr [x r (-5242) 3, x r (-6532) 3], .arr [n 0, n 0]]), ("v", .arr [.arr [x
  r (-8188) 3, x r (-39719) 3], .arr [x r 9393 3, x r (-2862) 2], .arr [x r 30603 3, x r (-22654) 3], .arr [x
  r 28939 3, x r (-47819) 3], .arr [x r 968 2, x r (-65718) 3]])]]), ("t", n 268)], .obj [("s", .arr [.obj
  [("c", .bool true), ("i", .arr [.arr [n 0, n 0], .arr [x r (-2983) 3, x r (-2984) 3], .arr [x r (-5322) 3, x
  r 5968 3], .arr [x r 6129 3, x r 75 1], .arr [n 0, n 0]]), ("o", .arr [.arr [n 0, n 0], .arr [x r 2984 3, x
  r 2984 3], .arr [x r 7984 3, x r (-879) 2], .arr [x r (-5242) 3, x r (-6532) 3], .arr [n 0, n 0]]), ("v",
  .arr [.arr [x r (-977) 3, x r (-39741) 3], .arr [x r 16604 3, x r (-28643) 3], .arr [x r 37814 3, x r
  (-22676) 3], .arr [x r 30314 3, x r (-51707) 3], .arr [x r 11055 3, x r (-69605) 3]])]]), ("t", n 278)]]

/-- A value in `examples/assets/google_fonts/Tiger.json`. -/
def tiger192 : Json F :=
  .arr [.obj [("i", .obj [("x", x r 667 3), ("y", n 1)]), ("o", .obj [("x", x r 167 3), ("y", x r 167 3)]),
  ("s", .arr [.obj [("c", .bool true), ("i", .arr [.arr [x r (-5914) 3, x r 7966 3], .arr [x r 7662 3, x r
  6774 3], .arr [n 0, n 0], .arr [n 0, n 0], .arr [x r (-8907) 3, x r (-5667) 3]]), ("o", .arr [.arr [x r
  10371 3, x r (-13969) 3], .arr [x r (-10161) 3, x r (-8952) 3], .arr [n 0, n 0], .arr [n 0, n 0], .arr [x r
  17625 3, x r 11213 3]]), ("v", .arr [.arr [x r 51238 3, x r (-15681) 3], .arr [x r 35445 3, x r (-51437) 3],
  .arr [x r 12753 3, x r (-66849) 3], .arr [x r (-3178) 3, x r (-39274) 3], .arr [x r 17595 3, x r (-31352)
  3]])]]), ("t", n 30)], .obj [("i", .obj [("x", x r 833 3), ("y", x r 833 3)]), ("o", .obj [("x", x r 333 3),
  ("y", n 0)]), ("s", .arr [.obj [("c", .bool true), ("i", .arr [.arr [x r (-5317) 3, x r 8376 3], .arr [x r
  12125 3, x r 11291 3], .arr [n 0, n 0], .arr [n 0, n 0], .arr [x r (-8907) 3, x r (-5667) 3]]), ("o", .arr
  [.arr [x r 8776 3, x r (-13825) 3], .arr [x r (-991) 2, x r (-9229) 3], .arr [n 0, n 0], .arr [n 0, n 0],
  .arr [x r 17625 3, x r 11213 3]]), ("v", .arr [.arr [x r 56449 3, x r (-1223) 2], .arr [x r 37321 3, x r
  (-50195) 3], .arr [x r 16922 3, x r (-64089) 3], .arr [x r 2033 3, x r (-35823) 3], .arr [x r 22806 3, x r
  (-27901) 3]])]]), ("t", n 38)], .obj [("i", .obj [("x", x r 3 1), ("y", n 1)]), ("o", .obj [("x", x r 167
  3), ("y", x r 167 3)]), ("s", .arr [.obj [("c", .bool true), ("i", .arr [.arr [x r (-7823) 3, x r 10807 3],
  .arr [x r 7662 3, x r 6774 3], .arr [n 0, n 0], .arr [n 0, n 0], .arr [x r (-7742) 3, x r (-7177) 3]]),
  ("o", .arr [.arr [x r 8951 3, x r (-12419) 3], .arr [x r (-10161) 3, x r (-8952) 3], .arr [n 0, n 0], .arr
  [n 0, n 0], .arr [x r 6532 3, x r 6049 3]]), ("v", .arr [.arr [x r 1871 2, x r 16451 3], .arr [x r 8548 3, x
  r (-14677) 3], .arr [x r (-10322) 3, x r (-27258) 3], .arr [x r (-27661) 3, x r (-6612) 3], .arr [x r
  (-9435) 3, x r 7419 3]])]]), ("t", n 48)], .obj [("i", .obj [("x", x r 667 3), ("y", n 1)]), ("o", .obj
  [("x", x r 7 1), ("y", n 0)]), ("s", .arr [.obj [("c", .bool true), ("i", .arr [.arr [x r (-7823) 3, x r
  10807 3], .arr [x r 7662 3, x r 6774 3], .arr [n 0, n 0], .arr [n 0, n 0], .arr [x r (-7742) 3, x r (-7177)
  3]]), ("o", .arr [.arr [x r 8951 3, x r (-12419) 3], .arr [x r (-10161) 3, x r (-8952) 3], .arr [n 0, n 0],
  .arr [n 0, n 0], .arr [x r 6532 3, x r 6049 3]]), ("v", .arr [.arr [x r 1871 2, x r 16451 3], .arr [x r 8548
  3, x r (-14677) 3], .arr [x r (-10322) 3, x r (-27258) 3], .arr [x r (-27661) 3, x r (-6612) 3], .arr [x r
  (-9435) 3, x r 7419 3]])]]), ("t", n 58)], .obj [("i", .obj [("x", x r 833 3), ("y", x r 833 3)]), ("o",
  .obj [("x", x r 333 3), ("y", n 0)]), ("s", .arr [.obj [("c", .bool true), ("i", .arr [.arr [x r (-7823) 3,
  x r 10807 3], .arr [x r 7662 3, x r 6774 3], .arr [n 0, n 0], .arr [n 0, n 0], .arr [x r (-7742) 3, x r
  (-7177) 3]]), ("o", .arr [.arr [x r 8951 3, x r (-12419) 3], .arr [x r (-10161) 3, x r (-8952) 3], .arr [n
  0, n 0], .arr [n 0, n 0], .arr [x r 6532 3, x r 6049 3]]), ("v", .arr [.arr [x r 1871 2, x r 16451 3], .arr
  [x r 8548 3, x r (-14677) 3], .arr [x r (-10322) 3, x r (-27258) 3], .arr [x r (-27661) 3, x r (-6612) 3],
  .arr [x r (-9435) 3, x r 7419 3]])]]), ("t", n 246)], .obj [("i", .obj [("x", x r 667 3), ("y", n 1)]),
  ("o", .obj [("x", x r 167 3), ("y", x r 167 3)]), ("s", .arr [.obj [("c", .bool true), ("i", .arr [.arr [x r
  (-7823) 3, x r 10807 3], .arr [x r 7662 3, x r 6774 3], .arr [n 0, n 0], .arr [n 0, n 0], .arr [x r (-7742)
  3, x r (-7177) 3]]), ("o", .arr [.arr [x r 8951 3, x r (-12419) 3], .arr [x r (-10161) 3, x r (-8952) 3],
  .arr [n 0, n 0], .arr [n 0, n 0], .arr [x r 6532 3, x r 6049 3]]), ("v", .arr [.arr [x r 1871 2, x r 16451
  3], .arr [x r 8548 3, x r (-14677) 3], .arr [x r (-10322) 3, x r (-27258) 3], .arr [x r (-27661) 3, x r
  (-6612) 3], .arr [x r (-9435) 3, x r 7419 3]])]]), ("t", n 254)], .obj [("i", .obj [("x", x r 667 3), ("y",
  n 1)]), ("o", .obj [("x", x r 7 1), ("y", n 0)]), ("s", .arr [.obj [("c", .bool true), ("i", .arr [.arr [x r
  (-7823) 3, x r 10807 3], .arr [x r 7662 3, x r 6774 3], .arr [n 0, n 0], .arr [n 0, n 0], .arr [x r (-7742)
  3, x r (-7177) 3]]), ("o", .arr [.arr [x r 8951 3, x r (-12419) 3], .arr [x r (-10161) 3, x r (-8952) 3],
  .arr [n 0, n 0], .arr [n 0, n 0], .arr [x r 6532 3, x r 6049 3]]), ("v", .arr [.arr [x r 26471 3, x r 16592
  3], .arr [x r 13355 3, x r (-13301) 3], .arr [x r (-5653) 3, x r (-25402) 3], .arr [x r (-20693) 3, x r 843
  3], .arr [x r (-3908) 3, x r 10821 3]])]]), ("t", n 260)], .obj [("i", .obj [("x", x r 667 3), ("y", n 1)]),
  ("o", .obj [("x", x r 333 3), ("y", n 0)]), ("s", .arr [.obj [("c", .bool true), ("i", .arr [.arr [x r
  (-5914) 3, x r 7966 3], .arr [x r 7662 3, x r 6774 3], .arr [n 0, n 0], .arr [n 0, n 0], .arr [x r (-8907)
  3, x r (-5667) 3]]), ("o", .arr [.arr [x r 10371 3, x r (-13969) 3], .arr [x r (-10161) 3, x r (-8952) 3],
  .arr [n 0, n 0], .arr [n 0, n 0], .arr [x r 17625 3, x r 11213 3]]), ("v", .arr [.arr [x r 44027 3, x r
  (-15659) 3], .arr [x r 28234 3, x r (-51415) 3], .arr [x r 5542 3, x r (-66827) 3], .arr [x r (-10389) 3, x
  r (-39252) 3], .arr [x r 10384 3, x r (-3133) 2]])]]), ("t", n 268)], .obj [("s", .arr [.obj [("c", .bool
  true), ("i", .arr [.arr [x r (-5914) 3, x r 7966 3], .arr [x r 7662 3, x r 6774 3], .arr [n 0, n 0], .arr [n
  0, n 0], .arr [x r (-8907) 3, x r (-5667) 3]]), ("o", .arr [.arr [x r 10371 3, x r (-13969) 3], .arr [x r
  (-10161) 3, x r (-8952) 3], .arr [n 0, n 0], .arr [n 0, n 0], .arr [x r 17625 3, x r 11213 3]]), ("v", .arr
  [.arr [x r 51238 3, x r (-15681) 3], .arr [x r 35445 3, x r (-51437) 3], .arr [x r 12753 3, x r (-66849) 3],
  .arr [x r (-3178) 3, x r (-39274) 3], .arr [x r 17595 3, x r (-31352) 3]])]]), ("t", n 278)]]

/-- A value in `examples/assets/google_fonts/Tiger.json`. -/
def tiger193 : Json F :=
  .arr [.obj [("i", .obj [("x", x r 667 3), ("y", n 1)]), ("o", .obj [("x", x r 167 3), ("y", x r 167 3)]),
  ("s", .arr [.obj [("c", .bool true), ("i", .arr [.arr [n 0, n 0], .arr [x r 18982 3, x r (-31233) 3], .arr
  [x r 4691 3, x r (-7013) 3], .arr [x r (-261) 3, x r (-22696) 3], .arr [x r (-10233) 3, x r (-636) 3], .arr
  [x r (-1121) 2, x r 8203 3], .arr [n 0, n 0], .arr [x r (-15161) 3, x r 15968 3], .arr [n 0, n 0]]), ("o",
  .arr [.arr [n 0, n 0], .arr [x r (-23103) 3, x r 38015 3], .arr [x r (-28728) 3, x r (-6356) 3], .arr [x r
  265 3, x r 2302 2], .arr [x r 21048 3, x r 1309 3], .arr [x r 11129 3, x r (-8204) 3], .arr [n 0, n 0], .arr
  [x r 15161 3, x r (-15967) 3], .arr [n 0, n 0]]), ("v", .arr [.arr [x r 178 3, x r (-133306) 3], .arr [x r
  (-23865) 3, x r (-77622) 3], .arr [x r (-6566) 2, x r (-8283) 3], .arr [x r (-128854) 3, x r 31515 3], .arr
  [x r (-65846) 3, x r 86532 3], .arr [x r (-9315) 3, x r 77875 3], .arr [x r 1814 3, x r 46411 3], .arr [x r
  65361 3, x r (-21977) 3], .arr [x r 108748 3, x r (-62862) 3]])]]), ("t", n 30)], .obj [("i", .obj [("x", x
  r 833 3), ("y", x r 833 3)]), ("o", .obj [("x", x r 333 3), ("y", n 0)]), ("s", .arr [.obj [("c", .bool
  true), ("i", .arr [.arr [n 0, n 0], .arr [x r 18982 3, x r (-31233) 3], .arr [x r 4691 3, x r (-7013) 3],
  .arr [x r (-261) 3, x r (-22696) 3], .arr [x r (-10233) 3, x r (-636) 3], .arr [x r (-1121) 2, x r 8203 3],
  .arr [n 0, n 0], .arr [x r (-20047) 3, x r 25493 3], .arr [n 0, n 0]]), ("o", .arr [.arr [n 0, n 0], .arr [x
  r (-23103) 3, x r 38015 3], .arr [x r (-26159) 3, x r (-5254) 3], .arr [x r 265 3, x r 2302 2], .arr [x r
  21048 3, x r 1309 3], .arr [x r 11129 3, x r (-8204) 3], .arr [n 0, n 0], .arr [x r 1361 2, x r (-17308) 3],
  .arr [n 0, n 0]]), ("v", .arr [.arr [x r 178 3, x r (-133306) 3], .arr [x r (-19696) 3, x r (-74861) 3],
  .arr [x r (-53779) 3, x r (-415) 3], .arr [x r (-112805) 3, x r 42144 3], .arr [x r (-49797) 3, x r 97161
  3], .arr [x r 6735 3, x r 88504 3], .arr [x r 17864 3, x r 57039 3], .arr [x r 65395 3, x r (-1116) 2], .arr
  [x r 108748 3, x r (-62862) 3]])]]), ("t", n 38)], .obj [("i", .obj [("x", x r 833 3), ("y", x r 833 3)]),
  ("o", .obj [("x", x r 167 3), ("y", x r 167 3)]), ("s", .arr [.obj [("c", .bool true), ("i", .arr [.arr [n
  0, n 0], .arr [x r 2084 2, x r (-29934) 3], .arr [x r 6541 3, x r (-11711) 3], .arr [x r (-3737) 3, x r
  (-15391) 3], .arr [x r (-101) 1, x r (-1285) 3], .arr [x r (-1121) 2, x r 16955 3], .arr [n 0, n 0], .arr [x
  r (-17683) 3, x r 20884 3], .arr [n 0, n 0]]), ("o", .arr [.arr [n 0, n 0], .arr [x r (-22928) 3, x r 33355
  3], .arr [x r (-6541) 3, x r 11711 3], .arr [x r 3599 3, x r 15414 3], .arr [x r 21048 3, x r 2705 3], .arr
  [x r 11129 3, x r (-16956) 3], .arr [n 0, n 0], .arr [x r 14361 3, x r (-16659) 3], .arr [n 0, n 0]]), ("v",
  .arr [.arr [x r (-279) 3, x r (-12911) 2], .arr [x r (-32546) 3, x r (-57542) 3], .arr [x r (-7544) 2, x r
  12162 3], .arr [x r (-86987) 3, x r 69556 3], .arr [x r (-4167) 2, x r 104474 3], .arr [x r 14862 3, x r
  86582 3], .arr [x r 10097 3, x r 51896 3], .arr [x r 65379 3, x r (-16394) 3], .arr [x r 108748 3, x r
  (-62862) 3]])]]), ("t", n 44)], .obj [("i", .obj [("x", x r 833 3), ("y", x r 833 3)]), ("o", .obj [("x", x
  r 167 3), ("y", x r 167 3)]), ("s", .arr [.obj [("c", .bool true), ("i", .arr [.arr [n 0, n 0], .arr [x r
  22822 3, x r (-28548) 3], .arr [x r (-2983) 3, x r (-49032) 3], .arr [x r (-7444) 3, x r (-76) 1], .arr [x r
  (-9959) 3, x r (-1976) 3], .arr [x r (-1121) 2, x r 26289 3], .arr [n 0, n 0], .arr [x r (-15161) 3, x r
  15968 3], .arr [n 0, n 0]]), ("o", .arr [.arr [n 0, n 0], .arr [x r (-22742) 3, x r 28386 3], .arr [x r 946
  3, x r 15298 3], .arr [x r 7154 3, x r 7304 3], .arr [x r 21048 3, x r 4194 3], .arr [x r 11129 3, x r
  (-2629) 2], .arr [n 0, n 0], .arr [x r 15161 3, x r (-15967) 3], .arr [n 0, n 0]]), ("v", .arr [.arr [x r
  (-766) 3, x r (-124635) 3], .arr [x r (-46249) 3, x r (-39072) 3], .arr [x r (-105766) 3, x r 73104 3], .arr
  [x r (-92298) 3, x r 106959 3], .arr [x r (-65846) 3, x r 120441 3], .arr [x r (-9314) 3, x r 92701 3], .arr
  [x r 1814 3, x r 46411 3], .arr [x r 65361 3, x r (-21977) 3], .arr [x r 108748 3, x r (-62862) 3]])]]),
  ("t", n 48)], .obj [("i", .obj [("x", x r 833 3), ("y", x r 833 3)]), ("o", .obj [("x", x r 167 3), ("y", x
  r 167 3)]), ("s", .arr [.obj [("c", .bool true), ("i", .arr [.arr [n 0, n 0], .arr [x r 22822 3, x r
  (-28548) 3], .arr [x r 28231 3, x r (-39487) 3], .arr [x r (-972) 3, x r (-10467) 3], .arr [x r (-6398) 3, x
  r (-7726) 3], .arr [x r (-24979) 3, x r 13172 3], .arr [n 0, n 0], .arr [x r (-15161) 3, x r 15968 3], .arr
  [n 0, n 0]]), ("o", .arr [.arr [n 0, n 0], .arr [x r (-22742) 3, x r 28386 3], .arr [x r (-8808) 3, x r 1232
  2], .arr [x r 934 3, x r 10058 3], .arr [x r 13526 3, x r 16333 3], .arr [x r 24917 3, x r (-13224) 3], .arr
  [n 0, n 0], .arr [x r 15161 3, x r (-15967) 3], .arr [n 0, n 0]]), ("v", .arr [.arr [x r (-766) 3, x r
  (-124635) 3], .arr [x r (-46249) 3, x r (-39072) 3], .arr [x r (-118881) 3, x r 20997 3], .arr [x r
  (-129652) 3, x r 5535 2], .arr [x r (-117771) 3, x r 82173 3], .arr [x r (-57135) 3, x r 96131 3], .arr [x r
  3429 3, x r 46285 3], .arr [x r 65361 3, x r (-21977) 3], .arr [x r 108748 3, x r (-62862) 3]])]]), ("t", n
  62)], .obj [("i", .obj [("x", x r 833 3), ("y", x r 833 3)]), ("o", .obj [("x", x r 167 3), ("y", x r 167
  3)]), ("s", .arr [.obj [("c", .bool true), ("i", .arr [.arr [n 0, n 0], .arr [x r 22822 3, x r (-28548) 3],
  .arr [x r 35595 3, x r (-32841) 3], .arr [x r 1176 3, x r (-10422) 3], .arr [x r (-4682) 3, x r (-8847) 3],
  .arr [x r (-27076) 3, x r 7796 3], .arr [n 0, n 0], .arr [x r (-15161) 3, x r 15968 3], .arr [n 0, n 0]]),
  ("o", .arr [.arr [n 0, n 0], .arr [x r (-22742) 3, x r 28386 3], .arr [x r (-11106) 3, x r 10247 3], .arr [x
  r (-113) 2, x r 10016 3], .arr [x r 9897 3, x r 18702 3], .arr [x r 27026 3, x r (-7859) 3], .arr [n 0, n
  0], .arr [x r 15161 3, x r (-15967) 3], .arr [n 0, n 0]]), ("v", .arr [.arr [x r (-766) 3, x r (-124635) 3],
  .arr [x r (-46249) 3, x r (-39072) 3], .arr [x r (-114213) 3, x r (-2387) 3], .arr [x r (-131711) 3, x r
  28985 3], .arr [x r (-125551) 3, x r 576 1], .arr [x r (-6915) 2, x r 83547 3], .arr [x r 7717 3, x r 45953
  3], .arr [x r 65361 3, x r (-21977) 3], .arr [x r 108748 3, x r (-62862) 3]])]]), ("t", n 68)], .obj [("i",
  .obj [("x", x r 667 3), ("y", n 1)]), ("o", .obj [("x", x r 167 3), ("y", x r 167 3)]), ("s", .arr [.obj
  [("c", .bool true), ("i", .arr [.arr [n 0, n 0], .arr [x r 22822 3, x r (-28548) 3], .arr [x r 11115 3, x r
  (-46746) 3], .arr [x r (-4803) 3, x r (-9231) 3], .arr [x r (-8754) 3, x r (-469) 2], .arr [x r (-17972) 3,
  x r 21412 3], .arr [n 0, n 0], .arr [x r (-15161) 3, x r 15968 3], .arr [n 0, n 0]]), ("o", .arr [.arr [n 0,
  n 0], .arr [x r (-22742) 3, x r 28386 3], .arr [x r (-3468) 3, x r 14585 3], .arr [x r 4616 3, x r 8871 3],
  .arr [x r 18504 3, x r 9915 3], .arr [x r 17896 3, x r (-21436) 3], .arr [n 0, n 0], .arr [x r 15161 3, x r
  (-15967) 3], .arr [n 0, n 0]]), ("v", .arr [.arr [x r (-766) 3, x r (-124635) 3], .arr [x r (-46249) 3, x r
  (-39072) 3], .arr [x r (-88888) 3, x r 46762 3], .arr [x r (-85919) 3, x r 82278 3], .arr [x r (-65002) 3, x
  r 102423 3], .arr [x r (-4203) 3, x r 9255 2], .arr [x r 9775 3, x r 45794 3], .arr [x r 65361 3, x r
  (-21977) 3], .arr [x r 108748 3, x r (-62862) 3]])]]), ("t", n 74)], .obj [("i", .obj [("x", x r 667 3),
  ("y", n 1)]), ("o", .obj [("x", x r 333 3), ("y", n 0)]), ("s", .arr [.obj [("c", .bool true), ("i", .arr
  [.arr [n 0, n 0], .arr [x r 22822 3, x r (-28548) 3], .arr [x r 16032 3, x r (-46433) 3], .arr [x r (-3954)
  3, x r (-9876) 3], .arr [x r (-8432) 3, x r (-5656) 3], .arr [x r (-20447) 3, x r 19967 3], .arr [n 0, n 0],
  .arr [x r (-15161) 3, x r 15968 3], .arr [n 0, n 0]]), ("o", .arr [.arr [n 0, n 0], .arr [x r (-22742) 3, x
  r 28386 3], .arr [x r (-5002) 3, x r 14488 3], .arr [x r 38 1, x r 9491 3], .arr [x r 17823 3, x r 11956 3],
  .arr [x r 20373 3, x r (-19999) 3], .arr [n 0, n 0], .arr [x r 15161 3, x r (-15967) 3], .arr [n 0, n 0]]),
  ("v", .arr [.arr [x r (-766) 3, x r (-124635) 3], .arr [x r (-46249) 3, x r (-39072) 3], .arr [x r (-105577)
  3, x r 39847 3], .arr [x r (-106145) 3, x r 76278 3], .arr [x r (-869) 1, x r 98886 3], .arr [x r (-2405) 2,
  x r 94985 3], .arr [x r 10289 3, x r 45754 3], .arr [x r 65361 3, x r (-21977) 3], .arr [x r 108748 3, x r
  (-62862) 3]])]]), ("t", n 86)], .obj [("i", .obj [("x", x r 833 3), ("y", x r 833 3)]), ("o", .obj [("x", x
  r 333 3), ("y", n 0)]), ("s", .arr [.obj [("c", .bool true), ("i", .arr [.arr [n 0, n 0], .arr [x r 22822 3,
  x r (-28548) 3], .arr [x r 16032 3, x r (-46433) 3], .arr [x r (-3954) 3, x r (-9876) 3], .arr [x r (-8432)
  3, x r (-5656) 3], .arr [x r (-20447) 3, x r 19967 3], .arr [n 0, n 0], .arr [x r (-15161) 3, x r 15968 3],
  .arr [n 0, n 0]]), ("o", .arr [.arr [n 0, n 0], .arr [x r (-22742) 3, x r 28386 3], .arr [x r (-5002) 3, x r
  14488 3], .arr [x r 38 1, x r 9491 3], .arr [x r 17823 3, x r 11956 3], .arr [x r 20373 3, x r (-19999) 3],
  .arr [n 0, n 0], .arr [x r 15161 3, x r (-15967) 3], .arr [n 0, n 0]]), ("v", .arr [.arr [x r (-766) 3, x r
  (-124635) 3], .arr [x r (-46249) 3, x r (-39072) 3], .arr [x r (-105577) 3, x r 39847 3], .arr [x r
  (-106145) 3, x r 76278 3], .arr [x r (-869) 1, x r 98886 3], .arr [x r (-2405) 2, x r 94985 3], .arr [x r
  10289 3, x r 45754 3], .arr [x r 65361 3, x r (-21977) 3], .arr [x r 108748 3, x r (-62862) 3]])]]), ("t", n
  246)], .obj [("i", .obj [("x", x r 667 3), ("y", n 1)]), ("o", .obj [("x", x r 167 3), ("y", x r 167 3)]),
  ("s", .arr [.obj [("c", .bool true), ("i", .arr [.arr [n 0, n 0], .arr [x r 22822 3, x r (-28548) 3], .arr
  [x r 16032 3, x r (-46433) 3], .arr [x r (-3954) 3, x r (-9876) 3], .arr [x r (-8432) 3, x r (-5656) 3],
  .arr [x r (-20447) 3, x r 19967 3], .arr [n 0, n 0], .arr [x r (-15161) 3, x r 15968 3], .arr [n 0, n 0]]),
  ("o", .arr [.arr [n 0, n 0], .arr [x r (-22742) 3, x r 28386 3], .arr [x r (-5002) 3, x r 14488 3], .arr [x
  r 38 1, x r 9491 3], .arr [x r 17823 3, x r 11956 3], .arr [x r 20373 3, x r (-19999) 3], .arr [n 0, n 0],
  .arr [x r 15161 3, x r (-15967) 3], .arr [n 0, n 0]]), ("v", .arr [.arr [x r (-766) 3, x r (-124635) 3],
  .arr [x r (-46249) 3, x r (-39072) 3], .arr [x r (-105577) 3, x r 39847 3], .arr [x r (-106145) 3, x r 76278
  3], .arr [x r (-869) 1, x r 98886 3], .arr [x r (-2405) 2, x r 94985 3], .arr [x r 10289 3, x r 45754 3],
  .arr [x r 65361 3, x r (-21977) 3], .arr [x r 108748 3, x r (-62862) 3]])]]), ("t", n 254)], .obj [("i",
  .obj [("x", x r 667 3), ("y", n 1)]), ("o", .obj [("x", x r 7 1), ("y", n 0)]), ("s", .arr [.obj [("c",
  .bool true), ("i", .arr [.arr [n 0, n 0], .arr [x r 19328 3, x r (-38156) 3], .arr [x r 20395 3, x r (-7499)
  3], .arr [x r 829 3, x r (-2283) 2], .arr [x r (-5205) 3, x r (-8717) 3], .arr [x r (-2702) 2, x r 9311 3],
  .arr [x r (-23214) 3, x r 27121 3], .arr [x r (-15161) 3, x r 15968 3], .arr [n 0, n 0]]), ("o", .arr [.arr
  [n 0, n 0], .arr [x r (-16436) 3, x r 32447 3], .arr [x r (-40594) 3, x r (-519) 2], .arr [x r (-371) 3, x r
  10217 3], .arr [x r 11002 3, x r 18427 3], .arr [x r 26966 3, x r (-9372) 3], .arr [x r 23214 3, x r
  (-27121) 3], .arr [x r 15161 3, x r (-15967) 3], .arr [n 0, n 0]]), ("v", .arr [.arr [x r (-766) 3, x r
  (-124635) 3], .arr [x r (-41442) 3, x r (-37697) 3], .arr [x r (-82447) 3, x r 1123 2], .arr [x r (-138577)
  3, x r 51185 3], .arr [x r (-130842) 3, x r 7985 2], .arr [x r (-72355) 3, x r 103188 3], .arr [x r 4765 3,
  x r 52456 3], .arr [x r 65361 3, x r (-21977) 3], .arr [x r 108748 3, x r (-62863) 3]])]]), ("t", n 260)],
  .obj [("i", .obj [("x", x r 667 3), ("y", n 1)]), ("o", .obj [("x", x r 333 3), ("y", n 0)]), ("s", .arr
  [.obj [("c", .bool true), ("i", .arr [.arr [n 0, n 0], .arr [x r 18982 3, x r (-31233) 3], .arr [x r 4691 3,
  x r (-7013) 3], .arr [x r (-261) 3, x r (-22696) 3], .arr [x r (-10233) 3, x r (-636) 3], .arr [x r (-1121)
  2, x r 8203 3], .arr [n 0, n 0], .arr [x r (-15161) 3, x r 15968 3], .arr [n 0, n 0]]), ("o", .arr [.arr [n
  0, n 0], .arr [x r (-23103) 3, x r 38015 3], .arr [x r (-28728) 3, x r (-6356) 3], .arr [x r 265 3, x r 2302
  2], .arr [x r 21048 3, x r 1309 3], .arr [x r 11129 3, x r (-8204) 3], .arr [n 0, n 0], .arr [x r 15161 3, x
  r (-15967) 3], .arr [n 0, n 0]]), ("v", .arr [.arr [x r (-1197) 3, x r (-129418) 3], .arr [x r (-31076) 3, x
  r (-776) 1], .arr [x r (-6566) 2, x r (-8283) 3], .arr [x r (-128854) 3, x r 31515 3], .arr [x r (-65846) 3,
  x r 86532 3], .arr [x r (-9315) 3, x r 77875 3], .arr [x r 1814 3, x r 46411 3], .arr [x r 5815 2, x r
  (-21954) 3], .arr [x r 101537 3, x r (-6284) 2]])]]), ("t", n 268)], .obj [("s", .arr [.obj [("c", .bool
  true), ("i", .arr [.arr [n 0, n 0], .arr [x r 18982 3, x r (-31233) 3], .arr [x r 4691 3, x r (-7013) 3],
  .arr [x r (-261) 3, x r (-22696) 3], .arr [x r (-10233) 3, x r (-636) 3], .arr [x r (-1121) 2, x r 8203 3],
  .arr [n 0, n 0], .arr [x r (-15161) 3, x r 15968 3], .arr [n 0, n 0]]), ("o", .arr [.arr [n 0, n 0], .arr [x
  r (-23103) 3, x r 38015 3], .arr [x r (-28728) 3, x r (-6356) 3], .arr [x r 265 3, x r 2302 2], .arr [x r
  21048 3, x r 1309 3], .arr [x r 11129 3, x r (-8204) 3], .arr [n 0, n 0], .arr [x r 15161 3, x r (-15967)
  3], .arr [n 0, n 0]]), ("v", .arr [.arr [x r 178 3, x r (-133306) 3], .arr [x r (-23865) 3, x r (-77622) 3],
  .arr [x r (-6566) 2, x r (-8283) 3], .arr [x r (-128854) 3, x r 31515 3], .arr [x r (-65846) 3, x r 86532
  3], .arr [x r (-9315) 3, x r 77875 3], .arr [x r 1814 3, x r 46411 3], .arr [x r 65361 3, x r (-21977) 3],
  .arr [x r 108748 3, x r (-62862) 3]])]]), ("t", n 278)]]

/-- A value in `examples/assets/google_fonts/Tiger.json`. -/
def tiger194 : Json F :=
  .arr [.obj [("bm", n 0), ("cix", n 2), ("hd", .bool false), ("it", .arr [.obj [("hd", .bool false), ("ind",
  n 0), ("ix", n 1), ("ks", .obj [("a", n 1), ("ix", n 2), ("k", tiger189 r)]), ("mn", .str
  "ADBE Vector Shape - Group"), ("nm", .str "Path 1"), ("ty", .str "sh")], .obj [("bm", n 0), ("c", .obj
  [("a", n 0), ("ix", n 4), ("k", .arr [x r 732999973671 12, x r 365000017952 12, x r 258999992819 12, n
  1])]), ("hd", .bool false), ("mn", .str "ADBE Vector Graphic - Fill"), ("nm", .str "Fill 1"), ("o", .obj
  [("a", n 0), ("ix", n 5), ("k", n 100)]), ("r", n 1), ("ty", .str "fl")], .obj [("a", .obj [("a", n 0),
  ("ix", n 1), ("k", .arr [n 0, n 0])]), ("nm", .str "Transform"), ("o", .obj [("a", n 0), ("ix", n 7), ("k",
  n 100)]), ("p", .obj [("a", n 0), ("ix", n 2), ("k", .arr [x r 30894 3, x r 232263 3])]), ("r", .obj [("a",
  n 0), ("ix", n 6), ("k", n 0)]), ("s", .obj [("a", n 0), ("ix", n 3), ("k", .arr [n 100, n 100])]), ("sa",
  .obj [("a", n 0), ("ix", n 5), ("k", n 0)]), ("sk", .obj [("a", n 0), ("ix", n 4), ("k", n 0)]), ("ty", .str
  "tr")]]), ("ix", n 1), ("mn", .str "ADBE Vector Group"), ("nm", .str "Group 1"), ("np", n 2), ("ty", .str
  "gr")], .obj [("bm", n 0), ("cix", n 2), ("hd", .bool false), ("it", .arr [.obj [("hd", .bool false),
  ("ind", n 0), ("ix", n 1), ("ks", .obj [("a", n 1), ("ix", n 2), ("k", tiger190 r)]), ("mn", .str
  "ADBE Vector Shape - Group"), ("nm", .str "Path 1"), ("ty", .str "sh")], .obj [("bm", n 0), ("c", .obj
  [("a", n 0), ("ix", n 4), ("k", .arr [x r 732999973671 12, x r 365000017952 12, x r 258999992819 12, n
  1])]), ("hd", .bool false), ("mn", .str "ADBE Vector Graphic - Fill"), ("nm", .str "Fill 1"), ("o", .obj
  [("a", n 0), ("ix", n 5), ("k", n 100)]), ("r", n 1), ("ty", .str "fl")], .obj [("a", .obj [("a", n 0),
  ("ix", n 1), ("k", .arr [n 0, n 0])]), ("nm", .str "Transform"), ("o", .obj [("a", n 0), ("ix", n 7), ("k",
  n 100)]), ("p", .obj [("a", n 0), ("ix", n 2), ("k", .arr [x r 74401 3, x r 220328 3])]), ("r", .obj [("a",
  n 0), ("ix", n 6), ("k", n 0)]), ("s", .obj [("a", n 0), ("ix", n 3), ("k", .arr [n 100, n 100])]), ("sa",
  .obj [("a", n 0), ("ix", n 5), ("k", n 0)]), ("sk", .obj [("a", n 0), ("ix", n 4), ("k", n 0)]), ("ty", .str
  "tr")]]), ("ix", n 2), ("mn", .str "ADBE Vector Group"), ("nm", .str "Group 2"), ("np", n 2), ("ty", .str
  "gr")], .obj [("bm", n 0), ("cix", n 2), ("hd", .bool false), ("it", .arr [.obj [("hd", .bool false),
  ("ind", n 0), ("ix", n 1), ("ks", .obj [("a", n 1), ("ix", n 2), ("k", tiger191 r)]), ("mn", .str
  "ADBE Vector Shape - Group"), ("nm", .str "Path 1"), ("ty", .str "sh")], .obj [("bm", n 0), ("c", .obj
  [("a", n 0), ("ix", n 4), ("k", .arr [x r 2 1, x r 19199999641 11, x r 195999998205 12, n 1])]), ("hd",
  .bool false), ("mn", .str "ADBE Vector Graphic - Fill"), ("nm", .str "Fill 1"), ("o", .obj [("a", n 0),
  ("ix", n 5), ("k", n 100)]), ("r", n 1), ("ty", .str "fl")], .obj [("a", .obj [("a", n 0), ("ix", n 1),
  ("k", .arr [n 0, n 0])]), ("nm", .str "Transform"), ("o", .obj [("a", n 0), ("ix", n 7), ("k", n 100)]),
  ("p", .obj [("a", n 0), ("ix", n 2), ("k", .arr [x r 97345 3, x r 67345 3])]), ("r", .obj [("a", n 0),
  ("ix", n 6), ("k", n 0)]), ("s", .obj [("a", n 0), ("ix", n 3), ("k", .arr [n 100, n 100])]), ("sa", .obj
  [("a", n 0), ("ix", n 5), ("k", n 0)]), ("sk", .obj [("a", n 0), ("ix", n 4), ("k", n 0)]), ("ty", .str
  "tr")]]), ("ix", n 3), ("mn", .str "ADBE Vector Group"), ("nm", .str "Group 3"), ("np", n 2), ("ty", .str
  "gr")], .obj [("bm", n 0), ("cix", n 2), ("hd", .bool false), ("it", .arr [.obj [("hd", .bool false),
  ("ind", n 0), ("ix", n 1), ("ks", .obj [("a", n 1), ("ix", n 2), ("k", tiger192 r)]), ("mn", .str
  "ADBE Vector Shape - Group"), ("nm", .str "Path 1"), ("ty", .str "sh")], .obj [("bm", n 0), ("c", .obj
  [("a", n 0), ("ix", n 4), ("k", .arr [x r 2 1, x r 19199999641 11, x r 195999998205 12, n 1])]), ("hd",
  .bool false), ("mn", .str "ADBE Vector Graphic - Fill"), ("nm", .str "Fill 1"), ("o", .obj [("a", n 0),
  ("ix", n 5), ("k", n 100)]), ("r", n 1), ("ty", .str "fl")], .obj [("a", .obj [("a", n 0), ("ix", n 1),
  ("k", .arr [n 0, n 0])]), ("nm", .str "Transform"), ("o", .obj [("a", n 0), ("ix", n 7), ("k", n 100)]),
  ("p", .obj [("a", n 0), ("ix", n 2), ("k", .arr [x r 72184 3, x r 113877 3])]), ("r", .obj [("a", n 0),
  ("ix", n 6), ("k", n 0)]), ("s", .obj [("a", n 0), ("ix", n 3), ("k", .arr [n 100, n 100])]), ("sa", .obj
  [("a", n 0), ("ix", n 5), ("k", n 0)]), ("sk", .obj [("a", n 0), ("ix", n 4), ("k", n 0)]), ("ty", .str
  "tr")]]), ("ix", n 4), ("mn", .str "ADBE Vector Group"), ("nm", .str "Group 4"), ("np", n 2), ("ty", .str
  "gr")], .obj [("bm", n 0), ("cix", n 2), ("hd", .bool false), ("it", .arr [.obj [("hd", .bool false),
  ("ind", n 0), ("ix", n 1), ("ks", .obj [("a", n 1), ("ix", n 2), ("k", tiger193 r)]), ("mn", .str
  "ADBE Vector Shape - Group"), ("nm", .str "Path 1"), ("ty", .str "sh")], .obj [("bm", n 0), ("c", .obj
  [("a", n 0), ("ix", n 4), ("k", .arr [x r 995999983245 12, x r 416000007181 12, x r 122000002394 12, n
  1])]), ("hd", .bool false), ("mn", .str "ADBE Vector Graphic - Fill"), ("nm", .str "Fill 1"), ("o", .obj
  [("a", n 0), ("ix", n 5), ("k", n 100)]), ("r", n 1), ("ty", .str "fl")], .obj [("a", .obj [("a", n 0),
  ("ix", n 1), ("k", .arr [n 0, n 0])]), ("nm", .str "Transform"), ("o", .obj [("a", n 0), ("ix", n 7), ("k",
  n 100)]), ("p", .obj [("a", n 0), ("ix", n 2), ("k", .arr [x r 108999 3, x r 124885 3])]), ("r", .obj [("a",
  n 0), ("ix", n 6), ("k", n 0)]), ("s", .obj [("a", n 0), ("ix", n 3), ("k", .arr [n 100, n 100])]), ("sa",
  .obj [("a", n 0), ("ix", n 5), ("k", n 0)]), ("sk", .obj [("a", n 0), ("ix", n 4), ("k", n 0)]), ("ty", .str
  "tr")]]), ("ix", n 5), ("mn", .str "ADBE Vector Group"), ("nm", .str "Group 5"), ("np", n 2), ("ty", .str
  "gr")]]

/-- A value in `examples/assets/google_fonts/Tiger.json`. -/
def tiger195 : Json F :=
  .arr [.obj [("i", .obj [("x", x r 667 3), ("y", n 1)]), ("o", .obj [("x", x r 167 3), ("y", x r 167 3)]),
  ("s", .arr [.obj [("c", .bool true), ("i", .arr [.arr [n 0, n 0], .arr [x r (-2178) 3, x r (-21451) 3], .arr
  [x r (-3871) 3, x r (-3008) 2], .arr [x r (-39192) 3, n 0], .arr [n 0, n 0], .arr [n 0, n 0], .arr [n 0, n
  0]]), ("o", .arr [.arr [n 0, n 0], .arr [x r 4193 3, x r 42177 3], .arr [x r 2581 3, x r 19758 3], .arr [x r
  49435 3, n 0], .arr [n 0, n 0], .arr [n 0, n 0], .arr [n 0, n 0]]), ("v", .arr [.arr [x r (-68305) 3, x r
  (-65806) 3], .arr [x r (-44354) 3, x r 13145 3], .arr [x r (-73064) 3, x r 92902 3], .arr [x r (-14033) 3, x
  r 11766 2], .arr [x r 59354 3, x r 94515 3], .arr [x r 76935 3, x r (-11766) 2], .arr [x r (-71451) 3, x r
  (-100079) 3]])]]), ("t", n 30)], .obj [("i", .obj [("x", x r 833 3), ("y", x r 833 3)]), ("o", .obj [("x", x
  r 333 3), ("y", n 0)]), ("s", .arr [.obj [("c", .bool true), ("i", .arr [.arr [x r (-2201) 3, x r (-22042)
  3], .arr [x r (-2178) 3, x r (-21451) 3], .arr [x r (-3871) 3, x r (-3008) 2], .arr [x r (-39192) 3, n 0],
  .arr [n 0, n 0], .arr [n 0, n 0], .arr [n 0, n 0]]), ("o", .arr [.arr [x r 2201 3, x r 22042 3], .arr [x r
  4193 3, x r 42177 3], .arr [x r 2581 3, x r 19758 3], .arr [x r 49435 3, n 0], .arr [n 0, n 0], .arr [n 0, n
  0], .arr [n 0, n 0]]), ("v", .arr [.arr [x r (-68305) 3, x r (-65806) 3], .arr [x r (-44287) 3, x r 23645
  3], .arr [x r (-73064) 3, x r 92902 3], .arr [x r (-14033) 3, x r 11766 2], .arr [x r 59354 3, x r 94515 3],
  .arr [x r 76935 3, x r (-11766) 2], .arr [x r (-71451) 3, x r (-100079) 3]])]]), ("t", n 38)], .obj [("i",
  .obj [("x", x r 3 1), ("y", n 1)]), ("o", .obj [("x", x r 167 3), ("y", x r 167 3)]), ("s", .arr [.obj
  [("c", .bool true), ("i", .arr [.arr [n 0, n 0], .arr [x r (-2178) 3, x r (-21451) 3], .arr [x r (-3871) 3,
  x r (-3008) 2], .arr [x r (-39192) 3, n 0], .arr [n 0, n 0], .arr [n 0, n 0], .arr [n 0, n 0]]), ("o", .arr
  [.arr [n 0, n 0], .arr [x r 4193 3, x r 42177 3], .arr [x r 2581 3, x r 19758 3], .arr [x r 49435 3, n 0],
  .arr [n 0, n 0], .arr [n 0, n 0], .arr [n 0, n 0]]), ("v", .arr [.arr [x r (-68305) 3, x r (-65806) 3], .arr
  [x r (-44354) 3, x r 13145 3], .arr [x r (-73064) 3, x r 92902 3], .arr [x r (-14033) 3, x r 11766 2], .arr
  [x r 59354 3, x r 94515 3], .arr [x r 76935 3, x r (-11766) 2], .arr [x r (-71451) 3, x r (-100079) 3]])]]),
  ("t", n 48)], .obj [("i", .obj [("x", x r 833 3), ("y", x r 833 3)]), ("o", .obj [("x", x r 7 1), ("y", n
  0)]), ("s", .arr [.obj [("c", .bool true), ("i", .arr [.arr [x r 21799 3, x r (-45042) 3], .arr [x r
  (-20251) 3, x r (-25909) 3], .arr [x r (-3871) 3, x r (-3008) 2], .arr [x r (-39192) 3, n 0], .arr [n 0, n
  0], .arr [n 0, n 0], .arr [n 0, n 0]]), ("o", .arr [.arr [x r (-21799) 3, x r 45042 3], .arr [x r 4249 3, x
  r 36591 3], .arr [x r 2581 3, x r 19758 3], .arr [x r 49435 3, n 0], .arr [n 0, n 0], .arr [n 0, n 0], .arr
  [n 0, n 0]]), ("v", .arr [.arr [x r (-67305) 3, x r (-56306) 3], .arr [x r (-57354) 3, x r 32145 3], .arr [x
  r (-73064) 3, x r 92902 3], .arr [x r (-14033) 3, x r 11766 2], .arr [x r 59354 3, x r 94515 3], .arr [x r
  76935 3, x r (-11766) 2], .arr [x r (-71451) 3, x r (-100079) 3]])]]), ("t", n 58)], .obj [("i", .obj [("x",
  x r 667 3), ("y", n 1)]), ("o", .obj [("x", x r 167 3), ("y", x r 167 3)]), ("s", .arr [.obj [("c", .bool
  true), ("i", .arr [.arr [n 0, n 0], .arr [x r (-2178) 3, x r (-21451) 3], .arr [x r (-3871) 3, x r (-3008)
  2], .arr [x r (-39192) 3, n 0], .arr [n 0, n 0], .arr [n 0, n 0], .arr [n 0, n 0]]), ("o", .arr [.arr [n 0,
  n 0], .arr [x r 4193 3, x r 42177 3], .arr [x r 2581 3, x r 19758 3], .arr [x r 49435 3, n 0], .arr [n 0, n
  0], .arr [n 0, n 0], .arr [n 0, n 0]]), ("v", .arr [.arr [x r (-68305) 3, x r (-65806) 3], .arr [x r
  (-44354) 3, x r 13145 3], .arr [x r (-73064) 3, x r 92902 3], .arr [x r (-14033) 3, x r 11766 2], .arr [x r
  59354 3, x r 94515 3], .arr [x r 76935 3, x r (-11766) 2], .arr [x r (-71451) 3, x r (-100079) 3]])]]),
  ("t", n 78)], .obj [("i", .obj [("x", x r 667 3), ("y", n 1)]), ("o", .obj [("x", x r 333 3), ("y", n 0)]),
  ("s", .arr [.obj [("c", .bool true), ("i", .arr [.arr [n 0, n 0], .arr [x r (-2178) 3, x r (-21451) 3], .arr
  [x r (-3871) 3, x r (-3008) 2], .arr [x r (-39192) 3, n 0], .arr [n 0, n 0], .arr [n 0, n 0], .arr [n 0, n
  0]]), ("o", .arr [.arr [n 0, n 0], .arr [x r 4193 3, x r 42177 3], .arr [x r 2581 3, x r 19758 3], .arr [x r
  49435 3, n 0], .arr [n 0, n 0], .arr [n 0, n 0], .arr [n 0, n 0]]), ("v", .arr [.arr [x r (-68305) 3, x r
  (-65806) 3], .arr [x r (-44354) 3, x r 13145 3], .arr [x r (-73064) 3, x r 92902 3], .arr [x r (-14033) 3, x
  r 11766 2], .arr [x r 59354 3, x r 94515 3], .arr [x r 76935 3, x r (-11766) 2], .arr [x r (-71451) 3, x r
  (-100079) 3]])]]), ("t", n 246)], .obj [("i", .obj [("x", x r 667 3), ("y", n 1)]), ("o", .obj [("x", x r 7
  1), ("y", n 0)]), ("s", .arr [.obj [("c", .bool true), ("i", .arr [.arr [x r 21799 3, x r (-45042) 3], .arr
  [x r (-20251) 3, x r (-25909) 3], .arr [x r (-3871) 3, x r (-3008) 2], .arr [x r (-39192) 3, n 0], .arr [n
  0, n 0], .arr [n 0, n 0], .arr [n 0, n 0]]), ("o", .arr [.arr [x r (-21799) 3, x r 45042 3], .arr [x r 4249
  3, x r 36591 3], .arr [x r 2581 3, x r 19758 3], .arr [x r 49435 3, n 0], .arr [n 0, n 0], .arr [n 0, n 0],
  .arr [n 0, n 0]]), ("v", .arr [.arr [x r (-67305) 3, x r (-56306) 3], .arr [x r (-57354) 3, x r 32145 3],
  .arr [x r (-73064) 3, x r 92902 3], .arr [x r (-14033) 3, x r 11766 2], .arr [x r 59354 3, x r 94515 3],
  .arr [x r 76935 3, x r (-11766) 2], .arr [x r (-71451) 3, x r (-100079) 3]])]]), ("t", n 254)], .obj [("i",
  .obj [("x", x r 667 3), ("y", n 1)]), ("o", .obj [("x", x r 333 3), ("y", n 0)]), ("s", .arr [.obj [("c",
  .bool true), ("i", .arr [.arr [n 0, n 0], .arr [x r (-2178) 3, x r (-21451) 3], .arr [x r (-3871) 3, x r
  (-3008) 2], .arr [x r (-39192) 3, n 0], .arr [n 0, n 0], .arr [n 0, n 0], .arr [n 0, n 0]]), ("o", .arr
  [.arr [n 0, n 0], .arr [x r 4193 3, x r 42177 3], .arr [x r 2581 3, x r 19758 3], .arr [x r 49435 3, n 0],
  .arr [n 0, n 0], .arr [n 0, n 0], .arr [n 0, n 0]]), ("v", .arr [.arr [x r (-68305) 3, x r (-55806) 3], .arr
  [x r (-44353) 3, x r 17145 3], .arr [x r (-73064) 3, x r 92902 3], .arr [x r (-14033) 3, x r 11766 2], .arr
  [x r 59354 3, x r 94515 3], .arr [x r 76935 3, x r (-11766) 2], .arr [x r (-7145) 2, x r (-90079) 3]])]]),
  ("t", n 272)], .obj [("s", .arr [.obj [("c", .bool true), ("i", .arr [.arr [n 0, n 0], .arr [x r (-2178) 3,
  x r (-21451) 3], .arr [x r (-3871) 3, x r (-3008) 2], .arr [x r (-39192) 3, n 0], .arr [n 0, n 0], .arr [n
  0, n 0], .arr [n 0, n 0]]), ("o", .arr [.arr [n 0, n 0], .arr [x r 4193 3, x r 42177 3], .arr [x r 2581 3, x
  r 19758 3], .arr [x r 49435 3, n 0], .arr [n 0, n 0], .arr [n 0, n 0], .arr [n 0, n 0]]), ("v", .arr [.arr
  [x r (-68305) 3, x r (-65806) 3], .arr [x r (-44354) 3, x r 13145 3], .arr [x r (-73064) 3, x r 92902 3],
  .arr [x r (-14033) 3, x r 11766 2], .arr [x r 59354 3, x r 94515 3], .arr [x r 76935 3, x r (-11766) 2],
  .arr [x r (-71451) 3, x r (-100079) 3]])]]), ("t", n 288)]]

/-- A value in `examples/assets/google_fonts/Tiger.json`. -/
def tiger196 : Json F :=
  .obj [("ao", n 0), ("bm", n 0), ("ddd", n 0), ("ind", n 11), ("ip", n 0), ("ks", .obj [("a", .obj [("a", n
  0), ("ix", n 1), ("k", .arr [x r 81185 3, x r (-2909) 2, n 0]), ("l", n 2)]), ("o", .obj [("a", n 0), ("ix",
  n 11), ("k", n 100)]), ("p", .obj [("a", n 0), ("ix", n 2), ("k", .arr [x r 640605 3, x r 654764 3, n 0]),
  ("l", n 2)]), ("r", .obj [("a", n 0), ("ix", n 10), ("k", n 0)]), ("s", .obj [("a", n 0), ("ix", n 6), ("k",
  .arr [n 100, n 100, n 100]), ("l", n 2)])]), ("nm", .str "leg_RB "), ("op", n 306), ("shapes", .arr [.obj
  [("bm", n 0), ("cix", n 2), ("hd", .bool false), ("it", .arr [.obj [("hd", .bool false), ("ind", n 0),
  ("ix", n 1), ("ks", .obj [("a", n 1), ("ix", n 2), ("k", tiger195 r)]), ("mn", .str
  "ADBE Vector Shape - Group"), ("nm", .str "Path 1"), ("ty", .str "sh")], .obj [("bm", n 0), ("c", .obj
  [("a", n 0), ("ix", n 4), ("k", .arr [x r 995999983245 12, x r 416000007181 12, x r 122000002394 12, n
  1])]), ("hd", .bool false), ("mn", .str "ADBE Vector Graphic - Fill"), ("nm", .str "Fill 1"), ("o", .obj
  [("a", n 0), ("ix", n 5), ("k", n 100)]), ("r", n 1), ("ty", .str "fl")], .obj [("a", .obj [("a", n 0),
  ("ix", n 1), ("k", .arr [n 0, n 0])]), ("nm", .str "Transform"), ("o", .obj [("a", n 0), ("ix", n 7), ("k",
  n 100)]), ("p", .obj [("a", n 0), ("ix", n 2), ("k", .arr [x r 77184 3, x r 11791 2])]), ("r", .obj [("a", n
  0), ("ix", n 6), ("k", n 0)]), ("s", .obj [("a", n 0), ("ix", n 3), ("k", .arr [n 100, n 100])]), ("sa",
  .obj [("a", n 0), ("ix", n 5), ("k", n 0)]), ("sk", .obj [("a", n 0), ("ix", n 4), ("k", n 0)]), ("ty", .str
  "tr")]]), ("ix", n 1), ("mn", .str "ADBE Vector Group"), ("nm", .str "Group 1"), ("np", n 2), ("ty", .str
  "gr")]]), ("sr", n 1), ("st", n 0), ("ty", n 4)]

/-- A value in `examples/assets/google_fonts/Tiger.json`. -/
def tiger197 : Json F :=
  .arr [.obj [("i", .obj [("x", x r 833 3), ("y", x r 833 3)]), ("o", .obj [("x", x r 333 3), ("y", n 0)]),
  ("s", .arr [.obj [("c", .bool true), ("i", .arr [.arr [x r 2667 3, x r 22701 3], .arr [x r 17354 3, x r 1847
  3], .arr [x r 1707 3, x r (-25138) 3], .arr [x r 1234 3, x r (-10512) 3], .arr [x r 19753 3, x r (-5485) 3],
  .arr [x r 23709 3, x r 41749 3], .arr [x r 14311 3, x r 11185 3], .arr [x r (-33399) 3, x r (-37633) 3],
  .arr [x r (-58835) 3, x r 1306 2], .arr [x r (-4061) 3, x r 19064 3]]), ("o", .arr [.arr [x r (-1944) 3, x r
  (-16228) 3], .arr [x r (-22226) 3, x r (-2361) 3], .arr [x r (-564) 3, x r 8307 3], .arr [x r (-1234) 3, x r
  10512 3], .arr [x r (-3381) 2, x r 9389 3], .arr [x r (-23709) 3, x r (-41749) 3], .arr [n 0, n 0], .arr [x
  r 33399 3, x r 37633 3], .arr [x r 58271 3, x r (-12993) 3], .arr [x r 4061 3, x r (-19064) 3]]), ("v", .arr
  [.arr [x r 123521 3, x r (-35918) 3], .arr [x r 93802 3, x r (-72818) 3], .arr [x r 53281 3, x r (-30452)
  3], .arr [x r 51262 3, x r 8804 3], .arr [x r 25366 3, x r 35758 3], .arr [x r (-62701) 3, x r (-35788) 3],
  .arr [x r (-124005) 3, x r (-114654) 3], .arr [x r (-84891) 3, x r 55011 3], .arr [x r 38567 3, x r 102377
  3], .arr [x r 118125 3, x r 2198 2]])]]), ("t", n 0)], .obj [("i", .obj [("x", x r 667 3), ("y", n 1)]),
  ("o", .obj [("x", x r 167 3), ("y", x r 167 3)]), ("s", .arr [.obj [("c", .bool true), ("i", .arr [.arr [x r
  2667 3, x r 22701 3], .arr [x r 17354 3, x r 1847 3], .arr [x r 1707 3, x r (-25138) 3], .arr [x r 1234 3, x
  r (-10512) 3], .arr [x r 19753 3, x r (-5485) 3], .arr [x r 23709 3, x r 41749 3], .arr [x r 14311 3, x r
  11185 3], .arr [x r (-33399) 3, x r (-37633) 3], .arr [x r (-58835) 3, x r 1306 2], .arr [x r (-4061) 3, x r
  19064 3]]), ("o", .arr [.arr [x r (-1944) 3, x r (-16228) 3], .arr [x r (-22226) 3, x r (-2361) 3], .arr [x
  r (-564) 3, x r 8307 3], .arr [x r (-1234) 3, x r 10512 3], .arr [x r (-3381) 2, x r 9389 3], .arr [x r
  (-23709) 3, x r (-41749) 3], .arr [n 0, n 0], .arr [x r 33399 3, x r 37633 3], .arr [x r 58271 3, x r
  (-12993) 3], .arr [x r 4061 3, x r (-19064) 3]]), ("v", .arr [.arr [x r 123521 3, x r (-35918) 3], .arr [x r
  93802 3, x r (-72818) 3], .arr [x r 53281 3, x r (-30452) 3], .arr [x r 51262 3, x r 8804 3], .arr [x r
  25366 3, x r 35758 3], .arr [x r (-62701) 3, x r (-35788) 3], .arr [x r (-124005) 3, x r (-114654) 3], .arr
  [x r (-84891) 3, x r 55011 3], .arr [x r 38567 3, x r 102377 3], .arr [x r 118125 3, x r 2198 2]])]]), ("t",
  n 30)], .obj [("i", .obj [("x", x r 667 3), ("y", n 1)]), ("o", .obj [("x", x r 333 3), ("y", n 0)]), ("s",
  .arr [.obj [("c", .bool true), ("i", .arr [.arr [x r 8007 3, x r 21408 3], .arr [x r 20632 3, x r (-6841)
  3], .arr [x r (-4341) 3, x r (-2482) 2], .arr [x r (-127) 3, x r (-10584) 3], .arr [x r 19499 3, x r (-633)
  2], .arr [x r 23709 3, x r 41749 3], .arr [x r 14311 3, x r 11185 3], .arr [x r (-33399) 3, x r (-37633) 3],
  .arr [x r (-58204) 3, x r 15633 3], .arr [x r (-1578) 3, x r 19428 3]]), ("o", .arr [.arr [x r (-5761) 3, x
  r (-15296) 3], .arr [x r (-21215) 3, x r 7034 3], .arr [x r 1435 3, x r 8202 3], .arr [x r 127 3, x r 10584
  3], .arr [x r (-33375) 3, x r 10834 3], .arr [x r (-23709) 3, x r (-41749) 3], .arr [n 0, n 0], .arr [x r
  33399 3, x r 37633 3], .arr [x r 57659 3, x r (-15487) 3], .arr [x r 1578 3, x r (-19428) 3]]), ("v", .arr
  [.arr [x r 10689 2, x r (-48281) 3], .arr [x r 66326 3, x r (-76246) 3], .arr [x r 39983 3, x r (-26212) 3],
  .arr [x r 46372 3, x r 8607 3], .arr [x r 23761 3, x r 34266 3], .arr [x r (-62701) 3, x r (-35788) 3], .arr
  [x r (-133515) 3, x r (-111564) 3], .arr [x r (-84891) 3, x r 55011 3], .arr [x r 39813 3, x r 100256 3],
  .arr [x r 114374 3, x r 13081 3]])]]), ("t", n 38)], .obj [("i", .obj [("x", x r 833 3), ("y", x r 833 3)]),
  ("o", .obj [("x", x r 333 3), ("y", n 0)]), ("s", .arr [.obj [("c", .bool true), ("i", .arr [.arr [x r 2667
  3, x r 22701 3], .arr [x r 17354 3, x r 1847 3], .arr [x r 1707 3, x r (-25138) 3], .arr [x r 1234 3, x r
  (-10513) 3], .arr [x r 19753 3, x r (-5485) 3], .arr [x r 23709 3, x r 41749 3], .arr [x r 14311 3, x r
  11185 3], .arr [x r (-33399) 3, x r (-37633) 3], .arr [x r (-58835) 3, x r 1306 2], .arr [x r (-4061) 3, x r
  19064 3]]), ("o", .arr [.arr [x r (-1944) 3, x r (-16228) 3], .arr [x r (-22226) 3, x r (-2361) 3], .arr [x
  r (-564) 3, x r 8307 3], .arr [x r (-1234) 3, x r 10512 3], .arr [x r (-3381) 2, x r 9389 3], .arr [x r
  (-23709) 3, x r (-41749) 3], .arr [n 0, n 0], .arr [x r 33399 3, x r 37633 3], .arr [x r 58271 3, x r
  (-12993) 3], .arr [x r 4061 3, x r (-19064) 3]]), ("v", .arr [.arr [x r 119771 3, x r (-35918) 3], .arr [x r
  93802 3, x r (-72818) 3], .arr [x r 53281 3, x r (-30452) 3], .arr [x r 51262 3, x r 8804 3], .arr [x r
  25366 3, x r 35758 3], .arr [x r (-62701) 3, x r (-35788) 3], .arr [x r (-12159) 2, x r (-115301) 3], .arr
  [x r (-84891) 3, x r 55011 3], .arr [x r 38567 3, x r 102377 3], .arr [x r 118125 3, x r 2198 2]])]]), ("t",
  n 48)], .obj [("i", .obj [("x", x r 833 3), ("y", x r 833 3)]), ("o", .obj [("x", x r 167 3), ("y", x r 167
  3)]), ("s", .arr [.obj [("c", .bool true), ("i", .arr [.arr [x r 2667 3, x r 22701 3], .arr [x r 17354 3, x
  r 1847 3], .arr [x r 1707 3, x r (-25138) 3], .arr [x r 1234 3, x r (-10513) 3], .arr [x r 19753 3, x r
  (-5485) 3], .arr [x r 22306 3, x r 48865 3], .arr [x r 13881 3, x r 9224 3], .arr [x r (-33399) 3, x r
  (-37633) 3], .arr [x r (-58835) 3, x r 1306 2], .arr [x r (-3316) 3, x r 19208 3]]), ("o", .arr [.arr [x r
  (-1944) 3, x r (-16228) 3], .arr [x r (-22226) 3, x r (-2361) 3], .arr [x r (-564) 3, x r 8307 3], .arr [x r
  (-1234) 3, x r 10512 3], .arr [x r (-3381) 2, x r 9389 3], .arr [x r (-21979) 3, x r (-43172) 3], .arr [n 0,
  n 0], .arr [x r 33399 3, x r 37633 3], .arr [x r 58271 3, x r (-12993) 3], .arr [x r 3891 3, x r (-22539)
  3]]), ("v", .arr [.arr [x r 118639 3, x r (-36105) 3], .arr [x r 93802 3, x r (-72818) 3], .arr [x r 53281
  3, x r (-30452) 3], .arr [x r 51262 3, x r 8804 3], .arr [x r 25366 3, x r 35758 3], .arr [x r (-68017) 3, x
  r (-45378) 3], .arr [x r (-120896) 3, x r (-111914) 3], .arr [x r (-84891) 3, x r 55011 3], .arr [x r 38567
  3, x r 102377 3], .arr [x r 116879 3, x r 21887 3]])]]), ("t", n 49)], .obj [("i", .obj [("x", x r 3 1),
  ("y", n 1)]), ("o", .obj [("x", x r 167 3), ("y", x r 167 3)]), ("s", .arr [.obj [("c", .bool true), ("i",
  .arr [.arr [x r 2667 3, x r 22701 3], .arr [x r 17354 3, x r 1847 3], .arr [x r 1707 3, x r (-25138) 3],
  .arr [x r 1234 3, x r (-10513) 3], .arr [x r 19753 3, x r (-5485) 3], .arr [x r 19843 3, x r 61355 3], .arr
  [x r 13127 3, x r 5782 3], .arr [x r (-33399) 3, x r (-37633) 3], .arr [x r (-58835) 3, x r 1306 2], .arr [x
  r (-4061) 3, x r 19064 3]]), ("o", .arr [.arr [x r (-1944) 3, x r (-16228) 3], .arr [x r (-22226) 3, x r
  (-2361) 3], .arr [x r (-564) 3, x r 8307 3], .arr [x r (-1234) 3, x r 10512 3], .arr [x r (-3381) 2, x r
  9389 3], .arr [x r (-18943) 3, x r (-45669) 3], .arr [n 0, n 0], .arr [x r 33399 3, x r 37633 3], .arr [x r
  58271 3, x r (-12993) 3], .arr [x r 4061 3, x r (-19064) 3]]), ("v", .arr [.arr [x r 123521 3, x r (-35918)
  3], .arr [x r 93802 3, x r (-72818) 3], .arr [x r 53281 3, x r (-30452) 3], .arr [x r 51262 3, x r 8804 3],
  .arr [x r 25366 3, x r 35758 3], .arr [x r (-77349) 3, x r (-62212) 3], .arr [x r (-119678) 3, x r (-10597)
  2], .arr [x r (-84891) 3, x r 55011 3], .arr [x r 38567 3, x r 102377 3], .arr [x r 118125 3, x r 2198
  2]])]]), ("t", n 50)], .obj [("i", .obj [("x", x r 833 3), ("y", x r 833 3)]), ("o", .obj [("x", x r 7 1),
  ("y", n 0)]), ("s", .arr [.obj [("c", .bool true), ("i", .arr [.arr [x r 2667 3, x r 22701 3], .arr [x r
  17354 3, x r 1847 3], .arr [x r 1707 3, x r (-25138) 3], .arr [x r 1234 3, x r (-10513) 3], .arr [x r 19753
  3, x r (-5485) 3], .arr [x r (-529) 2, x r 55927 3], .arr [x r 6864 3, x r (-22812) 3], .arr [x r (-33399)
  3, x r (-37633) 3], .arr [x r (-58835) 3, x r 1306 2], .arr [x r (-4061) 3, x r 19064 3]]), ("o", .arr [.arr
  [x r (-1944) 3, x r (-16228) 3], .arr [x r (-22226) 3, x r (-2361) 3], .arr [x r (-564) 3, x r 8307 3], .arr
  [x r (-1234) 3, x r 10512 3], .arr [x r (-3381) 2, x r 9389 3], .arr [x r 6282 3, x r (-66417) 3], .arr [n
  0, n 0], .arr [x r 33399 3, x r 37633 3], .arr [x r 58271 3, x r (-12993) 3], .arr [x r 4061 3, x r (-19064)
  3]]), ("v", .arr [.arr [x r 123521 3, x r (-35918) 3], .arr [x r 93802 3, x r (-72818) 3], .arr [x r 53281
  3, x r (-30452) 3], .arr [x r 51262 3, x r 8804 3], .arr [x r 25366 3, x r 35758 3], .arr [x r (-50271) 3, x
  r (-63532) 3], .arr [x r (-109559) 3, x r (-56594) 3], .arr [x r (-84891) 3, x r 55011 3], .arr [x r 38567
  3, x r 102377 3], .arr [x r 118125 3, x r 2198 2]])]]), ("t", n 58)], .obj [("i", .obj [("x", x r 833 3),
  ("y", x r 833 3)]), ("o", .obj [("x", x r 167 3), ("y", x r 167 3)]), ("s", .arr [.obj [("c", .bool true),
  ("i", .arr [.arr [x r (-15099) 3, x r 1716 2], .arr [x r 10231 3, x r 14139 3], .arr [x r 19836 3, x r
  (-15537) 3], .arr [x r 8643 3, x r (-611) 2], .arr [x r 20499 3, x r (-257) 3], .arr [x r (-19959) 3, x r
  52511 3], .arr [x r 6864 3, x r (-22812) 3], .arr [x r (-33399) 3, x r (-37633) 3], .arr [x r (-60221) 3, x
  r (-2345) 3], .arr [x r (-16893) 3, x r 9725 3]]), ("o", .arr [.arr [x r 10769 3, x r (-12295) 3], .arr [x r
  (-13103) 3, x r (-18107) 3], .arr [x r (-6555) 3, x r 5134 3], .arr [x r (-8643) 3, x r 611 2], .arr [x r
  (-35087) 3, x r 441 3], .arr [x r 17058 3, x r (-44879) 3], .arr [n 0, n 0], .arr [x r 33399 3, x r 37633
  3], .arr [x r 59657 3, x r 2323 3], .arr [x r 16893 3, x r (-9725) 3]]), ("v", .arr [.arr [x r 175722 3, x r
  6364 2], .arr [x r 183295 3, x r 16869 3], .arr [x r 124699 3, x r 15057 3], .arr [x r 94155 3, x r 398 1],
  .arr [x r 34023 3, x r 4748 2], .arr [x r (-37184) 3, x r (-44513) 3], .arr [x r (-104041) 3, x r (-36731)
  3], .arr [x r (-84891) 3, x r 55011 3], .arr [x r 29767 3, x r 115261 3], .arr [x r 129057 3, x r 98334
  3]])]]), ("t", n 66)], .obj [("i", .obj [("x", x r 833 3), ("y", x r 833 3)]), ("o", .obj [("x", x r 167 3),
  ("y", x r 167 3)]), ("s", .arr [.obj [("c", .bool true), ("i", .arr [.arr [x r (-22165) 3, x r 558 2], .arr
  [x r 416 3, x r 17447 3], .arr [x r 25148 3, x r (-1558) 3], .arr [x r 10584 3, x r (-135) 3], .arr [x r
  19446 3, x r 6491 3], .arr [x r (-12223) 3, x r 42818 3], .arr [x r 6864 3, x r (-22812) 3], .arr [x r
  (-29856) 3, x r (-405) 1], .arr [x r (-3796) 2, x r (-16682) 3], .arr [x r (-19429) 3, x r (-1562) 3]]),
  ("o", .arr [.arr [x r 15841 3, x r (-4026) 3], .arr [x r (-533) 3, x r (-22345) 3], .arr [x r (-831) 2, x r
  515 3], .arr [x r (-10584) 3, x r 135 3], .arr [x r (-33284) 3, x r (-1111) 2], .arr [x r 13179 3, x r
  (-46167) 3], .arr [n 0, n 0], .arr [x r 29856 3, x r 405 1], .arr [x r 3796 2, x r 16682 3], .arr [x r 19429
  3, x r 1562 3]]), ("v", .arr [.arr [x r 16538 2, x r 145493 3], .arr [x r 198128 3, x r 111252 3], .arr [x r
  150879 3, x r 76549 3], .arr [x r 111691 3, x r 79622 3], .arr [x r 43754 3, x r 62912 3], .arr [x r
  (-37184) 3, x r (-44513) 3], .arr [x r (-104041) 3, x r (-36731) 3], .arr [x r (-83089) 3, x r 50815 3],
  .arr [x r 14036 3, x r 126642 3], .arr [x r 107271 3, x r 147628 3]])]]), ("t", n 70)], .obj [("i", .obj
  [("x", x r 667 3), ("y", n 1)]), ("o", .obj [("x", x r 167 3), ("y", x r 167 3)]), ("s", .arr [.obj [("c",
  .bool true), ("i", .arr [.arr [x r (-15932) 3, x r (-16389) 3], .arr [x r (-14892) 3, x r 9099 3], .arr [x r
  13945 3, x r 20985 3], .arr [x r 16828 3, x r 2637 2], .arr [x r 45324 3, x r 52008 3], .arr [x r 46774 3, x
  r 44344 3], .arr [x r (-1567) 2, x r (-20116) 3], .arr [x r (-33983) 3, x r (-31099) 3], .arr [x r (-21082)
  3, x r (-24092) 3], .arr [x r (-16842) 3, x r (-22765) 3]]), ("o", .arr [.arr [x r 11419 3, x r 11693 3],
  .arr [x r 19073 3, x r (-11654) 3], .arr [x r (-4608) 3, x r (-6935) 3], .arr [x r (-16091) 3, x r (-25214)
  3], .arr [x r (-33574) 3, x r (-38525) 3], .arr [x r (-34842) 3, x r (-33032) 3], .arr [x r 1567 2, x r
  20115 3], .arr [x r 1835 2, x r 16792 3], .arr [x r 39316 3, x r 4493 2], .arr [x r 14238 3, x r 19246 3]]),
  ("v", .arr [.arr [x r 103798 3, x r 236136 3], .arr [x r 149837 3, x r 247328 3], .arr [x r 156206 3, x r
  189051 3], .arr [x r 125703 3, x r 144082 3], .arr [x r 52409 3, x r 53952 3], .arr [x r (-58227) 3, x r
  (-55503) 3], .arr [x r (-149152) 3, x r (-49392) 3], .arr [x r (-85908) 3, x r 19052 3], .arr [x r 1757 3, x
  r 103938 3], .arr [x r 66697 3, x r 184708 3]])]]), ("t", n 74)], .obj [("i", .obj [("x", x r 667 3), ("y",
  n 1)]), ("o", .obj [("x", x r 333 3), ("y", n 0)]), ("s", .arr [.obj [("c", .bool true), ("i", .arr [.arr [x
  r 4466 3, x r (-22416) 3], .arr [x r (-15939) 3, x r (-7108) 3], .arr [x r (-9379) 3, x r 23386 3], .arr [x
  r (-342) 2, x r 27359 3], .arr [x r 28174 3, x r 62971 3], .arr [x r 45363 3, x r 45786 3], .arr [x r
  (-21573) 3, x r (-18204) 3], .arr [x r (-32993) 3, x r (-32147) 3], .arr [x r (-13134) 3, x r (-29196) 3],
  .arr [x r (-475) 3, x r (-19486) 3]]), ("o", .arr [.arr [x r (-3157) 3, x r 16037 3], .arr [x r 20413 3, x r
  9103 3], .arr [x r 3099 3, x r (-7728) 3], .arr [x r 3711 3, x r (-2968) 2], .arr [x r (-2087) 2, x r
  (-46646) 3], .arr [x r (-33791) 3, x r (-34106) 3], .arr [x r 19488 3, x r 16444 3], .arr [x r 17815 3, x r
  17359 3], .arr [x r 24493 3, x r 54447 3], .arr [x r 584 3, x r 23933 3]]), ("v", .arr [.arr [x r (-19579)
  3, x r 252288 3], .arr [x r (-2694) 3, x r 296557 3], .arr [x r 48921 3, x r 268759 3], .arr [x r 63882 3, x
  r 2092 1], .arr [x r 36915 3, x r 7392 2], .arr [x r (-57892) 3, x r (-58536) 3], .arr [x r (-1536) 1, x r
  (-45366) 3], .arr [x r (-87893) 3, x r 15116 3], .arr [x r (-24386) 3, x r 105951 3], .arr [x r (-6036) 3, x
  r 196147 3]])]]), ("t", n 92)], .obj [("i", .obj [("x", x r 833 3), ("y", x r 833 3)]), ("o", .obj [("x", x
  r 333 3), ("y", n 0)]), ("s", .arr [.obj [("c", .bool true), ("i", .arr [.arr [x r (-6656) 3, x r (-21866)
  3], .arr [x r (-17406) 3, x r 1268 3], .arr [x r 2785 3, x r 25042 3], .arr [x r 9913 3, x r 25728 3], .arr
  [x r 33898 3, x r 60084 3], .arr [x r 17733 3, x r 22135 3], .arr [x r (-917) 2, x r (-27638) 3], .arr [x r
  (-23936) 3, x r (-32233) 3], .arr [x r (-33238) 3, x r (-57057) 3], .arr [x r (-7025) 3, x r (-2064) 2]]),
  ("o", .arr [.arr [x r 4795 3, x r 15625 3], .arr [x r 22292 3, x r (-1624) 3], .arr [x r (-92) 2, x r
  (-8275) 3], .arr [x r (-10754) 3, x r (-27911) 3], .arr [x r (-2511) 2, x r (-44508) 3], .arr [x r (-39566)
  3, x r (-49389) 3], .arr [x r 4074 3, x r 1228 2], .arr [x r 14829 3, x r 1997 2], .arr [x r 25968 3, x r
  44577 3], .arr [x r 7713 3, x r 22664 3]]), ("v", .arr [.arr [x r 34271 3, x r 263336 3], .arr [x r 70071 3,
  x r 294372 3], .arr [x r 102425 3, x r 245484 3], .arr [x r 87466 3, x r 185924 3], .arr [x r 36623 3, x r
  72718 3], .arr [x r (-58893) 3, x r (-56445) 3], .arr [x r (-14264) 2, x r (-66009) 3], .arr [x r (-10136)
  2, x r (-1141) 3], .arr [x r (-20918) 3, x r 110094 3], .arr [x r 15787 3, x r 194772 3]])]]), ("t", n
  106)], .obj [("i", .obj [("x", x r 833 3), ("y", n 1)]), ("o", .obj [("x", x r 167 3), ("y", x r 167 3)]),
  ("s", .arr [.obj [("c", .bool true), ("i", .arr [.arr [x r (-22748) 3, x r (-2229) 3], .arr [x r (-5498) 3,
  x r 16564 3], .arr [x r 24198 3, x r 7022 3], .arr [x r 25955 3, x r 9302 3], .arr [x r 19481 3, x r 18579
  3], .arr [x r 15397 3, x r 61201 3], .arr [x r (-5233) 3, x r (-24956) 3], .arr [x r (-16045) 3, x r
  (-28356) 3], .arr [x r (-42815) 3, x r (-43104) 3], .arr [x r (-35117) 3, x r (-14152) 3]]), ("o", .arr
  [.arr [x r 1627 2, x r 1557 3], .arr [x r 7041 3, x r (-21213) 3], .arr [x r (-7996) 3, x r (-2321) 3], .arr
  [x r (-2497) 2, x r (-8949) 3], .arr [x r (-28921) 3, x r (-27581) 3], .arr [x r (-11713) 3, x r (-4656) 2],
  .arr [x r 9905 3, x r 47235 3], .arr [x r 1225 2, x r 21648 3], .arr [x r 35991 3, x r 36234 3], .arr [x r
  22205 3, x r 8948 3]]), ("v", .arr [.arr [x r 140919 3, x r 200993 3], .arr [x r 183303 3, x r 179816 3],
  .arr [x r 150541 3, x r 1312 1], .arr [x r 87078 3, x r 119734 3], .arr [x r 15593 3, x r 70742 3], .arr [x
  r (-61945) 3, x r (-54596) 3], .arr [x r (-141599) 3, x r (-76712) 3], .arr [x r (-100759) 3, x r 30304 3],
  .arr [x r (-28518) 3, x r 12448 2], .arr [x r 70983 3, x r 18946 2]])]]), ("t", n 124)], .obj [("i", .obj
  [("x", x r 833 3), ("y", x r 833 3)]), ("o", .obj [("x", x r 167 3), ("y", n 0)]), ("s", .arr [.obj [("c",
  .bool true), ("i", .arr [.arr [x r (-22857) 3, x r 85 3], .arr [x r (-3792) 3, x r 17035 3], .arr [x r 24785
  3, x r 4536 3], .arr [x r 25014 3, x r 11597 3], .arr [x r 18068 3, x r 19956 3], .arr [x r 15761 3, x r
  59555 3], .arr [x r (-7323) 3, x r (-24425) 3], .arr [x r (-22344) 3, x r (-29719) 3], .arr [x r (-33943) 3,
  x r (-32447) 3], .arr [x r (-30364) 3, x r (-13257) 3]]), ("o", .arr [.arr [x r 16344 3, x r (-98) 3], .arr
  [x r 4857 3, x r (-21817) 3], .arr [x r (-819) 2, x r (-1499) 3], .arr [x r (-25462) 3, x r (-11805) 3],
  .arr [x r (-32034) 3, x r (-35382) 3], .arr [x r (-12283) 3, x r (-46414) 3], .arr [x r 7564 3, x r 25229
  3], .arr [x r 14948 3, x r 19882 3], .arr [x r 36917 3, x r 3529 2], .arr [x r 2194 2, x r 9579 3]]), ("v",
  .arr [.arr [x r 137768 3, x r 204436 3], .arr [x r 178476 3, x r 177839 3], .arr [x r 140274 3, x r 134027
  3], .arr [x r 77254 3, x r 115139 3], .arr [x r 16939 3, x r 74565 3], .arr [x r (-61941) 3, x r (-54547)
  3], .arr [x r (-137805) 3, x r (-52014) 3], .arr [x r (-92696) 3, x r 51567 3], .arr [x r (-24658) 3, x r
  133556 3], .arr [x r 59978 3, x r 190283 3]])]]), ("t", n 134)], .obj [("i", .obj [("x", x r 833 3), ("y", x
  r 833 3)]), ("o", .obj [("x", x r 167 3), ("y", x r 167 3)]), ("s", .arr [.obj [("c", .bool true), ("i",
  .arr [.arr [x r (-22748) 3, x r (-2229) 3], .arr [x r (-5498) 3, x r 16564 3], .arr [x r 24198 3, x r 7022
  3], .arr [x r 25955 3, x r 9302 3], .arr [x r 17919 3, x r 2009 2], .arr [x r 25684 3, x r 61599 3], .arr [x
  r (-13426) 3, x r (-26654) 3], .arr [x r (-16045) 3, x r (-28356) 3], .arr [x r (-35655) 3, x r (-37398) 3],
  .arr [x r (-35117) 3, x r (-14152) 3]]), ("o", .arr [.arr [x r 1627 2, x r 1557 3], .arr [x r 7041 3, x r
  (-21213) 3], .arr [x r (-7996) 3, x r (-2321) 3], .arr [x r (-2497) 2, x r (-8949) 3], .arr [x r (-31769) 3,
  x r (-3562) 2], .arr [x r (-18477) 3, x r (-44314) 3], .arr [x r 18153 3, x r 36041 3], .arr [x r 1225 2, x
  r 21648 3], .arr [x r 35241 3, x r 36963 3], .arr [x r 22205 3, x r 8948 3]]), ("v", .arr [.arr [x r 140034
  3, x r 210011 3], .arr [x r 182418 3, x r 188834 3], .arr [x r 149656 3, x r 140219 3], .arr [x r 89142 3, x
  r 128205 3], .arr [x r 21619 3, x r 77329 3], .arr [x r (-58996) 3, x r (-55143) 3], .arr [x r (-136512) 3,
  x r (-43325) 3], .arr [x r (-96243) 3, x r 31791 3], .arr [x r (-21676) 3, x r 133452 3], .arr [x r 70979 3,
  x r 198005 3]])]]), ("t", n 146)], .obj [("i", .obj [("x", x r 833 3), ("y", x r 833 3)]), ("o", .obj [("x",
  x r 167 3), ("y", x r 167 3)]), ("s", .arr [.obj [("c", .bool true), ("i", .arr [.arr [x r (-6656) 3, x r
  (-21866) 3], .arr [x r (-17406) 3, x r 1268 3], .arr [x r 2785 3, x r 25042 3], .arr [x r 6649 3, x r 26758
  3], .arr [x r 33898 3, x r 60084 3], .arr [x r 42234 3, x r 48688 3], .arr [x r (-10674) 3, x r (-1943) 2],
  .arr [x r (-25095) 3, x r (-31339) 3], .arr [x r (-17807) 3, x r (-30356) 3], .arr [x r (-349) 2, x r
  (-15983) 3]]), ("o", .arr [.arr [x r 4795 3, x r 15625 3], .arr [x r 22292 3, x r (-1624) 3], .arr [x r
  (-92) 2, x r (-8275) 3], .arr [x r (-5992) 3, x r (-24112) 3], .arr [x r (-2511) 2, x r (-44508) 3], .arr [x
  r (-33055) 3, x r (-38105) 3], .arr [x r 12277 3, x r 22349 3], .arr [x r 26792 3, x r 33457 3], .arr [x r
  30208 3, x r 51496 3], .arr [x r 5107 3, x r 23389 3]]), ("v", .arr [.arr [x r 29268 3, x r 257093 3], .arr
  [x r 65068 3, x r 288129 3], .arr [x r 97422 3, x r 239241 3], .arr [x r 86058 3, x r 182568 3], .arr [x r
  39744 3, x r 70217 3], .arr [x r (-59518) 3, x r (-57226) 3], .arr [x r (-143427) 3, x r (-48398) 3], .arr
  [x r (-79715) 3, x r 27819 3], .arr [x r (-20733) 3, x r 109579 3], .arr [x r 18999 3, x r 198625 3]])]]),
  ("t", n 160)], .obj [("i", .obj [("x", x r 833 3), ("y", n 1)]), ("o", .obj [("x", x r 167 3), ("y", x r 167
  3)]), ("s", .arr [.obj [("c", .bool true), ("i", .arr [.arr [x r 4466 3, x r (-22416) 3], .arr [x r (-15939)
  3, x r (-7108) 3], .arr [x r (-9379) 3, x r 23386 3], .arr [x r (-2132) 3, x r 27489 3], .arr [x r 23759 3,
  x r 51897 3], .arr [x r 45363 3, x r 45786 3], .arr [x r (-19131) 3, x r (-19517) 3], .arr [x r (-22449) 3,
  x r (-29756) 3], .arr [x r (-11618) 3, x r (-29831) 3], .arr [x r (-475) 3, x r (-19486) 3]]), ("o", .arr
  [.arr [x r (-3157) 3, x r 16037 3], .arr [x r 20413 3, x r 9103 3], .arr [x r 3099 3, x r (-7728) 3], .arr
  [x r 2887 3, x r (-37226) 3], .arr [x r (-21272) 3, x r (-46464) 3], .arr [x r (-33791) 3, x r (-34106) 3],
  .arr [x r 1785 2, x r 18209 3], .arr [x r 14981 3, x r 19857 3], .arr [x r 22357 3, x r 57406 3], .arr [x r
  584 3, x r 23933 3]]), ("v", .arr [.arr [x r (-19579) 3, x r 252288 3], .arr [x r (-2694) 3, x r 296557 3],
  .arr [x r 48921 3, x r 268759 3], .arr [x r 63079 3, x r 207113 3], .arr [x r 35234 3, x r 73714 3], .arr [x
  r (-56812) 3, x r (-60283) 3], .arr [x r (-146936) 3, x r (-4737) 2], .arr [x r (-74194) 3, x r 26243 3],
  .arr [x r (-26003) 3, x r 107158 3], .arr [x r (-6036) 3, x r 196147 3]])]]), ("t", n 170)], .obj [("i",
  .obj [("x", x r 667 3), ("y", n 1)]), ("o", .obj [("x", x r 167 3), ("y", n 0)]), ("s", .arr [.obj [("c",
  .bool true), ("i", .arr [.arr [x r 6765 3, x r (-21833) 3], .arr [x r (-15117) 3, x r (-8721) 3], .arr [x r
  (-11751) 3, x r 22288 3], .arr [x r (-4325) 3, x r 37608 3], .arr [x r 17348 3, x r 44594 3], .arr [x r
  45363 3, x r 45786 3], .arr [x r (-25998) 3, x r (-22754) 3], .arr [x r (-32993) 3, x r (-32147) 3], .arr [x
  r (-11392) 3, x r (-29918) 3], .arr [x r 3826 3, x r (-28099) 3]]), ("o", .arr [.arr [x r (-4802) 3, x r
  15623 3], .arr [x r 1936 2, x r 11169 3], .arr [x r 3883 3, x r (-7365) 3], .arr [x r 3417 3, x r (-29715)
  3], .arr [x r (-18528) 3, x r (-47625) 3], .arr [x r (-33791) 3, x r (-34106) 3], .arr [x r 19188 3, x r
  16794 3], .arr [x r 17815 3, x r 17359 3], .arr [x r 16506 3, x r 43349 3], .arr [x r (-409) 2, x r 30035
  3]]), ("v", .arr [.arr [x r (-30617) 3, x r 243925 3], .arr [x r (-18409) 3, x r 289706 3], .arr [x r 35808
  3, x r 267406 3], .arr [x r 56403 3, x r 189419 3], .arr [x r 37415 3, x r 68425 3], .arr [x r (-56075) 3, x
  r (-62265) 3], .arr [x r (-145334) 3, x r (-42803) 3], .arr [x r (-8147) 2, x r 13574 3], .arr [x r (-28889)
  3, x r 89456 3], .arr [x r (-1133) 2, x r 18949 2]])]]), ("t", n 184)], .obj [("i", .obj [("x", x r 833 3),
  ("y", x r 833 3)]), ("o", .obj [("x", x r 333 3), ("y", n 0)]), ("s", .arr [.obj [("c", .bool true), ("i",
  .arr [.arr [x r 4466 3, x r (-22416) 3], .arr [x r (-15939) 3, x r (-7108) 3], .arr [x r (-9379) 3, x r
  23386 3], .arr [x r (-342) 2, x r 27359 3], .arr [x r 28174 3, x r 62971 3], .arr [x r 45363 3, x r 45786
  3], .arr [x r (-21573) 3, x r (-18204) 3], .arr [x r (-32993) 3, x r (-32147) 3], .arr [x r (-13134) 3, x r
  (-29196) 3], .arr [x r 2511 3, x r (-22068) 3]]), ("o", .arr [.arr [x r (-3157) 3, x r 16037 3], .arr [x r
  20413 3, x r 9103 3], .arr [x r 3099 3, x r (-7728) 3], .arr [x r 3711 3, x r (-2968) 2], .arr [x r (-2087)
  2, x r (-46646) 3], .arr [x r (-33791) 3, x r (-34106) 3], .arr [x r 19488 3, x r 16444 3], .arr [x r 17815
  3, x r 17359 3], .arr [x r 24493 3, x r 54447 3], .arr [x r (-2707) 3, x r 23787 3]]), ("v", .arr [.arr [x r
  (-19579) 3, x r 252288 3], .arr [x r (-2694) 3, x r 296557 3], .arr [x r 48921 3, x r 268759 3], .arr [x r
  63882 3, x r 2092 1], .arr [x r 38302 3, x r 72479 3], .arr [x r (-56505) 3, x r (-59977) 3], .arr [x r
  (-150826) 3, x r (-48248) 3], .arr [x r (-85813) 3, x r 12954 3], .arr [x r (-22999) 3, x r 10451 2], .arr
  [x r (-3902) 3, x r 196814 3]])]]), ("t", n 200)], .obj [("i", .obj [("x", x r 833 3), ("y", x r 833 3)]),
  ("o", .obj [("x", x r 167 3), ("y", x r 167 3)]), ("s", .arr [.obj [("c", .bool true), ("i", .arr [.arr [x r
  (-6656) 3, x r (-21866) 3], .arr [x r (-17406) 3, x r 1268 3], .arr [x r 2785 3, x r 25042 3], .arr [x r
  9913 3, x r 25728 3], .arr [x r 33898 3, x r 60084 3], .arr [x r 24491 3, x r 44034 3], .arr [x r (-11664)
  3, x r (-18853) 3], .arr [x r (-23936) 3, x r (-32233) 3], .arr [x r (-15787) 3, x r (-27851) 3], .arr [x r
  (-9627) 3, x r (-16949) 3]]), ("o", .arr [.arr [x r 4795 3, x r 15625 3], .arr [x r 22292 3, x r (-1624) 3],
  .arr [x r (-92) 2, x r (-8275) 3], .arr [x r (-10754) 3, x r (-27911) 3], .arr [x r (-2511) 2, x r (-44508)
  3], .arr [x r (-30759) 3, x r (-55304) 3], .arr [x r 17109 3, x r 27654 3], .arr [x r 14829 3, x r 1997 2],
  .arr [x r 29441 3, x r 51939 3], .arr [x r 11824 3, x r 20817 3]]), ("v", .arr [.arr [x r 37627 3, x r
  261158 3], .arr [x r 73427 3, x r 292194 3], .arr [x r 10578 2, x r 243306 3], .arr [x r 90821 3, x r 183746
  3], .arr [x r 39978 3, x r 7054 2], .arr [x r (-55538) 3, x r (-58623) 3], .arr [x r (-140978) 3, x r
  (-53169) 3], .arr [x r (-91063) 3, x r 17582 3], .arr [x r (-19718) 3, x r 109278 3], .arr [x r 25484 3, x r
  20355 2]])]]), ("t", n 214)], .obj [("i", .obj [("x", x r 833 3), ("y", n 1)]), ("o", .obj [("x", x r 167
  3), ("y", x r 167 3)]), ("s", .arr [.obj [("c", .bool true), ("i", .arr [.arr [x r (-22857) 3, x r 85 3],
  .arr [x r (-3792) 3, x r 17035 3], .arr [x r 24785 3, x r 4536 3], .arr [x r 25014 3, x r 11597 3], .arr [x
  r 18068 3, x r 19956 3], .arr [x r 1576 2, x r 59555 3], .arr [x r (-9449) 3, x r (-28571) 3], .arr [x r
  (-2138) 2, x r (-33404) 3], .arr [x r (-33943) 3, x r (-32447) 3], .arr [x r (-30364) 3, x r (-13257) 3]]),
  ("o", .arr [.arr [x r 16344 3, x r (-98) 3], .arr [x r 4857 3, x r (-21817) 3], .arr [x r (-819) 2, x r
  (-1499) 3], .arr [x r (-25462) 3, x r (-11805) 3], .arr [x r (-32034) 3, x r (-35382) 3], .arr [x r (-12283)
  3, x r (-46414) 3], .arr [x r 827 2, x r 25006 3], .arr [x r 13409 3, x r 2095 2], .arr [x r 36917 3, x r
  3529 2], .arr [x r 2194 2, x r 9579 3]]), ("v", .arr [.arr [x r 14148 2, x r 202946 3], .arr [x r 182188 3,
  x r 176349 3], .arr [x r 143986 3, x r 132537 3], .arr [x r 80966 3, x r 113649 3], .arr [x r 20651 3, x r
  73075 3], .arr [x r (-58229) 3, x r (-56037) 3], .arr [x r (-13725) 2, x r (-53314) 3], .arr [x r (-88984)
  3, x r 50077 3], .arr [x r (-20946) 3, x r 132066 3], .arr [x r 6369 2, x r 188793 3]])]]), ("t", n 226)],
  .obj [("i", .obj [("x", x r 833 3), ("y", x r 833 3)]), ("o", .obj [("x", x r 167 3), ("y", n 0)]), ("s",
  .arr [.obj [("c", .bool true), ("i", .arr [.arr [x r (-22857) 3, x r 85 3], .arr [x r (-3792) 3, x r 17035
  3], .arr [x r 24785 3, x r 4536 3], .arr [x r 24629 3, x r 12394 3], .arr [x r 17418 3, x r 20526 3], .arr
  [x r 15761 3, x r 59555 3], .arr [x r (-7546) 3, x r (-24357) 3], .arr [x r (-21378) 3, x r (-30421) 3],
  .arr [x r (-32884) 3, x r (-3352) 2], .arr [x r (-30364) 3, x r (-13257) 3]]), ("o", .arr [.arr [x r 16344
  3, x r (-98) 3], .arr [x r 4857 3, x r (-21817) 3], .arr [x r (-819) 2, x r (-1499) 3], .arr [x r (-2507) 2,
  x r (-12616) 3], .arr [x r (-30881) 3, x r (-36392) 3], .arr [x r (-12283) 3, x r (-46414) 3], .arr [x r
  1669 2, x r 53877 3], .arr [x r 14302 3, x r 20351 3], .arr [x r 35765 3, x r 36456 3], .arr [x r 2194 2, x
  r 9579 3]]), ("v", .arr [.arr [x r 137768 3, x r 204436 3], .arr [x r 178476 3, x r 177839 3], .arr [x r
  140274 3, x r 134027 3], .arr [x r 7628 2, x r 117797 3], .arr [x r 19492 3, x r 71677 3], .arr [x r
  (-61941) 3, x r (-54547) 3], .arr [x r (-137805) 3, x r (-52014) 3], .arr [x r (-91542) 3, x r 48802 3],
  .arr [x r (-23977) 3, x r 129302 3], .arr [x r 59978 3, x r 190283 3]])]]), ("t", n 242)], .obj [("i", .obj
  [("x", x r 833 3), ("y", x r 833 3)]), ("o", .obj [("x", x r 167 3), ("y", x r 167 3)]), ("s", .arr [.obj
  [("c", .bool true), ("i", .arr [.arr [x r (-15099) 3, x r 1716 2], .arr [x r 10231 3, x r 14139 3], .arr [x
  r 19836 3, x r (-15537) 3], .arr [x r 8643 3, x r (-611) 2], .arr [x r 20499 3, x r (-257) 3], .arr [x r
  (-19959) 3, x r 52511 3], .arr [x r 6864 3, x r (-22812) 3], .arr [x r (-33399) 3, x r (-37633) 3], .arr [x
  r (-60221) 3, x r (-2345) 3], .arr [x r (-16893) 3, x r 9725 3]]), ("o", .arr [.arr [x r 10769 3, x r
  (-12295) 3], .arr [x r (-13103) 3, x r (-18107) 3], .arr [x r (-6555) 3, x r 5134 3], .arr [x r (-8643) 3, x
  r 611 2], .arr [x r (-35087) 3, x r 441 3], .arr [x r 17058 3, x r (-44879) 3], .arr [n 0, n 0], .arr [x r
  33399 3, x r 37633 3], .arr [x r 59657 3, x r 2323 3], .arr [x r 16893 3, x r (-9725) 3]]), ("v", .arr [.arr
  [x r 175722 3, x r 6364 2], .arr [x r 183295 3, x r 16869 3], .arr [x r 124699 3, x r 15057 3], .arr [x r
  94155 3, x r 398 1], .arr [x r 34023 3, x r 4748 2], .arr [x r (-37184) 3, x r (-44513) 3], .arr [x r
  (-116565) 3, x r (-62885) 3], .arr [x r (-84891) 3, x r 55011 3], .arr [x r 29767 3, x r 115261 3], .arr [x
  r 129057 3, x r 98334 3]])]]), ("t", n 248)], .obj [("i", .obj [("x", x r 833 3), ("y", x r 833 3)]), ("o",
  .obj [("x", x r 167 3), ("y", x r 167 3)]), ("s", .arr [.obj [("c", .bool true), ("i", .arr [.arr [x r 2667
  3, x r 22701 3], .arr [x r 17354 3, x r 1847 3], .arr [x r 1707 3, x r (-25138) 3], .arr [x r 1234 3, x r
  (-10513) 3], .arr [x r 19753 3, x r (-5485) 3], .arr [x r (-25818) 3, x r 73595 3], .arr [x r 12244 3, x r
  (-72578) 3], .arr [x r (-33399) 3, x r (-37633) 3], .arr [x r (-58835) 3, x r 1306 2], .arr [x r (-4061) 3,
  x r 19064 3]]), ("o", .arr [.arr [x r (-1944) 3, x r (-16228) 3], .arr [x r (-22226) 3, x r (-2361) 3], .arr
  [x r (-564) 3, x r 8307 3], .arr [x r (-1234) 3, x r 10512 3], .arr [x r (-3381) 2, x r 9389 3], .arr [x r
  15894 3, x r (-45304) 3], .arr [n 0, n 0], .arr [x r 33399 3, x r 37633 3], .arr [x r 58271 3, x r (-12993)
  3], .arr [x r 4061 3, x r (-19064) 3]]), ("v", .arr [.arr [x r 123521 3, x r (-35918) 3], .arr [x r 93802 3,
  x r (-72818) 3], .arr [x r 53281 3, x r (-30452) 3], .arr [x r 51262 3, x r 8804 3], .arr [x r 25366 3, x r
  35758 3], .arr [x r (-4217) 2, x r (-65519) 3], .arr [x r (-113913) 3, x r (-5441) 2], .arr [x r (-84891) 3,
  x r 55011 3], .arr [x r 38567 3, x r 102377 3], .arr [x r 118125 3, x r 2198 2]])]]), ("t", n 252)], .obj
  [("i", .obj [("x", x r 833 3), ("y", x r 833 3)]), ("o", .obj [("x", x r 167 3), ("y", x r 167 3)]), ("s",
  .arr [.obj [("c", .bool true), ("i", .arr [.arr [x r 8007 3, x r 21408 3], .arr [x r 20632 3, x r (-6841)
  3], .arr [x r (-4341) 3, x r (-2482) 2], .arr [x r (-127) 3, x r (-10584) 3], .arr [x r 19499 3, x r (-633)
  2], .arr [x r 23709 3, x r 41749 3], .arr [x r 1363 2, x r (-11582) 3], .arr [x r (-33399) 3, x r (-37633)
  3], .arr [x r (-58204) 3, x r 15633 3], .arr [x r (-1578) 3, x r 19428 3]]), ("o", .arr [.arr [x r (-5761)
  3, x r (-15296) 3], .arr [x r (-21215) 3, x r 7034 3], .arr [x r 1435 3, x r 8202 3], .arr [x r 127 3, x r
  10584 3], .arr [x r (-33375) 3, x r 10834 3], .arr [x r (-23709) 3, x r (-41749) 3], .arr [n 0, n 0], .arr
  [x r 33399 3, x r 37633 3], .arr [x r 57659 3, x r (-15487) 3], .arr [x r 1578 3, x r (-19428) 3]]), ("v",
  .arr [.arr [x r 10689 2, x r (-48281) 3], .arr [x r 66326 3, x r (-76246) 3], .arr [x r 39983 3, x r
  (-26212) 3], .arr [x r 46372 3, x r 8607 3], .arr [x r 23761 3, x r 34266 3], .arr [x r (-62701) 3, x r
  (-35788) 3], .arr [x r (-133656) 3, x r (-41307) 3], .arr [x r (-84891) 3, x r 55011 3], .arr [x r 39813 3,
  x r 100256 3], .arr [x r 114374 3, x r 13081 3]])]]), ("t", n 256)], .obj [("i", .obj [("x", x r 833 3),
  ("y", x r 833 3)]), ("o", .obj [("x", x r 167 3), ("y", x r 167 3)]), ("s", .arr [.obj [("c", .bool true),
  ("i", .arr [.arr [x r 8007 3, x r 21408 3], .arr [x r 20632 3, x r (-6841) 3], .arr [x r (-4341) 3, x r
  (-2482) 2], .arr [x r (-127) 3, x r (-10584) 3], .arr [x r 19499 3, x r (-633) 2], .arr [x r 3089 3, x r
  45088 3], .arr [n 0, n 0], .arr [x r (-33399) 3, x r (-37633) 3], .arr [x r (-58204) 3, x r 15633 3], .arr
  [x r (-1578) 3, x r 19428 3]]), ("o", .arr [.arr [x r (-5761) 3, x r (-15296) 3], .arr [x r (-21215) 3, x r
  7034 3], .arr [x r 1435 3, x r 8202 3], .arr [x r 127 3, x r 10584 3], .arr [x r (-33375) 3, x r 10834 3],
  .arr [x r (-3282) 3, x r (-47899) 3], .arr [n 0, n 0], .arr [x r 33399 3, x r 37633 3], .arr [x r 57659 3, x
  r (-15487) 3], .arr [x r 1578 3, x r (-19428) 3]]), ("v", .arr [.arr [x r 10689 2, x r (-48281) 3], .arr [x
  r 66326 3, x r (-76246) 3], .arr [x r 39983 3, x r (-26212) 3], .arr [x r 46372 3, x r 8607 3], .arr [x r
  23761 3, x r 34266 3], .arr [x r (-48641) 3, x r (-49225) 3], .arr [x r (-111022) 3, x r (-57404) 3], .arr
  [x r (-80153) 3, x r 60974 3], .arr [x r 39813 3, x r 100256 3], .arr [x r 114374 3, x r 13081 3]])]]),
  ("t", n 262)], .obj [("i", .obj [("x", x r 833 3), ("y", x r 833 3)]), ("o", .obj [("x", x r 167 3), ("y", x
  r 167 3)]), ("s", .arr [.obj [("c", .bool true), ("i", .arr [.arr [x r (-2472) 3, x r 22723 3], .arr [x r
  16504 3, x r 5674 3], .arr [x r 728 2, x r (-24122) 3], .arr [x r 2549 3, x r (-10273) 3], .arr [x r 20287
  3, x r (-2952) 3], .arr [x r 16672 3, x r 53332 3], .arr [x r 14311 3, x r 11185 3], .arr [x r (-33399) 3, x
  r (-37633) 3], .arr [x r (-60006) 3, x r 5599 3], .arr [x r (-6674) 3, x r 18313 3]]), ("o", .arr [.arr [x r
  1731 3, x r (-16253) 3], .arr [x r (-21137) 3, x r (-7267) 3], .arr [x r (-2406) 3, x r 7971 3], .arr [x r
  (-2549) 3, x r 10273 3], .arr [x r (-34724) 3, x r 5053 3], .arr [x r (-14325) 3, x r (-45825) 3], .arr [n
  0, n 0], .arr [x r 33399 3, x r 37633 3], .arr [x r 59444 3, x r (-5546) 3], .arr [x r 7403 3, x r (-20314)
  3]]), ("v", .arr [.arr [x r 13473 2, x r (-13449) 3], .arr [x r 109807 3, x r (-56873) 3], .arr [x r 63337
  3, x r (-24446) 3], .arr [x r 58519 3, x r 17153 3], .arr [x r 29434 3, x r 40629 3], .arr [x r (-57266) 3,
  x r (-41397) 3], .arr [x r (-100746) 3, x r (-103882) 3], .arr [x r (-84891) 3, x r 55011 3], .arr [x r
  34133 3, x r 108381 3], .arr [x r 123726 3, x r 42821 3]])]]), ("t", n 268)], .obj [("i", .obj [("x", x r
  667 3), ("y", n 1)]), ("o", .obj [("x", x r 167 3), ("y", x r 167 3)]), ("s", .arr [.obj [("c", .bool true),
  ("i", .arr [.arr [x r 1389 3, x r 22238 3], .arr [x r 18025 3, x r 1063 3], .arr [x r 2998 3, x r (-24379)
  3], .arr [x r 1563 3, x r (-10388) 3], .arr [x r 19997 3, x r (-4197) 3], .arr [x r 19265 3, x r 49064 3],
  .arr [x r 14311 3, x r 11185 3], .arr [x r (-33399) 3, x r (-37633) 3], .arr [x r (-59342) 3, x r 9296 3],
  .arr [x r (-4796) 3, x r 18724 3]]), ("o", .arr [.arr [x r (-103) 2, x r (-159) 1], .arr [x r (-21166) 3, x
  r (-1997) 3], .arr [x r (-991) 3, x r 8056 3], .arr [x r (-1563) 3, x r 10388 3], .arr [x r (-34227) 3, x r
  7183 3], .arr [x r (-17783) 3, x r (-44323) 3], .arr [n 0, n 0], .arr [x r 33399 3, x r 37633 3], .arr [x r
  58786 3, x r (-9209) 3], .arr [x r 5257 3, x r (-19987) 3]]), ("v", .arr [.arr [x r 123685 3, x r (-26343)
  3], .arr [x r 93785 3, x r (-64012) 3], .arr [x r 54731 3, x r (-25097) 3], .arr [x r 54043 3, x r 14004 3],
  .arr [x r 27344 3, x r 38284 3], .arr [x r (-59268) 3, x r (-3933) 2], .arr [x r (-111778) 3, x r (-108518)
  3], .arr [x r (-84891) 3, x r 55011 3], .arr [x r 36226 3, x r 105387 3], .arr [x r 12028 2, x r 31863
  3]])]]), ("t", n 272)], .obj [("i", .obj [("x", x r 667 3), ("y", n 1)]), ("o", .obj [("x", x r 333 3),
  ("y", n 0)]), ("s", .arr [.obj [("c", .bool true), ("i", .arr [.arr [x r 8007 3, x r 21408 3], .arr [x r
  20632 3, x r (-6841) 3], .arr [x r (-4341) 3, x r (-2482) 2], .arr [x r (-127) 3, x r (-10584) 3], .arr [x r
  19499 3, x r (-633) 2], .arr [x r 23709 3, x r 41749 3], .arr [x r 14311 3, x r 11185 3], .arr [x r (-33399)
  3, x r (-37633) 3], .arr [x r (-58204) 3, x r 15633 3], .arr [x r (-1578) 3, x r 19428 3]]), ("o", .arr
  [.arr [x r (-5761) 3, x r (-15296) 3], .arr [x r (-21215) 3, x r 7034 3], .arr [x r 1435 3, x r 8202 3],
  .arr [x r 127 3, x r 10584 3], .arr [x r (-33375) 3, x r 10834 3], .arr [x r (-23709) 3, x r (-41749) 3],
  .arr [n 0, n 0], .arr [x r 33399 3, x r 37633 3], .arr [x r 57659 3, x r (-15487) 3], .arr [x r 1578 3, x r
  (-19428) 3]]), ("v", .arr [.arr [x r 10689 2, x r (-48281) 3], .arr [x r 66326 3, x r (-76246) 3], .arr [x r
  39983 3, x r (-26212) 3], .arr [x r 46372 3, x r 8607 3], .arr [x r 23761 3, x r 34266 3], .arr [x r
  (-62701) 3, x r (-35788) 3], .arr [x r (-130687) 3, x r (-116463) 3], .arr [x r (-84891) 3, x r 55011 3],
  .arr [x r 39813 3, x r 100256 3], .arr [x r 114374 3, x r 13081 3]])]]), ("t", n 282)], .obj [("s", .arr
  [.obj [("c", .bool true), ("i", .arr [.arr [x r 2667 3, x r 22701 3], .arr [x r 17354 3, x r 1847 3], .arr
  [x r 1707 3, x r (-25138) 3], .arr [x r 1234 3, x r (-10512) 3], .arr [x r 19753 3, x r (-5485) 3], .arr [x
  r 23709 3, x r 41749 3], .arr [x r 14311 3, x r 11185 3], .arr [x r (-33399) 3, x r (-37633) 3], .arr [x r
  (-58835) 3, x r 1306 2], .arr [x r (-4061) 3, x r 19064 3]]), ("o", .arr [.arr [x r (-1944) 3, x r (-16228)
  3], .arr [x r (-22226) 3, x r (-2361) 3], .arr [x r (-564) 3, x r 8307 3], .arr [x r (-1234) 3, x r 10512
  3], .arr [x r (-3381) 2, x r 9389 3], .arr [x r (-23709) 3, x r (-41749) 3], .arr [n 0, n 0], .arr [x r
  33399 3, x r 37633 3], .arr [x r 58271 3, x r (-12993) 3], .arr [x r 4061 3, x r (-19064) 3]]), ("v", .arr
  [.arr [x r 123521 3, x r (-35918) 3], .arr [x r 93802 3, x r (-72818) 3], .arr [x r 53281 3, x r (-30452)
  3], .arr [x r 51262 3, x r 8804 3], .arr [x r 25366 3, x r 35758 3], .arr [x r (-62701) 3, x r (-35788) 3],
  .arr [x r (-124005) 3, x r (-114654) 3], .arr [x r (-84891) 3, x r 55011 3], .arr [x r 38567 3, x r 102377
  3], .arr [x r 118125 3, x r 2198 2]])]]), ("t", n 304)]]

/-- A value in `examples/assets/google_fonts/Tiger.json`. -/
def tiger198 : Json F :=
  .obj [("ao", n 0), ("bm", n 0), ("ddd", n 0), ("ind", n 12), ("ip", n 0), ("ks", .obj [("a", .obj [("a", n
  0), ("ix", n 1), ("k", .arr [x r 125964 3, x r 115619 3, n 0]), ("l", n 2)]), ("o", .obj [("a", n 0), ("ix",
  n 11), ("k", n 100)]), ("p", .obj [("a", n 0), ("ix", n 2), ("k", .arr [x r 125964 3, x r 115619 3, n 0]),
  ("l", n 2)]), ("r", .obj [("a", n 0), ("ix", n 10), ("k", n 0)]), ("s", .obj [("a", n 0), ("ix", n 6), ("k",
  .arr [n 100, n 100, n 100]), ("l", n 2)])]), ("nm", .str "Tail_Mask"), ("op", n 306), ("parent", n 13),
  ("shapes", .arr [.obj [("bm", n 0), ("cix", n 2), ("hd", .bool false), ("it", .arr [.obj [("hd", .bool
  false), ("ind", n 0), ("ix", n 1), ("ks", .obj [("a", n 1), ("ix", n 2), ("k", tiger197 r)]), ("mn", .str
  "ADBE Vector Shape - Group"), ("nm", .str "Path 1"), ("ty", .str "sh")], .obj [("bm", n 0), ("c", .obj
  [("a", n 0), ("ix", n 4), ("k", .arr [x r 995999983245 12, x r 416000007181 12, x r 122000002394 12, n
  1])]), ("hd", .bool false), ("mn", .str "ADBE Vector Graphic - Fill"), ("nm", .str "Fill 1"), ("o", .obj
  [("a", n 0), ("ix", n 5), ("k", n 100)]), ("r", n 1), ("ty", .str "fl")], .obj [("a", .obj [("a", n 0),
  ("ix", n 1), ("k", .arr [n 0, n 0])]), ("nm", .str "Transform"), ("o", .obj [("a", n 0), ("ix", n 7), ("k",
  n 100)]), ("p", .obj [("a", n 0), ("ix", n 2), ("k", .arr [x r 122138 3, x r 11562 2])]), ("r", .obj [("a",
  n 0), ("ix", n 6), ("k", n 0)]), ("s", .obj [("a", n 0), ("ix", n 3), ("k", .arr [n 100, n 100])]), ("sa",
  .obj [("a", n 0), ("ix", n 5), ("k", n 0)]), ("sk", .obj [("a", n 0), ("ix", n 4), ("k", n 0)]), ("ty", .str
  "tr")]]), ("ix", n 1), ("mn", .str "ADBE Vector Group"), ("nm", .str "Group 4"), ("np", n 2), ("ty", .str
  "gr")]]), ("sr", n 1), ("st", n 0), ("td", n 1), ("ty", n 4)]

/-- A value in `examples/assets/google_fonts/Tiger.json`. -/
def tiger199 : Json F :=
  .arr [.obj [("i", .obj [("x", x r 833 3), ("y", x r 833 3)]), ("o", .obj [("x", x r 333 3), ("y", x r 333
  3)]), ("s", .arr [x r 808937 3, x r 598165 3, n 0]), ("t", n 0), ("ti", .arr [n 0, n 0, n 0]), ("to", .arr
  [n 0, n 0, n 0])], .obj [("i", .obj [("x", x r 667 3), ("y", n 1)]), ("o", .obj [("x", x r 167 3), ("y", x r
  167 3)]), ("s", .arr [x r 808937 3, x r 598165 3, n 0]), ("t", n 30), ("ti", .arr [n 0, n 0, n 0]), ("to",
  .arr [n 0, n 0, n 0])], .obj [("i", .obj [("x", x r 667 3), ("y", n 1)]), ("o", .obj [("x", x r 333 3),
  ("y", n 0)]), ("s", .arr [x r 808937 3, x r 608165 3, n 0]), ("t", n 38), ("ti", .arr [n 0, n 0, n 0]),
  ("to", .arr [n 0, n 0, n 0])], .obj [("i", .obj [("x", x r 3 1), ("y", n 1)]), ("o", .obj [("x", x r 333 3),
  ("y", n 0)]), ("s", .arr [x r 800937 3, x r 585665 3, n 0]), ("t", n 48), ("ti", .arr [n 0, n 0, n 0]),
  ("to", .arr [n 0, n 0, n 0])], .obj [("i", .obj [("x", x r 667 3), ("y", n 1)]), ("o", .obj [("x", x r 382
  3), ("y", n 0)]), ("s", .arr [x r 765937 3, x r 591665 3, n 0]), ("t", n 58), ("ti", .arr [n 0, n 0, n 0]),
  ("to", .arr [n 0, n 0, n 0])], .obj [("i", .obj [("x", x r 667 3), ("y", n 1)]), ("o", .obj [("x", x r 306
  3), ("y", n 0)]), ("s", .arr [x r 767463 3, x r 573632 3, n 0]), ("t", n 70), ("ti", .arr [n 0, n 0, n 0]),
  ("to", .arr [n 0, n 0, n 0])], .obj [("i", .obj [("x", x r 645 3), ("y", n 1)]), ("o", .obj [("x", x r 333
  3), ("y", n 0)]), ("s", .arr [x r 769955 3, x r 603894 3, n 0]), ("t", n 78), ("ti", .arr [n 0, n 0, n 0]),
  ("to", .arr [n 0, n 0, n 0])], .obj [("i", .obj [("x", x r 667 3), ("y", n 1)]), ("o", .obj [("x", x r 333
  3), ("y", n 0)]), ("s", .arr [x r 786117 3, x r 577486 3, n 0]), ("t", n 102), ("ti", .arr [n 0, n 0, n 0]),
  ("to", .arr [n 0, n 0, n 0])], .obj [("i", .obj [("x", x r 667 3), ("y", x r 667 3)]), ("o", .obj [("x", x r
  333 3), ("y", x r 333 3)]), ("s", .arr [x r 777937 3, x r 571665 3, n 0]), ("t", n 116), ("ti", .arr [n 0, n
  0, n 0]), ("to", .arr [n 0, n 0, n 0])], .obj [("i", .obj [("x", x r 667 3), ("y", n 1)]), ("o", .obj [("x",
  x r 333 3), ("y", n 0)]), ("s", .arr [x r 777937 3, x r 571665 3, n 0]), ("t", n 140), ("ti", .arr [n 0, n
  0, n 0]), ("to", .arr [n 0, n 0, n 0])], .obj [("i", .obj [("x", x r 667 3), ("y", x r 667 3)]), ("o", .obj
  [("x", x r 333 3), ("y", x r 333 3)]), ("s", .arr [x r 799937 3, x r 571665 3, n 0]), ("t", n 180), ("ti",
  .arr [n 0, n 0, n 0]), ("to", .arr [n 0, n 0, n 0])], .obj [("i", .obj [("x", x r 667 3), ("y", n 1)]),
  ("o", .obj [("x", x r 333 3), ("y", n 0)]), ("s", .arr [x r 799937 3, x r 571665 3, n 0]), ("t", n 196),
  ("ti", .arr [n 0, n 0, n 0]), ("to", .arr [n 0, n 0, n 0])], .obj [("i", .obj [("x", x r 667 3), ("y", x r
  667 3)]), ("o", .obj [("x", x r 333 3), ("y", x r 333 3)]), ("s", .arr [x r 781937 3, x r 571665 3, n 0]),
  ("t", n 236), ("ti", .arr [n 0, n 0, n 0]), ("to", .arr [n 0, n 0, n 0])], .obj [("i", .obj [("x", x r 667
  3), ("y", n 1)]), ("o", .obj [("x", x r 333 3), ("y", n 0)]), ("s", .arr [x r 781937 3, x r 571665 3, n 0]),
  ("t", n 242), ("ti", .arr [n 0, n 0, n 0]), ("to", .arr [n 0, n 0, n 0])], .obj [("i", .obj [("x", x r 667
  3), ("y", n 1)]), ("o", .obj [("x", x r 333 3), ("y", n 0)]), ("s", .arr [x r 769699 3, x r 590666 3, n 0]),
  ("t", n 262), ("ti", .arr [n 0, n 0, n 0]), ("to", .arr [n 0, n 0, n 0])], .obj [("i", .obj [("x", x r 667
  3), ("y", n 1)]), ("o", .obj [("x", x r 333 3), ("y", n 0)]), ("s", .arr [x r 808937 3, x r 603165 3, n 0]),
  ("t", n 276), ("ti", .arr [n 0, n 0, n 0]), ("to", .arr [n 0, n 0, n 0])], .obj [("s", .arr [x r 808937 3, x
  r 598165 3, n 0]), ("t", n 290)]]

/-- A value in `examples/assets/google_fonts/Tiger.json`. -/
def tiger200 : Json F :=
  .arr [.obj [("i", .obj [("x", .arr [x r 833 3]), ("y", .arr [n 1])]), ("o", .obj [("x", .arr [x r 333 3]),
  ("y", .arr [n 0])]), ("s", .arr [n 15]), ("t", n 0)], .obj [("i", .obj [("x", .arr [x r 667 3]), ("y", .arr
  [n 1])]), ("o", .obj [("x", .arr [x r 167 3]), ("y", .arr [n 0])]), ("s", .arr [n 15]), ("t", n 30)], .obj
  [("i", .obj [("x", .arr [x r 717 3]), ("y", .arr [x r 268 3])]), ("o", .obj [("x", .arr [x r 333 3]), ("y",
  .arr [n 0])]), ("s", .arr [n 15]), ("t", n 38)], .obj [("i", .obj [("x", .arr [x r 624 3]), ("y", .arr [x r
  724 3])]), ("o", .obj [("x", .arr [x r 402 3]), ("y", .arr [x r 258 3])]), ("s", .arr [n 0]), ("t", n 48)],
  .obj [("i", .obj [("x", .arr [x r 708 3]), ("y", .arr [x r 705 3])]), ("o", .obj [("x", .arr [x r 336 3]),
  ("y", .arr [x r 613 3])]), ("s", .arr [x r (-60438) 3]), ("t", n 58)], .obj [("i", .obj [("x", .arr [x r 667
  3]), ("y", .arr [n 1])]), ("o", .obj [("x", .arr [x r 178 3]), ("y", .arr [x r 314 3])]), ("s", .arr [x r
  (-109069) 3]), ("t", n 78)], .obj [("i", .obj [("x", .arr [x r 667 3]), ("y", .arr [n 1])]), ("o", .obj
  [("x", .arr [x r 333 3]), ("y", .arr [n 0])]), ("s", .arr [x r (-170422) 3]), ("t", n 122)], .obj [("i",
  .obj [("x", .arr [x r 667 3]), ("y", .arr [n 1])]), ("o", .obj [("x", .arr [x r 333 3]), ("y", .arr [n
  0])]), ("s", .arr [x r (-126712) 3]), ("t", n 184)], .obj [("i", .obj [("x", .arr [x r 865 3]), ("y", .arr
  [x r 879 3])]), ("o", .obj [("x", .arr [x r 563 3]), ("y", .arr [n 0])]), ("s", .arr [x r (-16532) 2]),
  ("t", n 242)], .obj [("i", .obj [("x", .arr [x r 667 3]), ("y", .arr [n 1])]), ("o", .obj [("x", .arr [x r
  215 3]), ("y", .arr [x r 607 3])]), ("s", .arr [x r (-28329) 3]), ("t", n 262)], .obj [("i", .obj [("x",
  .arr [x r 667 3]), ("y", .arr [n 1])]), ("o", .obj [("x", .arr [x r 333 3]), ("y", .arr [n 0])]), ("s", .arr
  [n 15]), ("t", n 282)], .obj [("s", .arr [n 15]), ("t", n 304)]]

/-- A value in `examples/assets/google_fonts/Tiger.json`. -/
def tiger201 : Json F :=
  .arr [.obj [("i", .obj [("x", x r 833 3), ("y", x r 833 3)]), ("o", .obj [("x", x r 333 3), ("y", n 0)]),
  ("s", .arr [.obj [("c", .bool true), ("i", .arr [.arr [n 0, n 0], .arr [x r (-15538) 3, x r (-289) 2], .arr
  [n 0, n 0], .arr [x r 10171 3, x r 32936 3], .arr [x r 17405 3, x r (-50145) 3]]), ("o", .arr [.arr [n 0, n
  0], .arr [x r 15538 3, x r 2888 3], .arr [n 0, n 0], .arr [x r (-13335) 3, x r (-4318) 2], .arr [x r (-8262)
  3, x r 23803 3]]), ("v", .arr [.arr [x r (-4198) 2, x r 36624 3], .arr [x r (-2513) 3, x r 40011 3], .arr [x
  r 4028 2, x r 51634 3], .arr [x r 47314 3, x r (-23873) 3], .arr [x r (-38926) 3, x r (-25408) 3]])]]),
  ("t", n 0)], .obj [("i", .obj [("x", x r 667 3), ("y", n 1)]), ("o", .obj [("x", x r 167 3), ("y", x r 167
  3)]), ("s", .arr [.obj [("c", .bool true), ("i", .arr [.arr [n 0, n 0], .arr [x r (-15538) 3, x r (-289) 2],
  .arr [n 0, n 0], .arr [x r 10171 3, x r 32936 3], .arr [x r 17405 3, x r (-50145) 3]]), ("o", .arr [.arr [n
  0, n 0], .arr [x r 15538 3, x r 2888 3], .arr [n 0, n 0], .arr [x r (-13335) 3, x r (-4318) 2], .arr [x r
  (-8262) 3, x r 23803 3]]), ("v", .arr [.arr [x r (-4198) 2, x r 36624 3], .arr [x r (-2513) 3, x r 40011 3],
  .arr [x r 4028 2, x r 51634 3], .arr [x r 47314 3, x r (-23873) 3], .arr [x r (-38926) 3, x r (-25408)
  3]])]]), ("t", n 30)], .obj [("i", .obj [("x", x r 667 3), ("y", n 1)]), ("o", .obj [("x", x r 333 3), ("y",
  n 0)]), ("s", .arr [.obj [("c", .bool true), ("i", .arr [.arr [n 0, n 0], .arr [x r (-1578) 2, x r (-867)
  3], .arr [n 0, n 0], .arr [x r 17737 3, x r 29557 3], .arr [x r 4937 3, x r (-5285) 2]]), ("o", .arr [.arr
  [n 0, n 0], .arr [x r 1578 2, x r 867 3], .arr [n 0, n 0], .arr [x r (-23253) 3, x r (-3875) 2], .arr [x r
  (-2343) 3, x r 25087 3]]), ("v", .arr [.arr [x r (-46657) 3, x r 37295 3], .arr [x r (-7082) 3, x r 35582
  3], .arr [x r 36849 3, x r 41609 3], .arr [x r 26912 3, x r (-38249) 3], .arr [x r (-57203) 3, x r (-19161)
  3]])]]), ("t", n 38)], .obj [("i", .obj [("x", x r 3 1), ("y", n 1)]), ("o", .obj [("x", x r 333 3), ("y", n
  0)]), ("s", .arr [.obj [("c", .bool true), ("i", .arr [.arr [n 0, n 0], .arr [x r (-15538) 3, x r (-289) 2],
  .arr [n 0, n 0], .arr [x r 10171 3, x r 32936 3], .arr [x r 17405 3, x r (-50145) 3]]), ("o", .arr [.arr [n
  0, n 0], .arr [x r 15538 3, x r 2888 3], .arr [n 0, n 0], .arr [x r (-13335) 3, x r (-4318) 2], .arr [x r
  (-8262) 3, x r 23803 3]]), ("v", .arr [.arr [x r (-4198) 2, x r 36624 3], .arr [x r (-2513) 3, x r 40011 3],
  .arr [x r 4028 2, x r 51634 3], .arr [x r 47314 3, x r (-23873) 3], .arr [x r (-38926) 3, x r (-25408)
  3]])]]), ("t", n 48)], .obj [("i", .obj [("x", x r 833 3), ("y", x r 833 3)]), ("o", .obj [("x", x r 7 1),
  ("y", n 0)]), ("s", .arr [.obj [("c", .bool true), ("i", .arr [.arr [n 0, n 0], .arr [x r (-15538) 3, x r
  (-289) 2], .arr [n 0, n 0], .arr [x r 10171 3, x r 32936 3], .arr [x r 17405 3, x r (-50145) 3]]), ("o",
  .arr [.arr [n 0, n 0], .arr [x r 15538 3, x r 2888 3], .arr [n 0, n 0], .arr [x r (-13335) 3, x r (-4318)
  2], .arr [x r (-8262) 3, x r 23803 3]]), ("v", .arr [.arr [x r (-4198) 2, x r 36624 3], .arr [x r (-2513) 3,
  x r 40011 3], .arr [x r 4028 2, x r 51634 3], .arr [x r 47314 3, x r (-23873) 3], .arr [x r (-38926) 3, x r
  (-25408) 3]])]]), ("t", n 58)], .obj [("i", .obj [("x", x r 833 3), ("y", x r 833 3)]), ("o", .obj [("x", x
  r 167 3), ("y", x r 167 3)]), ("s", .arr [.obj [("c", .bool true), ("i", .arr [.arr [n 0, n 0], .arr [x r
  (-824) 2, x r (-13486) 3], .arr [n 0, n 0], .arr [x r (-17694) 3, x r 29583 3], .arr [x r 48928 3, x r
  (-2058) 2]]), ("o", .arr [.arr [n 0, n 0], .arr [x r 824 2, x r 13486 3], .arr [n 0, n 0], .arr [x r 23197
  3, x r (-38784) 3], .arr [x r (-23225) 3, x r 9769 3]]), ("v", .arr [.arr [x r 2281 3, x r 62138 3], .arr [x
  r 26147 3, x r 93753 3], .arr [x r 46111 3, x r 133348 3], .arr [x r 106967 3, x r 881 1], .arr [x r 50454
  3, x r 22939 3]])]]), ("t", n 66)], .obj [("i", .obj [("x", x r 833 3), ("y", x r 833 3)]), ("o", .obj
  [("x", x r 167 3), ("y", x r 167 3)]), ("s", .arr [.obj [("c", .bool true), ("i", .arr [.arr [n 0, n 0],
  .arr [x r 855 3, x r (-15781) 3], .arr [n 0, n 0], .arr [x r (-31344) 3, x r 14344 3], .arr [x r 51974 3, x
  r 10775 3]]), ("o", .arr [.arr [n 0, n 0], .arr [x r (-855) 3, x r 15781 3], .arr [n 0, n 0], .arr [x r
  41093 3, x r (-18806) 3], .arr [x r (-24671) 3, x r (-5115) 3]]), ("v", .arr [.arr [x r 23202 3, x r 99615
  3], .arr [x r 24946 3, x r 139189 3], .arr [x r 18954 3, x r 183126 3], .arr [x r 94737 3, x r 180337 3],
  .arr [x r 85108 3, x r 94623 3]])]]), ("t", n 70)], .obj [("i", .obj [("x", x r 667 3), ("y", n 1)]), ("o",
  .obj [("x", x r 167 3), ("y", x r 167 3)]), ("s", .arr [.obj [("c", .bool true), ("i", .arr [.arr [n 0, n
  0], .arr [x r 1258 2, x r (-9566) 3], .arr [n 0, n 0], .arr [x r (-28115) 3, x r (-19944) 3], .arr [x r
  16708 3, x r 50382 3]]), ("o", .arr [.arr [n 0, n 0], .arr [x r (-14066) 3, x r 10696 3], .arr [n 0, n 0],
  .arr [x r 3686 2, x r 26147 3], .arr [x r (-7931) 3, x r (-23915) 3]]), ("v", .arr [.arr [x r 50829 3, x r
  172853 3], .arr [x r 19592 3, x r 200549 3], .arr [x r (-23554) 3, x r 225044 3], .arr [x r 18161 3, x r
  280516 3], .arr [x r 87524 3, x r 229249 3]])]]), ("t", n 74)], .obj [("i", .obj [("x", x r 667 3), ("y", n
  1)]), ("o", .obj [("x", x r 333 3), ("y", n 0)]), ("s", .arr [.obj [("c", .bool true), ("i", .arr [.arr [n
  0, n 0], .arr [x r 15397 3, x r 3564 3], .arr [n 0, n 0], .arr [x r 486 3, x r (-34467) 3], .arr [x r
  (-32027) 3, x r 42329 3]]), ("o", .arr [.arr [n 0, n 0], .arr [x r (-17216) 3, x r (-3985) 3], .arr [n 0, n
  0], .arr [x r (-637) 3, x r 45188 3], .arr [x r 15202 3, x r (-20093) 3]]), ("v", .arr [.arr [x r (-13378)
  3, x r 248201 3], .arr [x r (-57321) 3, x r 244338 3], .arr [x r (-10514) 2, x r 229233 3], .arr [x r
  (-120186) 3, x r 289611 3], .arr [x r (-38626) 3, x r 317677 3]])]]), ("t", n 92)], .obj [("i", .obj [("x",
  x r 833 3), ("y", x r 833 3)]), ("o", .obj [("x", x r 333 3), ("y", n 0)]), ("s", .arr [.obj [("c", .bool
  true), ("i", .arr [.arr [n 0, n 0], .arr [x r 15254 3, x r (-4135) 3], .arr [n 0, n 0], .arr [x r (-15858)
  3, x r (-30606) 3], .arr [x r (-8224) 3, x r 52439 3]]), ("o", .arr [.arr [n 0, n 0], .arr [x r (-17055) 3,
  x r 4623 3], .arr [n 0, n 0], .arr [x r 20791 3, x r 40126 3], .arr [x r 3904 3, x r (-24892) 3]]), ("v",
  .arr [.arr [x r 14975 3, x r 219132 3], .arr [x r (-25578) 3, x r 236492 3], .arr [x r (-72409) 3, x r
  244044 3], .arr [x r (-59589) 3, x r 306096 3], .arr [x r 25553 3, x r 292292 3]])]]), ("t", n 106)], .obj
  [("i", .obj [("x", x r 833 3), ("y", n 1)]), ("o", .obj [("x", x r 167 3), ("y", x r 167 3)]), ("s", .arr
  [.obj [("c", .bool true), ("i", .arr [.arr [n 0, n 0], .arr [x r 2025 3, x r (-15674) 3], .arr [n 0, n 0],
  .arr [x r (-34347) 3, x r 2922 3], .arr [x r 45287 3, x r 27687 3]]), ("o", .arr [.arr [n 0, n 0], .arr [x r
  (-2264) 3, x r 17525 3], .arr [n 0, n 0], .arr [x r 45029 3, x r (-3831) 3], .arr [x r (-21497) 3, x r
  (-13143) 3]]), ("v", .arr [.arr [x r 16264 3, x r 139549 3], .arr [x r 12359 3, x r 183139 3], .arr [x r
  1756 3, x r 231523 3], .arr [x r 66571 3, x r 240676 3], .arr [x r 86441 3, x r 156742 3]])]]), ("t", n
  124)], .obj [("i", .obj [("x", x r 833 3), ("y", x r 833 3)]), ("o", .obj [("x", x r 167 3), ("y", n 0)]),
  ("s", .arr [.obj [("c", .bool true), ("i", .arr [.arr [n 0, n 0], .arr [x r 4498 3, x r (-18656) 3], .arr [n
  0, n 0], .arr [x r (-33874) 3, x r 6385 3], .arr [x r 47857 3, x r 22959 3]]), ("o", .arr [.arr [n 0, n 0],
  .arr [x r (-4141) 3, x r 17178 3], .arr [n 0, n 0], .arr [x r 4441 2, x r (-8371) 3], .arr [x r (-22717) 3,
  x r (-10898) 3]]), ("v", .arr [.arr [x r 11916 3, x r 14833 2], .arr [x r 8713 3, x r 187916 3], .arr [x r
  (-3778) 3, x r 235732 3], .arr [x r 64682 3, x r 24283 2], .arr [x r 7595 2, x r 157316 3]])]]), ("t", n
  134)], .obj [("i", .obj [("x", x r 833 3), ("y", x r 833 3)]), ("o", .obj [("x", x r 167 3), ("y", x r 167
  3)]), ("s", .arr [.obj [("c", .bool true), ("i", .arr [.arr [n 0, n 0], .arr [x r 2025 3, x r (-15674) 3],
  .arr [n 0, n 0], .arr [x r (-34347) 3, x r 2922 3], .arr [x r 45287 3, x r 27687 3]]), ("o", .arr [.arr [n
  0, n 0], .arr [x r (-2264) 3, x r 17525 3], .arr [n 0, n 0], .arr [x r 45029 3, x r (-3831) 3], .arr [x r
  (-21497) 3, x r (-13143) 3]]), ("v", .arr [.arr [x r 15378 3, x r 148567 3], .arr [x r 14423 3, x r 191611
  3], .arr [x r 87 2, x r 240541 3], .arr [x r 65686 3, x r 249694 3], .arr [x r 85555 3, x r 16576 2]])]]),
  ("t", n 146)], .obj [("i", .obj [("x", x r 833 3), ("y", x r 833 3)]), ("o", .obj [("x", x r 167 3), ("y", x
  r 167 3)]), ("s", .arr [.obj [("c", .bool true), ("i", .arr [.arr [n 0, n 0], .arr [x r 15254 3, x r (-4135)
  3], .arr [n 0, n 0], .arr [x r (-15858) 3, x r (-30606) 3], .arr [x r (-8224) 3, x r 52439 3]]), ("o", .arr
  [.arr [n 0, n 0], .arr [x r (-17055) 3, x r 4623 3], .arr [n 0, n 0], .arr [x r 20791 3, x r 40126 3], .arr
  [x r 3904 3, x r (-24892) 3]]), ("v", .arr [.arr [x r 9972 3, x r 212889 3], .arr [x r (-30581) 3, x r
  230249 3], .arr [x r (-77412) 3, x r 237802 3], .arr [x r (-64592) 3, x r 299854 3], .arr [x r 2055 2, x r
  28605 2]])]]), ("t", n 160)], .obj [("i", .obj [("x", x r 833 3), ("y", n 1)]), ("o", .obj [("x", x r 167
  3), ("y", x r 167 3)]), ("s", .arr [.obj [("c", .bool true), ("i", .arr [.arr [n 0, n 0], .arr [x r 15397 3,
  x r 3564 3], .arr [n 0, n 0], .arr [x r 486 3, x r (-34467) 3], .arr [x r (-32027) 3, x r 42329 3]]), ("o",
  .arr [.arr [n 0, n 0], .arr [x r (-17216) 3, x r (-3985) 3], .arr [n 0, n 0], .arr [x r (-637) 3, x r 45188
  3], .arr [x r 15202 3, x r (-20093) 3]]), ("v", .arr [.arr [x r (-13378) 3, x r 248201 3], .arr [x r
  (-57321) 3, x r 244338 3], .arr [x r (-10514) 2, x r 229233 3], .arr [x r (-120186) 3, x r 289611 3], .arr
  [x r (-38626) 3, x r 317677 3]])]]), ("t", n 170)], .obj [("i", .obj [("x", x r 667 3), ("y", n 1)]), ("o",
  .obj [("x", x r 167 3), ("y", n 0)]), ("s", .arr [.obj [("c", .bool true), ("i", .arr [.arr [n 0, n 0], .arr
  [x r 14945 3, x r 514 2], .arr [n 0, n 0], .arr [x r 4055 3, x r (-34231) 3], .arr [x r (-3624) 2, x r 38783
  3]]), ("o", .arr [.arr [n 0, n 0], .arr [x r (-1671) 2, x r (-5747) 3], .arr [n 0, n 0], .arr [x r (-5316)
  3, x r 44878 3], .arr [x r 17202 3, x r (-18409) 3]]), ("v", .arr [.arr [x r (-21733) 3, x r 2496 1], .arr
  [x r (-6504) 2, x r 241204 3], .arr [x r (-111036) 3, x r 221226 3], .arr [x r (-132257) 3, x r 279719 3],
  .arr [x r (-54044) 3, x r 316085 3]])]]), ("t", n 184)], .obj [("i", .obj [("x", x r 833 3), ("y", x r 833
  3)]), ("o", .obj [("x", x r 333 3), ("y", n 0)]), ("s", .arr [.obj [("c", .bool true), ("i", .arr [.arr [n
  0, n 0], .arr [x r 15397 3, x r 3564 3], .arr [n 0, n 0], .arr [x r 486 3, x r (-34467) 3], .arr [x r
  (-32027) 3, x r 42329 3]]), ("o", .arr [.arr [n 0, n 0], .arr [x r (-17216) 3, x r (-3985) 3], .arr [n 0, n
  0], .arr [x r (-637) 3, x r 45188 3], .arr [x r 15202 3, x r (-20093) 3]]), ("v", .arr [.arr [x r (-13378)
  3, x r 248201 3], .arr [x r (-57321) 3, x r 244338 3], .arr [x r (-10514) 2, x r 229233 3], .arr [x r
  (-120186) 3, x r 289611 3], .arr [x r (-38626) 3, x r 317677 3]])]]), ("t", n 200)], .obj [("i", .obj [("x",
  x r 833 3), ("y", x r 833 3)]), ("o", .obj [("x", x r 167 3), ("y", x r 167 3)]), ("s", .arr [.obj [("c",
  .bool true), ("i", .arr [.arr [n 0, n 0], .arr [x r 15254 3, x r (-4135) 3], .arr [n 0, n 0], .arr [x r
  (-15858) 3, x r (-30606) 3], .arr [x r (-8224) 3, x r 52439 3]]), ("o", .arr [.arr [n 0, n 0], .arr [x r
  (-17055) 3, x r 4623 3], .arr [n 0, n 0], .arr [x r 20791 3, x r 40126 3], .arr [x r 3904 3, x r (-24892)
  3]]), ("v", .arr [.arr [x r 1833 2, x r 216954 3], .arr [x r (-22223) 3, x r 234314 3], .arr [x r (-69054)
  3, x r 241866 3], .arr [x r (-56234) 3, x r 303919 3], .arr [x r 28908 3, x r 290114 3]])]]), ("t", n 214)],
  .obj [("i", .obj [("x", x r 833 3), ("y", n 1)]), ("o", .obj [("x", x r 167 3), ("y", x r 167 3)]), ("s",
  .arr [.obj [("c", .bool true), ("i", .arr [.arr [n 0, n 0], .arr [x r 4498 3, x r (-18656) 3], .arr [n 0, n
  0], .arr [x r (-33874) 3, x r 6385 3], .arr [x r 47857 3, x r 22959 3]]), ("o", .arr [.arr [n 0, n 0], .arr
  [x r (-4141) 3, x r 17178 3], .arr [n 0, n 0], .arr [x r 4441 2, x r (-8371) 3], .arr [x r (-22717) 3, x r
  (-10898) 3]]), ("v", .arr [.arr [x r 15628 3, x r 146839 3], .arr [x r 12425 3, x r 186426 3], .arr [x r
  (-66) 3, x r 234241 3], .arr [x r 68394 3, x r 24134 2], .arr [x r 79662 3, x r 155825 3]])]]), ("t", n
  226)], .obj [("i", .obj [("x", x r 833 3), ("y", x r 833 3)]), ("o", .obj [("x", x r 167 3), ("y", n 0)]),
  ("s", .arr [.obj [("c", .bool true), ("i", .arr [.arr [n 0, n 0], .arr [x r 4498 3, x r (-18656) 3], .arr [n
  0, n 0], .arr [x r (-33874) 3, x r 6385 3], .arr [x r 47857 3, x r 22959 3]]), ("o", .arr [.arr [n 0, n 0],
  .arr [x r (-4141) 3, x r 17178 3], .arr [n 0, n 0], .arr [x r 4441 2, x r (-8371) 3], .arr [x r (-22717) 3,
  x r (-10898) 3]]), ("v", .arr [.arr [x r 11916 3, x r 14833 2], .arr [x r 8713 3, x r 187916 3], .arr [x r
  (-3778) 3, x r 235732 3], .arr [x r 64682 3, x r 24283 2], .arr [x r 7595 2, x r 157316 3]])]]), ("t", n
  242)], .obj [("i", .obj [("x", x r 833 3), ("y", x r 833 3)]), ("o", .obj [("x", x r 167 3), ("y", x r 167
  3)]), ("s", .arr [.obj [("c", .bool true), ("i", .arr [.arr [n 0, n 0], .arr [x r (-824) 2, x r (-13486) 3],
  .arr [n 0, n 0], .arr [x r (-17694) 3, x r 29583 3], .arr [x r 48928 3, x r (-2058) 2]]), ("o", .arr [.arr
  [n 0, n 0], .arr [x r 824 2, x r 13486 3], .arr [n 0, n 0], .arr [x r 23197 3, x r (-38784) 3], .arr [x r
  (-23225) 3, x r 9769 3]]), ("v", .arr [.arr [x r 2281 3, x r 62138 3], .arr [x r 26147 3, x r 93753 3], .arr
  [x r 46111 3, x r 133348 3], .arr [x r 106967 3, x r 881 1], .arr [x r 50454 3, x r 22939 3]])]]), ("t", n
  248)], .obj [("i", .obj [("x", x r 833 3), ("y", x r 833 3)]), ("o", .obj [("x", x r 167 3), ("y", x r 167
  3)]), ("s", .arr [.obj [("c", .bool true), ("i", .arr [.arr [n 0, n 0], .arr [x r (-15538) 3, x r (-289) 2],
  .arr [n 0, n 0], .arr [x r 10171 3, x r 32936 3], .arr [x r 17405 3, x r (-50145) 3]]), ("o", .arr [.arr [n
  0, n 0], .arr [x r 15538 3, x r 2888 3], .arr [n 0, n 0], .arr [x r (-13335) 3, x r (-4318) 2], .arr [x r
  (-8262) 3, x r 23803 3]]), ("v", .arr [.arr [x r (-4198) 2, x r 36624 3], .arr [x r (-2513) 3, x r 40011 3],
  .arr [x r 4028 2, x r 51634 3], .arr [x r 47314 3, x r (-23873) 3], .arr [x r (-38926) 3, x r (-25408)
  3]])]]), ("t", n 252)], .obj [("i", .obj [("x", x r 833 3), ("y", x r 833 3)]), ("o", .obj [("x", x r 167
  3), ("y", x r 167 3)]), ("s", .arr [.obj [("c", .bool true), ("i", .arr [.arr [n 0, n 0], .arr [x r (-1578)
  2, x r (-867) 3], .arr [n 0, n 0], .arr [x r 17737 3, x r 29557 3], .arr [x r 4937 3, x r (-5285) 2]]),
  ("o", .arr [.arr [n 0, n 0], .arr [x r 1578 2, x r 867 3], .arr [n 0, n 0], .arr [x r (-23253) 3, x r
  (-3875) 2], .arr [x r (-2343) 3, x r 25087 3]]), ("v", .arr [.arr [x r (-46657) 3, x r 37295 3], .arr [x r
  (-7082) 3, x r 35582 3], .arr [x r 36849 3, x r 41609 3], .arr [x r 26912 3, x r (-38249) 3], .arr [x r
  (-57203) 3, x r (-19161) 3]])]]), ("t", n 256)], .obj [("i", .obj [("x", x r 833 3), ("y", x r 833 3)]),
  ("o", .obj [("x", x r 167 3), ("y", x r 167 3)]), ("s", .arr [.obj [("c", .bool true), ("i", .arr [.arr [n
  0, n 0], .arr [x r (-1578) 2, x r (-867) 3], .arr [n 0, n 0], .arr [x r 17737 3, x r 29557 3], .arr [x r
  4937 3, x r (-5285) 2]]), ("o", .arr [.arr [n 0, n 0], .arr [x r 1578 2, x r 867 3], .arr [n 0, n 0], .arr
  [x r (-23253) 3, x r (-3875) 2], .arr [x r (-2343) 3, x r 25087 3]]), ("v", .arr [.arr [x r (-46657) 3, x r
  37295 3], .arr [x r (-7082) 3, x r 35582 3], .arr [x r 36849 3, x r 41609 3], .arr [x r 26912 3, x r
  (-38249) 3], .arr [x r (-57203) 3, x r (-19161) 3]])]]), ("t", n 262)], .obj [("i", .obj [("x", x r 667 3),
  ("y", n 1)]), ("o", .obj [("x", x r 167 3), ("y", x r 167 3)]), ("s", .arr [.obj [("c", .bool true), ("i",
  .arr [.arr [n 0, n 0], .arr [x r (-145) 1, x r (-6287) 3], .arr [n 0, n 0], .arr [x r 2555 3, x r 34376 3],
  .arr [x r 2817 2, x r (-44988) 3]]), ("o", .arr [.arr [n 0, n 0], .arr [x r 145 1, x r 6287 3], .arr [n 0, n
  0], .arr [x r (-3349) 3, x r (-45068) 3], .arr [x r (-13372) 3, x r 21355 3]]), ("v", .arr [.arr [x r
  (-31841) 3, x r 41301 3], .arr [x r 5871 3, x r 53421 3], .arr [x r 44985 3, x r 74312 3], .arr [x r 68713
  3, x r 2285 3], .arr [x r (-15004) 3, x r (-1848) 2]])]]), ("t", n 268)], .obj [("i", .obj [("x", x r 667
  3), ("y", n 1)]), ("o", .obj [("x", x r 333 3), ("y", n 0)]), ("s", .arr [.obj [("c", .bool true), ("i",
  .arr [.arr [n 0, n 0], .arr [x r (-1578) 2, x r (-867) 3], .arr [n 0, n 0], .arr [x r 17737 3, x r 29557 3],
  .arr [x r 4937 3, x r (-5285) 2]]), ("o", .arr [.arr [n 0, n 0], .arr [x r 1578 2, x r 867 3], .arr [n 0, n
  0], .arr [x r (-23253) 3, x r (-3875) 2], .arr [x r (-2343) 3, x r 25087 3]]), ("v", .arr [.arr [x r
  (-46657) 3, x r 37295 3], .arr [x r (-7082) 3, x r 35582 3], .arr [x r 36849 3, x r 41609 3], .arr [x r
  26912 3, x r (-38249) 3], .arr [x r (-57203) 3, x r (-19161) 3]])]]), ("t", n 282)], .obj [("s", .arr [.obj
  [("c", .bool true), ("i", .arr [.arr [n 0, n 0], .arr [x r (-15538) 3, x r (-289) 2], .arr [n 0, n 0], .arr
  [x r 10171 3, x r 32936 3], .arr [x r 17405 3, x r (-50145) 3]]), ("o", .arr [.arr [n 0, n 0], .arr [x r
  15538 3, x r 2888 3], .arr [n 0, n 0], .arr [x r (-13335) 3, x r (-4318) 2], .arr [x r (-8262) 3, x r 23803
  3]]), ("v", .arr [.arr [x r (-4198) 2, x r 36624 3], .arr [x r (-2513) 3, x r 40011 3], .arr [x r 4028 2, x
  r 51634 3], .arr [x r 47314 3, x r (-23873) 3], .arr [x r (-38926) 3, x r (-25408) 3]])]]), ("t", n 304)]]

/-- A value in `examples/assets/google_fonts/Tiger.json`. -/
def tiger202 : Json F :=
  .arr [.obj [("i", .obj [("x", x r 833 3), ("y", x r 833 3)]), ("o", .obj [("x", x r 333 3), ("y", n 0)]),
  ("s", .arr [.obj [("c", .bool true), ("i", .arr [.arr [n 0, n 0], .arr [x r (-33) 3, x r (-11305) 3], .arr
  [x r 2145 3, x r (-4711) 3], .arr [n 0, n 0], .arr [x r 4812 3, x r 6851 3], .arr [n 0, n 0]]), ("o", .arr
  [.arr [n 0, n 0], .arr [x r 156 3, x r 20009 3], .arr [x r 48355 3, x r 2711 3], .arr [n 0, n 0], .arr [x r
  (-4792) 3, x r (-6773) 3], .arr [n 0, n 0]]), ("v", .arr [.arr [x r (-39442) 3, x r (-34067) 3], .arr [x r
  (-31439) 3, x r 6973 3], .arr [x r (-38264) 3, x r 44845 3], .arr [x r 39942 3, x r 17707 3], .arr [x r
  15384 3, x r (-1411) 2], .arr [x r (-392) 2, x r (-4042) 2]])]]), ("t", n 0)], .obj [("i", .obj [("x", x r
  667 3), ("y", n 1)]), ("o", .obj [("x", x r 167 3), ("y", x r 167 3)]), ("s", .arr [.obj [("c", .bool true),
  ("i", .arr [.arr [n 0, n 0], .arr [x r (-33) 3, x r (-11305) 3], .arr [x r 2145 3, x r (-4711) 3], .arr [n
  0, n 0], .arr [x r 4812 3, x r 6851 3], .arr [n 0, n 0]]), ("o", .arr [.arr [n 0, n 0], .arr [x r 156 3, x r
  20009 3], .arr [x r 48355 3, x r 2711 3], .arr [n 0, n 0], .arr [x r (-4792) 3, x r (-6773) 3], .arr [n 0, n
  0]]), ("v", .arr [.arr [x r (-39442) 3, x r (-34067) 3], .arr [x r (-31439) 3, x r 6973 3], .arr [x r
  (-38264) 3, x r 44845 3], .arr [x r 39942 3, x r 17707 3], .arr [x r 15384 3, x r (-1411) 2], .arr [x r
  (-392) 2, x r (-4042) 2]])]]), ("t", n 30)], .obj [("i", .obj [("x", x r 667 3), ("y", n 1)]), ("o", .obj
  [("x", x r 333 3), ("y", n 0)]), ("s", .arr [.obj [("c", .bool true), ("i", .arr [.arr [n 0, n 0], .arr [x r
  (-519) 3, x r (-11293) 3], .arr [x r 1941 3, x r (-4799) 3], .arr [n 0, n 0], .arr [x r 5125 3, x r 662 2],
  .arr [n 0, n 0]]), ("o", .arr [.arr [n 0, n 0], .arr [x r 1016 3, x r 19984 3], .arr [x r 48427 3, x r 629
  3], .arr [n 0, n 0], .arr [x r (-5079) 3, x r (-6561) 3], .arr [n 0, n 0]]), ("v", .arr [.arr [x r (-41184)
  3, x r (-34781) 3], .arr [x r (-31423) 3, x r 5877 3], .arr [x r (-36613) 3, x r 44007 3], .arr [x r 40354
  3, x r 13532 3], .arr [x r 1445 2, x r (-172) 1], .arr [x r (-5967) 3, x r (-42656) 3]])]]), ("t", n 38)],
  .obj [("i", .obj [("x", x r 3 1), ("y", n 1)]), ("o", .obj [("x", x r 333 3), ("y", n 0)]), ("s", .arr [.obj
  [("c", .bool true), ("i", .arr [.arr [n 0, n 0], .arr [x r (-33) 3, x r (-11305) 3], .arr [x r 2145 3, x r
  (-4711) 3], .arr [n 0, n 0], .arr [x r 4812 3, x r 6851 3], .arr [n 0, n 0]]), ("o", .arr [.arr [n 0, n 0],
  .arr [x r 156 3, x r 20009 3], .arr [x r 48355 3, x r 2711 3], .arr [n 0, n 0], .arr [x r (-4792) 3, x r
  (-6773) 3], .arr [n 0, n 0]]), ("v", .arr [.arr [x r (-39442) 3, x r (-34067) 3], .arr [x r (-31439) 3, x r
  6973 3], .arr [x r (-38264) 3, x r 44845 3], .arr [x r 39942 3, x r 17707 3], .arr [x r 15384 3, x r (-1411)
  2], .arr [x r (-392) 2, x r (-4042) 2]])]]), ("t", n 48)], .obj [("i", .obj [("x", x r 833 3), ("y", x r 833
  3)]), ("o", .obj [("x", x r 7 1), ("y", n 0)]), ("s", .arr [.obj [("c", .bool true), ("i", .arr [.arr [n 0,
  n 0], .arr [x r (-33) 3, x r (-11305) 3], .arr [x r 2145 3, x r (-4711) 3], .arr [n 0, n 0], .arr [x r 1135
  2, x r 13922 3], .arr [n 0, n 0]]), ("o", .arr [.arr [n 0, n 0], .arr [x r 156 3, x r 20009 3], .arr [x r
  48355 3, x r 2711 3], .arr [n 0, n 0], .arr [x r (-10414) 3, x r (-12774) 3], .arr [n 0, n 0]]), ("v", .arr
  [.arr [x r (-36716) 3, x r (-33314) 3], .arr [x r (-29887) 3, x r 6668 3], .arr [x r (-38264) 3, x r 44845
  3], .arr [x r 39942 3, x r 17707 3], .arr [x r 17311 3, x r (-15778) 3], .arr [x r (-392) 2, x r (-4042)
  2]])]]), ("t", n 58)], .obj [("i", .obj [("x", x r 833 3), ("y", x r 833 3)]), ("o", .obj [("x", x r 167 3),
  ("y", x r 167 3)]), ("s", .arr [.obj [("c", .bool true), ("i", .arr [.arr [n 0, n 0], .arr [x r 2856 3, x r
  (-10938) 3], .arr [x r 3277 3, x r (-4007) 3], .arr [n 0, n 0], .arr [x r 425 2, x r 17452 3], .arr [n 0, n
  0]]), ("o", .arr [.arr [n 0, n 0], .arr [x r (-496) 2, x r 19385 3], .arr [x r 46058 3, x r 14973 3], .arr
  [n 0, n 0], .arr [x r (-39) 1, x r (-16013) 3], .arr [n 0, n 0]]), ("v", .arr [.arr [x r (-26839) 3, x r
  (-25404) 3], .arr [x r (-3045) 2, x r 14996 3], .arr [x r (-48301) 3, x r 49767 3], .arr [x r 28267 3, x r
  48859 3], .arr [x r 22256 3, x r 8893 3], .arr [x r 13702 3, x r (-22488) 3]])]]), ("t", n 66)], .obj [("i",
  .obj [("x", x r 833 3), ("y", x r 833 3)]), ("o", .obj [("x", x r 167 3), ("y", x r 167 3)]), ("s", .arr
  [.obj [("c", .bool true), ("i", .arr [.arr [n 0, n 0], .arr [x r 2856 3, x r (-10938) 3], .arr [x r 3277 3,
  x r (-4007) 3], .arr [n 0, n 0], .arr [x r (-1719) 3, x r 1788 2], .arr [n 0, n 0]]), ("o", .arr [.arr [n 0,
  n 0], .arr [x r (-496) 2, x r 19385 3], .arr [x r 46058 3, x r 14973 3], .arr [n 0, n 0], .arr [x r 1577 3,
  x r (-16405) 3], .arr [n 0, n 0]]), ("v", .arr [.arr [x r (-23952) 3, x r (-24589) 3], .arr [x r (-33315) 3,
  x r 21461 3], .arr [x r (-59929) 3, x r 65187 3], .arr [x r 4876 3, x r 86132 3], .arr [x r 21364 3, x r
  36492 3], .arr [x r 23175 3, x r 1846 3]])]]), ("t", n 70)], .obj [("i", .obj [("x", x r 667 3), ("y", n
  1)]), ("o", .obj [("x", x r 167 3), ("y", x r 167 3)]), ("s", .arr [.obj [("c", .bool true), ("i", .arr
  [.arr [n 0, n 0], .arr [x r 19046 3, x r (-13744) 3], .arr [x r 11737 3, x r (-5634) 3], .arr [n 0, n 0],
  .arr [x r (-17784) 3, x r 12649 3], .arr [n 0, n 0]]), ("o", .arr [.arr [n 0, n 0], .arr [x r (-21972) 3, x
  r 15856 3], .arr [x r 36389 3, x r 31959 3], .arr [n 0, n 0], .arr [x r 23602 3, x r (-16786) 3], .arr [n 0,
  n 0]]), ("v", .arr [.arr [x r 27309 3, x r (-697) 2], .arr [x r (-3182) 3, x r 23662 3], .arr [x r (-48985)
  3, x r 49161 3], .arr [x r (-8934) 3, x r 87115 3], .arr [x r 29448 3, x r 67311 3], .arr [x r 71891 3, x r
  31363 3]])]]), ("t", n 74)], .obj [("i", .obj [("x", x r 667 3), ("y", n 1)]), ("o", .obj [("x", x r 333 3),
  ("y", n 0)]), ("s", .arr [.obj [("c", .bool true), ("i", .arr [.arr [n 0, n 0], .arr [x r 22967 3, x r
  (-4914) 3], .arr [x r 13012 3, x r (-432) 3], .arr [n 0, n 0], .arr [x r (-21371) 3, x r 4419 3], .arr [n 0,
  n 0]]), ("o", .arr [.arr [n 0, n 0], .arr [x r (-26496) 3, x r 5669 3], .arr [x r 20444 3, x r 43904 3],
  .arr [n 0, n 0], .arr [x r 28363 3, x r (-5865) 3], .arr [n 0, n 0]]), ("v", .arr [.arr [x r 946 2, x r
  24865 3], .arr [x r (-30782) 3, x r 40631 3], .arr [x r (-81136) 3, x r 44748 3], .arr [x r (-62718) 3, x r
  98298 3], .arr [x r (-18486) 3, x r 93723 3], .arr [x r 31873 3, x r 80588 3]])]]), ("t", n 92)], .obj
  [("i", .obj [("x", x r 833 3), ("y", x r 833 3)]), ("o", .obj [("x", x r 333 3), ("y", n 0)]), ("s", .arr
  [.obj [("c", .bool true), ("i", .arr [.arr [n 0, n 0], .arr [x r 21427 3, x r (-9618) 3], .arr [x r 12632 3,
  x r (-315) 2], .arr [n 0, n 0], .arr [x r (-1997) 2, x r 88 1], .arr [n 0, n 0]]), ("o", .arr [.arr [n 0, n
  0], .arr [x r (-2472) 2, x r 11096 3], .arr [x r 29192 3, x r 38644 3], .arr [n 0, n 0], .arr [x r 26504 3,
  x r (-11679) 3], .arr [n 0, n 0]]), ("v", .arr [.arr [x r 11427 3, x r 19798 3], .arr [x r (-24617) 3, x r
  43648 3], .arr [x r (-74623) 3, x r 59381 3], .arr [x r (-43054) 3, x r 104635 3], .arr [x r (-1466) 3, x r
  92983 3], .arr [x r 47358 3, x r 66339 3]])]]), ("t", n 106)], .obj [("i", .obj [("x", x r 833 3), ("y", n
  1)]), ("o", .obj [("x", x r 167 3), ("y", x r 167 3)]), ("s", .arr [.obj [("c", .bool true), ("i", .arr
  [.arr [n 0, n 0], .arr [x r 15148 3, x r (-17949) 3], .arr [x r 10022 3, x r (-831) 2], .arr [n 0, n 0],
  .arr [x r (-12689) 3, x r 20791 3], .arr [n 0, n 0]]), ("o", .arr [.arr [n 0, n 0], .arr [x r (-17476) 3, x
  r 20707 3], .arr [x r 17363 3, x r 20303 3], .arr [n 0, n 0], .arr [x r 1717 2, x r (-28134) 3], .arr [n 0,
  n 0]]), ("v", .arr [.arr [x r (-17933) 3, x r (-8475) 3], .arr [x r (-41196) 3, x r 37283 3], .arr [x r
  (-74747) 3, x r 69213 3], .arr [x r (-37188) 3, x r 111334 3], .arr [x r (-71) 3, x r 74525 3], .arr [x r
  27433 3, x r 18668 3]])]]), ("t", n 124)], .obj [("i", .obj [("x", x r 833 3), ("y", x r 833 3)]), ("o",
  .obj [("x", x r 167 3), ("y", n 0)]), ("s", .arr [.obj [("c", .bool true), ("i", .arr [.arr [n 0, n 0], .arr
  [x r 14564 3, x r (-18426) 3], .arr [x r 975 2, x r (-8627) 3], .arr [n 0, n 0], .arr [x r (-12015) 3, x r
  21188 3], .arr [n 0, n 0]]), ("o", .arr [.arr [n 0, n 0], .arr [x r (-16802) 3, x r 21258 3], .arr [x r
  18006 3, x r 19735 3], .arr [n 0, n 0], .arr [x r 16258 3, x r (-28671) 3], .arr [n 0, n 0]]), ("v", .arr
  [.arr [x r (-28706) 3, x r (-3547) 3], .arr [x r (-46978) 3, x r 44062 3], .arr [x r (-78136) 3, x r 76356
  3], .arr [x r (-34508) 3, x r 11611 2], .arr [x r (-2262) 3, x r 74055 3], .arr [x r 23435 3, x r 17344
  3]])]]), ("t", n 134)], .obj [("i", .obj [("x", x r 833 3), ("y", x r 833 3)]), ("o", .obj [("x", x r 167
  3), ("y", x r 167 3)]), ("s", .arr [.obj [("c", .bool true), ("i", .arr [.arr [n 0, n 0], .arr [x r 14701 3,
  x r (-18317) 3], .arr [x r 9814 3, x r (-8555) 3], .arr [n 0, n 0], .arr [x r (-12172) 3, x r 21098 3], .arr
  [n 0, n 0]]), ("o", .arr [.arr [n 0, n 0], .arr [x r (-1696) 2, x r 21132 3], .arr [x r 17858 3, x r 19869
  3], .arr [n 0, n 0], .arr [x r 16471 3, x r (-28549) 3], .arr [n 0, n 0]]), ("v", .arr [.arr [x r (-13276)
  3, x r 416 3], .arr [x r (-35404) 3, x r 46734 3], .arr [x r (-68158) 3, x r 79482 3], .arr [x r (-29572) 3,
  x r 120664 3], .arr [x r 6627 3, x r 82951 3], .arr [x r 32745 3, x r 26432 3]])]]), ("t", n 146)], .obj
  [("i", .obj [("x", x r 833 3), ("y", x r 833 3)]), ("o", .obj [("x", x r 167 3), ("y", x r 167 3)]), ("s",
  .arr [.obj [("c", .bool true), ("i", .arr [.arr [n 0, n 0], .arr [x r 21427 3, x r (-9618) 3], .arr [x r
  12632 3, x r (-315) 2], .arr [n 0, n 0], .arr [x r (-1997) 2, x r 88 1], .arr [n 0, n 0]]), ("o", .arr [.arr
  [n 0, n 0], .arr [x r (-2472) 2, x r 11096 3], .arr [x r 29192 3, x r 38644 3], .arr [n 0, n 0], .arr [x r
  26504 3, x r (-11679) 3], .arr [n 0, n 0]]), ("v", .arr [.arr [x r 12497 3, x r 19185 3], .arr [x r (-26669)
  3, x r 45535 3], .arr [x r (-76675) 3, x r 61268 3], .arr [x r (-45106) 3, x r 106523 3], .arr [x r (-3518)
  3, x r 94871 3], .arr [x r 45926 3, x r 62604 3]])]]), ("t", n 160)], .obj [("i", .obj [("x", x r 667 3),
  ("y", n 1)]), ("o", .obj [("x", x r 167 3), ("y", x r 167 3)]), ("s", .arr [.obj [("c", .bool true), ("i",
  .arr [.arr [n 0, n 0], .arr [x r 22967 3, x r (-4914) 3], .arr [x r 13012 3, x r (-432) 3], .arr [n 0, n 0],
  .arr [x r (-21371) 3, x r 4419 3], .arr [n 0, n 0]]), ("o", .arr [.arr [n 0, n 0], .arr [x r (-26496) 3, x r
  5669 3], .arr [x r 20444 3, x r 43904 3], .arr [n 0, n 0], .arr [x r 28363 3, x r (-5865) 3], .arr [n 0, n
  0]]), ("v", .arr [.arr [x r 6494 3, x r 2755 2], .arr [x r (-33748) 3, x r 43315 3], .arr [x r (-82079) 3, x
  r 45216 3], .arr [x r (-62718) 3, x r 98298 3], .arr [x r (-21451) 3, x r 96407 3], .arr [x r 31873 3, x r
  80587 3]])]]), ("t", n 170)], .obj [("i", .obj [("x", x r 667 3), ("y", n 1)]), ("o", .obj [("x", x r 333
  3), ("y", n 0)]), ("s", .arr [.obj [("c", .bool true), ("i", .arr [.arr [n 0, n 0], .arr [x r 23162 3, x r
  (-3892) 3], .arr [x r 13018 3, x r 144 3], .arr [n 0, n 0], .arr [x r (-21546) 3, x r 3469 3], .arr [n 0, n
  0]]), ("o", .arr [.arr [n 0, n 0], .arr [x r (-26721) 3, x r 4491 3], .arr [x r 18481 3, x r 44766 3], .arr
  [n 0, n 0], .arr [x r 28594 3, x r (-4604) 3], .arr [n 0, n 0]]), ("v", .arr [.arr [x r 6647 3, x r 23308
  3], .arr [x r (-38049) 3, x r 41923 3], .arr [x r (-88536) 3, x r 43808 3], .arr [x r (-69425) 3, x r 9557
  2], .arr [x r (-25791) 3, x r 97406 3], .arr [x r 2818 2, x r 83961 3]])]]), ("t", n 184)], .obj [("i", .obj
  [("x", x r 833 3), ("y", x r 833 3)]), ("o", .obj [("x", x r 333 3), ("y", n 0)]), ("s", .arr [.obj [("c",
  .bool true), ("i", .arr [.arr [n 0, n 0], .arr [x r 22967 3, x r (-4914) 3], .arr [x r 13012 3, x r (-432)
  3], .arr [n 0, n 0], .arr [x r (-21371) 3, x r 4419 3], .arr [n 0, n 0]]), ("o", .arr [.arr [n 0, n 0], .arr
  [x r (-26496) 3, x r 5669 3], .arr [x r 20444 3, x r 43904 3], .arr [n 0, n 0], .arr [x r 28363 3, x r
  (-5865) 3], .arr [n 0, n 0]]), ("v", .arr [.arr [x r 10847 3, x r 23424 3], .arr [x r (-29395) 3, x r 3919
  2], .arr [x r (-79749) 3, x r 43307 3], .arr [x r (-61331) 3, x r 96857 3], .arr [x r (-17099) 3, x r 92282
  3], .arr [x r 31873 3, x r 80588 3]])]]), ("t", n 200)], .obj [("i", .obj [("x", x r 833 3), ("y", x r 833
  3)]), ("o", .obj [("x", x r 167 3), ("y", x r 167 3)]), ("s", .arr [.obj [("c", .bool true), ("i", .arr
  [.arr [n 0, n 0], .arr [x r 21427 3, x r (-9618) 3], .arr [x r 12632 3, x r (-315) 2], .arr [n 0, n 0], .arr
  [x r (-1997) 2, x r 88 1], .arr [n 0, n 0]]), ("o", .arr [.arr [n 0, n 0], .arr [x r (-2472) 2, x r 11096
  3], .arr [x r 29192 3, x r 38644 3], .arr [n 0, n 0], .arr [x r 26504 3, x r (-11679) 3], .arr [n 0, n 0]]),
  ("v", .arr [.arr [x r 1335 2, x r 13885 3], .arr [x r (-22694) 3, x r 37735 3], .arr [x r (-727) 1, x r
  53468 3], .arr [x r (-41131) 3, x r 98722 3], .arr [x r 457 3, x r 87071 3], .arr [x r 49281 3, x r 60426
  3]])]]), ("t", n 214)], .obj [("i", .obj [("x", x r 833 3), ("y", n 1)]), ("o", .obj [("x", x r 167 3),
  ("y", x r 167 3)]), ("s", .arr [.obj [("c", .bool true), ("i", .arr [.arr [n 0, n 0], .arr [x r 14564 3, x r
  (-18426) 3], .arr [x r 975 2, x r (-8627) 3], .arr [n 0, n 0], .arr [x r (-12015) 3, x r 21188 3], .arr [n
  0, n 0]]), ("o", .arr [.arr [n 0, n 0], .arr [x r (-16802) 3, x r 21258 3], .arr [x r 18006 3, x r 19735 3],
  .arr [n 0, n 0], .arr [x r 16258 3, x r (-28671) 3], .arr [n 0, n 0]]), ("v", .arr [.arr [x r (-24994) 3, x
  r (-5037) 3], .arr [x r (-43266) 3, x r 42572 3], .arr [x r (-74424) 3, x r 74866 3], .arr [x r (-30796) 3,
  x r 11462 2], .arr [x r 145 2, x r 72565 3], .arr [x r 27147 3, x r 15854 3]])]]), ("t", n 226)], .obj
  [("i", .obj [("x", x r 833 3), ("y", x r 833 3)]), ("o", .obj [("x", x r 167 3), ("y", n 0)]), ("s", .arr
  [.obj [("c", .bool true), ("i", .arr [.arr [n 0, n 0], .arr [x r 15148 3, x r (-17949) 3], .arr [x r 10022
  3, x r (-831) 2], .arr [n 0, n 0], .arr [x r (-12689) 3, x r 20791 3], .arr [n 0, n 0]]), ("o", .arr [.arr
  [n 0, n 0], .arr [x r (-17476) 3, x r 20707 3], .arr [x r 17363 3, x r 20303 3], .arr [n 0, n 0], .arr [x r
  1717 2, x r (-28134) 3], .arr [n 0, n 0]]), ("v", .arr [.arr [x r (-25773) 3, x r (-6392) 3], .arr [x r
  (-45564) 3, x r 40606 3], .arr [x r (-77742) 3, x r 71882 3], .arr [x r (-37608) 3, x r 116647 3], .arr [x r
  (-4027) 3, x r 7565 2], .arr [x r 23477 3, x r 19792 3]])]]), ("t", n 242)], .obj [("i", .obj [("x", x r 833
  3), ("y", x r 833 3)]), ("o", .obj [("x", x r 167 3), ("y", x r 167 3)]), ("s", .arr [.obj [("c", .bool
  true), ("i", .arr [.arr [n 0, n 0], .arr [x r 2856 3, x r (-10938) 3], .arr [x r 3277 3, x r (-4007) 3],
  .arr [n 0, n 0], .arr [x r 425 2, x r 17452 3], .arr [n 0, n 0]]), ("o", .arr [.arr [n 0, n 0], .arr [x r
  (-496) 2, x r 19385 3], .arr [x r 46058 3, x r 14973 3], .arr [n 0, n 0], .arr [x r (-39) 1, x r (-16013)
  3], .arr [n 0, n 0]]), ("v", .arr [.arr [x r (-26839) 3, x r (-25404) 3], .arr [x r (-3045) 2, x r 14996 3],
  .arr [x r (-48301) 3, x r 49767 3], .arr [x r 28267 3, x r 48859 3], .arr [x r 22256 3, x r 8893 3], .arr [x
  r 13702 3, x r (-22488) 3]])]]), ("t", n 248)], .obj [("i", .obj [("x", x r 833 3), ("y", x r 833 3)]),
  ("o", .obj [("x", x r 167 3), ("y", x r 167 3)]), ("s", .arr [.obj [("c", .bool true), ("i", .arr [.arr [n
  0, n 0], .arr [x r (-33) 3, x r (-11305) 3], .arr [x r 2145 3, x r (-4711) 3], .arr [n 0, n 0], .arr [x r
  1135 2, x r 13922 3], .arr [n 0, n 0]]), ("o", .arr [.arr [n 0, n 0], .arr [x r 156 3, x r 20009 3], .arr [x
  r 48355 3, x r 2711 3], .arr [n 0, n 0], .arr [x r (-10414) 3, x r (-12774) 3], .arr [n 0, n 0]]), ("v",
  .arr [.arr [x r (-36716) 3, x r (-33314) 3], .arr [x r (-29887) 3, x r 6668 3], .arr [x r (-38264) 3, x r
  44845 3], .arr [x r 39942 3, x r 17707 3], .arr [x r 17311 3, x r (-15778) 3], .arr [x r (-392) 2, x r
  (-4042) 2]])]]), ("t", n 252)], .obj [("i", .obj [("x", x r 833 3), ("y", x r 833 3)]), ("o", .obj [("x", x
  r 167 3), ("y", x r 167 3)]), ("s", .arr [.obj [("c", .bool true), ("i", .arr [.arr [n 0, n 0], .arr [x r
  (-519) 3, x r (-11293) 3], .arr [x r 1941 3, x r (-4799) 3], .arr [n 0, n 0], .arr [x r 5125 3, x r 662 2],
  .arr [n 0, n 0]]), ("o", .arr [.arr [n 0, n 0], .arr [x r 1016 3, x r 19984 3], .arr [x r 48427 3, x r 629
  3], .arr [n 0, n 0], .arr [x r (-5079) 3, x r (-6561) 3], .arr [n 0, n 0]]), ("v", .arr [.arr [x r (-41184)
  3, x r (-34781) 3], .arr [x r (-31423) 3, x r 5877 3], .arr [x r (-36613) 3, x r 44007 3], .arr [x r 40354
  3, x r 13532 3], .arr [x r 1445 2, x r (-172) 1], .arr [x r (-5967) 3, x r (-42656) 3]])]]), ("t", n 256)],
  .obj [("i", .obj [("x", x r 833 3), ("y", x r 833 3)]), ("o", .obj [("x", x r 167 3), ("y", x r 167 3)]),
  ("s", .arr [.obj [("c", .bool true), ("i", .arr [.arr [n 0, n 0], .arr [x r (-519) 3, x r (-11293) 3], .arr
  [x r 1941 3, x r (-4799) 3], .arr [n 0, n 0], .arr [x r 5125 3, x r 662 2], .arr [n 0, n 0]]), ("o", .arr
  [.arr [n 0, n 0], .arr [x r 1016 3, x r 19984 3], .arr [x r 48427 3, x r 629 3], .arr [n 0, n 0], .arr [x r
  (-5079) 3, x r (-6561) 3], .arr [n 0, n 0]]), ("v", .arr [.arr [x r (-41184) 3, x r (-34781) 3], .arr [x r
  (-31423) 3, x r 5877 3], .arr [x r (-36613) 3, x r 44007 3], .arr [x r 40354 3, x r 13532 3], .arr [x r 1445
  2, x r (-172) 1], .arr [x r (-5967) 3, x r (-42656) 3]])]]), ("t", n 262)], .obj [("i", .obj [("x", x r 667
  3), ("y", n 1)]), ("o", .obj [("x", x r 167 3), ("y", x r 167 3)]), ("s", .arr [.obj [("c", .bool true),
  ("i", .arr [.arr [n 0, n 0], .arr [x r 1392 3, x r (-11219) 3], .arr [x r 2722 3, x r (-4403) 3], .arr [n 0,
  n 0], .arr [x r 3936 3, x r 7389 3], .arr [n 0, n 0]]), ("o", .arr [.arr [n 0, n 0], .arr [x r (-2367) 3, x
  r 19869 3], .arr [x r 47628 3, x r 8783 3], .arr [n 0, n 0], .arr [x r (-39) 1, x r (-7323) 3], .arr [n 0, n
  0]]), ("v", .arr [.arr [x r (-30335) 3, x r (-30602) 3], .arr [x r (-32016) 3, x r 10284 3], .arr [x r
  (-43559) 3, x r 46994 3], .arr [x r 37443 3, x r 29928 3], .arr [x r 17089 3, x r (-4731) 3], .arr [x r
  (-15) 3, x r (-36367) 3]])]]), ("t", n 268)], .obj [("i", .obj [("x", x r 667 3), ("y", n 1)]), ("o", .obj
  [("x", x r 333 3), ("y", n 0)]), ("s", .arr [.obj [("c", .bool true), ("i", .arr [.arr [n 0, n 0], .arr [x r
  (-519) 3, x r (-11293) 3], .arr [x r 1941 3, x r (-4799) 3], .arr [n 0, n 0], .arr [x r 5125 3, x r 662 2],
  .arr [n 0, n 0]]), ("o", .arr [.arr [n 0, n 0], .arr [x r 1016 3, x r 19984 3], .arr [x r 48427 3, x r 629
  3], .arr [n 0, n 0], .arr [x r (-5079) 3, x r (-6561) 3], .arr [n 0, n 0]]), ("v", .arr [.arr [x r (-41184)
  3, x r (-34781) 3], .arr [x r (-31423) 3, x r 5877 3], .arr [x r (-36613) 3, x r 44007 3], .arr [x r 40354
  3, x r 13532 3], .arr [x r 1445 2, x r (-172) 1], .arr [x r (-5967) 3, x r (-42656) 3]])]]), ("t", n 282)],
  .obj [("s", .arr [.obj [("c", .bool true), ("i", .arr [.arr [n 0, n 0], .arr [x r (-33) 3, x r (-11305) 3],
  .arr [x r 2145 3, x r (-4711) 3], .arr [n 0, n 0], .arr [x r 4812 3, x r 6851 3], .arr [n 0, n 0]]), ("o",
  .arr [.arr [n 0, n 0], .arr [x r 156 3, x r 20009 3], .arr [x r 48355 3, x r 2711 3], .arr [n 0, n 0], .arr
  [x r (-4792) 3, x r (-6773) 3], .arr [n 0, n 0]]), ("v", .arr [.arr [x r (-39442) 3, x r (-34067) 3], .arr
  [x r (-31439) 3, x r 6973 3], .arr [x r (-38264) 3, x r 44845 3], .arr [x r 39942 3, x r 17707 3], .arr [x r
  15384 3, x r (-1411) 2], .arr [x r (-392) 2, x r (-4042) 2]])]]), ("t", n 304)]]

/-- A value in `examples/assets/google_fonts/Tiger.json`. -/
def tiger203 : Json F :=
  .arr [.obj [("i", .obj [("x", x r 833 3), ("y", x r 833 3)]), ("o", .obj [("x", x r 333 3), ("y", n 0)]),
  ("s", .arr [.obj [("c", .bool true), ("i", .arr [.arr [n 0, n 0], .arr [x r (-118) 1, x r 18126 3], .arr [n
  0, n 0], .arr [n 0, n 0], .arr [x r 7262 3, x r (-9309) 3]]), ("o", .arr [.arr [n 0, n 0], .arr [x r 10068
  3, x r (-15443) 3], .arr [n 0, n 0], .arr [n 0, n 0], .arr [x r 11738 3, x r 24809 3]]), ("v", .arr [.arr [x
  r (-719) 2, x r 53858 3], .arr [x r 25436 3, x r 22241 3], .arr [x r 48624 3, x r (-22106) 3], .arr [x r
  8618 3, x r (-52858) 3], .arr [x r (-49124) 3, x r 14398 3]])]]), ("t", n 0)], .obj [("i", .obj [("x", x r
  667 3), ("y", n 1)]), ("o", .obj [("x", x r 167 3), ("y", x r 167 3)]), ("s", .arr [.obj [("c", .bool true),
  ("i", .arr [.arr [n 0, n 0], .arr [x r (-118) 1, x r 18126 3], .arr [n 0, n 0], .arr [n 0, n 0], .arr [x r
  7262 3, x r (-9309) 3]]), ("o", .arr [.arr [n 0, n 0], .arr [x r 10068 3, x r (-15443) 3], .arr [n 0, n 0],
  .arr [n 0, n 0], .arr [x r 11738 3, x r 24809 3]]), ("v", .arr [.arr [x r (-719) 2, x r 53858 3], .arr [x r
  25436 3, x r 22241 3], .arr [x r 48624 3, x r (-22106) 3], .arr [x r 8618 3, x r (-52858) 3], .arr [x r
  (-49124) 3, x r 14398 3]])]]), ("t", n 30)], .obj [("i", .obj [("x", x r 667 3), ("y", n 1)]), ("o", .obj
  [("x", x r 333 3), ("y", n 0)]), ("s", .arr [.obj [("c", .bool true), ("i", .arr [.arr [n 0, n 0], .arr [x r
  (-118) 1, x r 18126 3], .arr [n 0, n 0], .arr [n 0, n 0], .arr [x r 7262 3, x r (-9309) 3]]), ("o", .arr
  [.arr [n 0, n 0], .arr [x r 10068 3, x r (-15443) 3], .arr [n 0, n 0], .arr [n 0, n 0], .arr [x r 11738 3, x
  r 24809 3]]), ("v", .arr [.arr [x r (-719) 2, x r 53858 3], .arr [x r 25436 3, x r 22241 3], .arr [x r 46259
  3, x r (-22421) 3], .arr [x r 8618 3, x r (-52858) 3], .arr [x r (-49124) 3, x r 14398 3]])]]), ("t", n
  38)], .obj [("i", .obj [("x", x r 3 1), ("y", n 1)]), ("o", .obj [("x", x r 333 3), ("y", n 0)]), ("s", .arr
  [.obj [("c", .bool true), ("i", .arr [.arr [n 0, n 0], .arr [x r (-118) 1, x r 18126 3], .arr [n 0, n 0],
  .arr [n 0, n 0], .arr [x r 7262 3, x r (-9309) 3]]), ("o", .arr [.arr [n 0, n 0], .arr [x r 10068 3, x r
  (-15443) 3], .arr [n 0, n 0], .arr [n 0, n 0], .arr [x r 11738 3, x r 24809 3]]), ("v", .arr [.arr [x r
  (-719) 2, x r 53858 3], .arr [x r 25436 3, x r 22241 3], .arr [x r 48624 3, x r (-22106) 3], .arr [x r 8618
  3, x r (-52858) 3], .arr [x r (-49124) 3, x r 14398 3]])]]), ("t", n 48)], .obj [("i", .obj [("x", x r 833
  3), ("y", x r 833 3)]), ("o", .obj [("x", x r 7 1), ("y", n 0)]), ("s", .arr [.obj [("c", .bool true), ("i",
  .arr [.arr [n 0, n 0], .arr [x r (-118) 1, x r 18126 3], .arr [n 0, n 0], .arr [n 0, n 0], .arr [x r 36376
  3, x r (-1033) 2]]), ("o", .arr [.arr [n 0, n 0], .arr [x r 10068 3, x r (-15443) 3], .arr [n 0, n 0], .arr
  [x r 8682 3, x r (-305) 3], .arr [x r 11738 3, x r 24809 3]]), ("v", .arr [.arr [x r (-719) 2, x r 53858 3],
  .arr [x r 28785 3, x r 22065 3], .arr [x r 48624 3, x r (-22106) 3], .arr [x r 13025 3, x r (-54209) 3],
  .arr [x r (-49124) 3, x r 14399 3]])]]), ("t", n 58)], .obj [("i", .obj [("x", x r 833 3), ("y", x r 833
  3)]), ("o", .obj [("x", x r 167 3), ("y", x r 167 3)]), ("s", .arr [.obj [("c", .bool true), ("i", .arr
  [.arr [n 0, n 0], .arr [x r (-118) 1, x r 18126 3], .arr [n 0, n 0], .arr [n 0, n 0], .arr [x r 36376 3, x r
  (-1033) 2]]), ("o", .arr [.arr [n 0, n 0], .arr [x r 10068 3, x r (-15443) 3], .arr [n 0, n 0], .arr [x r
  8682 3, x r (-305) 3], .arr [x r 11738 3, x r 24809 3]]), ("v", .arr [.arr [x r (-719) 2, x r 53858 3], .arr
  [x r 28785 3, x r 22065 3], .arr [x r 48624 3, x r (-22106) 3], .arr [x r 13025 3, x r (-54209) 3], .arr [x
  r (-49124) 3, x r 14399 3]])]]), ("t", n 66)], .obj [("i", .obj [("x", x r 833 3), ("y", x r 833 3)]), ("o",
  .obj [("x", x r 167 3), ("y", x r 167 3)]), ("s", .arr [.obj [("c", .bool true), ("i", .arr [.arr [n 0, n
  0], .arr [x r (-13403) 3, x r 16975 3], .arr [n 0, n 0], .arr [n 0, n 0], .arr [x r 37161 3, x r (-6996)
  3]]), ("o", .arr [.arr [n 0, n 0], .arr [x r 11424 3, x r (-14469) 3], .arr [n 0, n 0], .arr [x r 8674 3, x
  r 482 3], .arr [x r 9445 3, x r 25769 3]]), ("v", .arr [.arr [x r (-8983) 3, x r 5199 2], .arr [x r 29722 3,
  x r 23582 3], .arr [x r 53476 3, x r (-18612) 3], .arr [x r 20929 3, x r (-53805) 3], .arr [x r (-47173) 3,
  x r 8897 3]])]]), ("t", n 70)], .obj [("i", .obj [("x", x r 667 3), ("y", n 1)]), ("o", .obj [("x", x r 167
  3), ("y", x r 167 3)]), ("s", .arr [.obj [("c", .bool true), ("i", .arr [.arr [n 0, n 0], .arr [x r (-24306)
  3, x r 21866 3], .arr [n 0, n 0], .arr [n 0, n 0], .arr [x r 23225 3, x r (-15877) 3]]), ("o", .arr [.arr [n
  0, n 0], .arr [x r 17404 3, x r (-15658) 3], .arr [n 0, n 0], .arr [x r (-19602) 3, x r 17341 3], .arr [x r
  13158 3, x r 24086 3]]), ("v", .arr [.arr [x r 14441 3, x r 47991 3], .arr [x r 61775 3, x r 23419 3], .arr
  [x r 90349 3, x r (-8279) 3], .arr [x r 4976 2, x r (-47661) 3], .arr [x r (-19361) 3, x r 8691 3]])]]),
  ("t", n 74)], .obj [("i", .obj [("x", x r 667 3), ("y", n 1)]), ("o", .obj [("x", x r 333 3), ("y", n 0)]),
  ("s", .arr [.obj [("c", .bool true), ("i", .arr [.arr [n 0, n 0], .arr [x r (-29629) 3, x r 13822 3], .arr
  [n 0, n 0], .arr [n 0, n 0], .arr [x r 26199 3, x r (-10252) 3]]), ("o", .arr [.arr [n 0, n 0], .arr [x r
  21216 3, x r (-9897) 3], .arr [n 0, n 0], .arr [x r (-22997) 3, x r 12493 3], .arr [x r 741 2, x r 26426
  3]]), ("v", .arr [.arr [x r (-971) 3, x r 41435 3], .arr [x r 4974 2, x r 28573 3], .arr [x r 8564 2, x r
  366 2], .arr [x r 54938 3, x r (-43835) 3], .arr [x r (-25077) 3, x r (-4455) 3]])]]), ("t", n 92)], .obj
  [("i", .obj [("x", x r 833 3), ("y", x r 833 3)]), ("o", .obj [("x", x r 333 3), ("y", n 0)]), ("s", .arr
  [.obj [("c", .bool true), ("i", .arr [.arr [n 0, n 0], .arr [x r (-28218) 3, x r 16512 3], .arr [n 0, n 0],
  .arr [n 0, n 0], .arr [x r 25134 3, x r (-1264) 2]]), ("o", .arr [.arr [n 0, n 0], .arr [x r 20206 3, x r
  (-11824) 3], .arr [n 0, n 0], .arr [x r (-21738) 3, x r 14574 3], .arr [x r 9831 3, x r 25624 3]]), ("v",
  .arr [.arr [x r (-4304) 3, x r 51267 3], .arr [x r 44994 3, x r 33753 3], .arr [x r 82868 3, x r 3318 3],
  .arr [x r 50554 3, x r (-42501) 3], .arr [x r (-34342) 3, x r 8732 3]])]]), ("t", n 106)], .obj [("i", .obj
  [("x", x r 833 3), ("y", n 1)]), ("o", .obj [("x", x r 167 3), ("y", x r 167 3)]), ("s", .arr [.obj [("c",
  .bool true), ("i", .arr [.arr [n 0, n 0], .arr [x r (-24402) 3, x r 24264 3], .arr [n 0, n 0], .arr [n 0, n
  0], .arr [x r 27087 3, x r (-19088) 3]]), ("o", .arr [.arr [n 0, n 0], .arr [x r 16601 3, x r (-16507) 3],
  .arr [n 0, n 0], .arr [x r (-15661) 3, x r 15218 3], .arr [x r 741 2, x r 26426 3]]), ("v", .arr [.arr [x r
  (-10142) 3, x r 57177 3], .arr [x r 29473 3, x r 32129 3], .arr [x r 63161 3, x r (-6879) 3], .arr [x r
  29963 3, x r (-50271) 3], .arr [x r (-43816) 3, x r 12045 3]])]]), ("t", n 124)], .obj [("i", .obj [("x", x
  r 833 3), ("y", x r 833 3)]), ("o", .obj [("x", x r 167 3), ("y", n 0)]), ("s", .arr [.obj [("c", .bool
  true), ("i", .arr [.arr [n 0, n 0], .arr [x r (-2292) 2, x r 21699 3], .arr [n 0, n 0], .arr [n 0, n 0],
  .arr [x r 26461 3, x r (-19948) 3]]), ("o", .arr [.arr [n 0, n 0], .arr [x r 17001 3, x r (-16095) 3], .arr
  [n 0, n 0], .arr [x r (-15165) 3, x r 15713 3], .arr [x r 8254 3, x r 26175 3]]), ("v", .arr [.arr [x r
  (-15682) 3, x r 59089 3], .arr [x r 23108 3, x r 32782 3], .arr [x r 55527 3, x r (-7287) 3], .arr [x r
  20954 3, x r (-49591) 3], .arr [x r (-49836) 3, x r 1475 2]])]]), ("t", n 134)], .obj [("i", .obj [("x", x r
  833 3), ("y", x r 833 3)]), ("o", .obj [("x", x r 167 3), ("y", x r 167 3)]), ("s", .arr [.obj [("c", .bool
  true), ("i", .arr [.arr [n 0, n 0], .arr [x r (-24402) 3, x r 24264 3], .arr [n 0, n 0], .arr [n 0, n 0],
  .arr [x r 27087 3, x r (-19088) 3]]), ("o", .arr [.arr [n 0, n 0], .arr [x r 16601 3, x r (-16507) 3], .arr
  [n 0, n 0], .arr [x r (-15661) 3, x r 15218 3], .arr [x r 741 2, x r 26426 3]]), ("v", .arr [.arr [x r
  (-8211) 3, x r 61178 3], .arr [x r 31404 3, x r 3613 2], .arr [x r 65092 3, x r (-2878) 3], .arr [x r 31894
  3, x r (-4627) 2], .arr [x r (-41885) 3, x r 16046 3]])]]), ("t", n 146)], .obj [("i", .obj [("x", x r 833
  3), ("y", x r 833 3)]), ("o", .obj [("x", x r 167 3), ("y", x r 167 3)]), ("s", .arr [.obj [("c", .bool
  true), ("i", .arr [.arr [n 0, n 0], .arr [x r (-28218) 3, x r 16512 3], .arr [n 0, n 0], .arr [n 0, n 0],
  .arr [x r 25134 3, x r (-1264) 2]]), ("o", .arr [.arr [n 0, n 0], .arr [x r 20206 3, x r (-11824) 3], .arr
  [n 0, n 0], .arr [x r (-21738) 3, x r 14574 3], .arr [x r 9831 3, x r 25624 3]]), ("v", .arr [.arr [x r
  (-4304) 3, x r 51267 3], .arr [x r 44994 3, x r 33753 3], .arr [x r 82868 3, x r 3318 3], .arr [x r 50554 3,
  x r (-42501) 3], .arr [x r (-34342) 3, x r 8732 3]])]]), ("t", n 160)], .obj [("i", .obj [("x", x r 667 3),
  ("y", n 1)]), ("o", .obj [("x", x r 167 3), ("y", x r 167 3)]), ("s", .arr [.obj [("c", .bool true), ("i",
  .arr [.arr [n 0, n 0], .arr [x r (-29629) 3, x r 13822 3], .arr [n 0, n 0], .arr [n 0, n 0], .arr [x r 26199
  3, x r (-10252) 3]]), ("o", .arr [.arr [n 0, n 0], .arr [x r 21216 3, x r (-9897) 3], .arr [n 0, n 0], .arr
  [x r (-22997) 3, x r 12493 3], .arr [x r 741 2, x r 26426 3]]), ("v", .arr [.arr [x r (-1914) 3, x r 41904
  3], .arr [x r 48797 3, x r 29042 3], .arr [x r 82675 3, x r 6345 3], .arr [x r 53995 3, x r (-43366) 3],
  .arr [x r (-2602) 2, x r (-3986) 3]])]]), ("t", n 170)], .obj [("i", .obj [("x", x r 667 3), ("y", n 1)]),
  ("o", .obj [("x", x r 333 3), ("y", n 0)]), ("s", .arr [.obj [("c", .bool true), ("i", .arr [.arr [n 0, n
  0], .arr [x r (-30211) 3, x r 12497 3], .arr [n 0, n 0], .arr [n 0, n 0], .arr [x r 26199 3, x r (-10252)
  3]]), ("o", .arr [.arr [n 0, n 0], .arr [x r 21633 3, x r (-8948) 3], .arr [n 0, n 0], .arr [x r (-22997) 3,
  x r 12493 3], .arr [x r 741 2, x r 26426 3]]), ("v", .arr [.arr [x r (-395) 2, x r 3912 2], .arr [x r 46733
  3, x r 26076 3], .arr [x r 85066 3, x r 3138 3], .arr [x r 54364 3, x r (-44357) 3], .arr [x r (-25652) 3, x
  r (-4977) 3]])]]), ("t", n 184)], .obj [("i", .obj [("x", x r 833 3), ("y", x r 833 3)]), ("o", .obj [("x",
  x r 333 3), ("y", n 0)]), ("s", .arr [.obj [("c", .bool true), ("i", .arr [.arr [n 0, n 0], .arr [x r
  (-29629) 3, x r 13822 3], .arr [n 0, n 0], .arr [n 0, n 0], .arr [x r 26199 3, x r (-10252) 3]]), ("o", .arr
  [.arr [n 0, n 0], .arr [x r 21216 3, x r (-9897) 3], .arr [n 0, n 0], .arr [x r (-22997) 3, x r 12493 3],
  .arr [x r 741 2, x r 26426 3]]), ("v", .arr [.arr [x r (-971) 3, x r 41435 3], .arr [x r 51127 3, x r 27132
  3], .arr [x r 87027 3, x r 2219 3], .arr [x r 54938 3, x r (-43835) 3], .arr [x r (-25077) 3, x r (-4455)
  3]])]]), ("t", n 200)], .obj [("i", .obj [("x", x r 833 3), ("y", x r 833 3)]), ("o", .obj [("x", x r 167
  3), ("y", x r 167 3)]), ("s", .arr [.obj [("c", .bool true), ("i", .arr [.arr [n 0, n 0], .arr [x r (-28218)
  3, x r 16512 3], .arr [n 0, n 0], .arr [n 0, n 0], .arr [x r 25134 3, x r (-1264) 2]]), ("o", .arr [.arr [n
  0, n 0], .arr [x r 20206 3, x r (-11824) 3], .arr [n 0, n 0], .arr [x r (-21738) 3, x r 14574 3], .arr [x r
  9831 3, x r 25624 3]]), ("v", .arr [.arr [x r (-948) 3, x r 49089 3], .arr [x r 48349 3, x r 31576 3], .arr
  [x r 86223 3, x r 114 2], .arr [x r 53909 3, x r (-44679) 3], .arr [x r (-30987) 3, x r 6554 3]])]]), ("t",
  n 214)], .obj [("i", .obj [("x", x r 833 3), ("y", n 1)]), ("o", .obj [("x", x r 167 3), ("y", x r 167 3)]),
  ("s", .arr [.obj [("c", .bool true), ("i", .arr [.arr [n 0, n 0], .arr [x r (-2292) 2, x r 21699 3], .arr [n
  0, n 0], .arr [n 0, n 0], .arr [x r 26461 3, x r (-19948) 3]]), ("o", .arr [.arr [n 0, n 0], .arr [x r 17001
  3, x r (-16095) 3], .arr [n 0, n 0], .arr [x r (-15165) 3, x r 15713 3], .arr [x r 8254 3, x r 26175 3]]),
  ("v", .arr [.arr [x r (-1197) 2, x r 57598 3], .arr [x r 2682 2, x r 31292 3], .arr [x r 59239 3, x r
  (-8778) 3], .arr [x r 24666 3, x r (-51082) 3], .arr [x r (-46124) 3, x r 13259 3]])]]), ("t", n 226)], .obj
  [("i", .obj [("x", x r 833 3), ("y", x r 833 3)]), ("o", .obj [("x", x r 167 3), ("y", n 0)]), ("s", .arr
  [.obj [("c", .bool true), ("i", .arr [.arr [n 0, n 0], .arr [x r (-23605) 3, x r 20952 3], .arr [n 0, n 0],
  .arr [n 0, n 0], .arr [x r 27087 3, x r (-19088) 3]]), ("o", .arr [.arr [n 0, n 0], .arr [x r 17509 3, x r
  (-15541) 3], .arr [n 0, n 0], .arr [x r (-15661) 3, x r 15218 3], .arr [x r 741 2, x r 26426 3]]), ("v",
  .arr [.arr [x r (-16055) 3, x r 57159 3], .arr [x r 2356 2, x r 32111 3], .arr [x r 57248 3, x r (-6897) 3],
  .arr [x r 2405 2, x r (-50289) 3], .arr [x r (-48769) 3, x r 11747 3]])]]), ("t", n 242)], .obj [("i", .obj
  [("x", x r 833 3), ("y", x r 833 3)]), ("o", .obj [("x", x r 167 3), ("y", x r 167 3)]), ("s", .arr [.obj
  [("c", .bool true), ("i", .arr [.arr [n 0, n 0], .arr [x r (-118) 1, x r 18126 3], .arr [n 0, n 0], .arr [n
  0, n 0], .arr [x r 36376 3, x r (-1033) 2]]), ("o", .arr [.arr [n 0, n 0], .arr [x r 10068 3, x r (-15443)
  3], .arr [n 0, n 0], .arr [x r 8682 3, x r (-305) 3], .arr [x r 11738 3, x r 24809 3]]), ("v", .arr [.arr [x
  r (-719) 2, x r 53858 3], .arr [x r 28785 3, x r 22065 3], .arr [x r 48624 3, x r (-22106) 3], .arr [x r
  13025 3, x r (-54209) 3], .arr [x r (-49124) 3, x r 14399 3]])]]), ("t", n 248)], .obj [("i", .obj [("x", x
  r 833 3), ("y", x r 833 3)]), ("o", .obj [("x", x r 167 3), ("y", x r 167 3)]), ("s", .arr [.obj [("c",
  .bool true), ("i", .arr [.arr [n 0, n 0], .arr [x r (-118) 1, x r 18126 3], .arr [n 0, n 0], .arr [n 0, n
  0], .arr [x r 36376 3, x r (-1033) 2]]), ("o", .arr [.arr [n 0, n 0], .arr [x r 10068 3, x r (-15443) 3],
  .arr [n 0, n 0], .arr [x r 8682 3, x r (-305) 3], .arr [x r 11738 3, x r 24809 3]]), ("v", .arr [.arr [x r
  (-719) 2, x r 53858 3], .arr [x r 28785 3, x r 22065 3], .arr [x r 48624 3, x r (-22106) 3], .arr [x r 13025
  3, x r (-54209) 3], .arr [x r (-49124) 3, x r 14399 3]])]]), ("t", n 252)], .obj [("i", .obj [("x", x r 833
  3), ("y", x r 833 3)]), ("o", .obj [("x", x r 167 3), ("y", x r 167 3)]), ("s", .arr [.obj [("c", .bool
  true), ("i", .arr [.arr [n 0, n 0], .arr [x r (-118) 1, x r 18126 3], .arr [n 0, n 0], .arr [n 0, n 0], .arr
  [x r 35327 3, x r (-24204) 3]]), ("o", .arr [.arr [n 0, n 0], .arr [x r 10068 3, x r (-15443) 3], .arr [n 0,
  n 0], .arr [n 0, n 0], .arr [x r 11738 3, x r 24809 3]]), ("v", .arr [.arr [x r (-719) 2, x r 53858 3], .arr
  [x r 25436 3, x r 22241 3], .arr [x r 46259 3, x r (-22421) 3], .arr [x r 8618 3, x r (-52858) 3], .arr [x r
  (-49124) 3, x r 14398 3]])]]), ("t", n 256)], .obj [("i", .obj [("x", x r 833 3), ("y", x r 833 3)]), ("o",
  .obj [("x", x r 167 3), ("y", x r 167 3)]), ("s", .arr [.obj [("c", .bool true), ("i", .arr [.arr [n 0, n
  0], .arr [x r (-10406) 3, x r 191 1], .arr [n 0, n 0], .arr [n 0, n 0], .arr [x r 28985 3, x r (-7921) 3]]),
  ("o", .arr [.arr [n 0, n 0], .arr [x r 8819 3, x r (-16189) 3], .arr [n 0, n 0], .arr [n 0, n 0], .arr [x r
  11738 3, x r 24809 3]]), ("v", .arr [.arr [x r 36 2, x r 55657 3], .arr [x r 29837 3, x r 24613 3], .arr [x
  r 45306 3, x r (-13278) 3], .arr [x r 22361 3, x r (-41473) 3], .arr [x r (-51764) 3, x r 12975 3]])]]),
  ("t", n 262)], .obj [("i", .obj [("x", x r 667 3), ("y", n 1)]), ("o", .obj [("x", x r 167 3), ("y", x r 167
  3)]), ("s", .arr [.obj [("c", .bool true), ("i", .arr [.arr [n 0, n 0], .arr [x r (-18197) 3, x r 21991 3],
  .arr [n 0, n 0], .arr [n 0, n 0], .arr [x r 46432 3, x r (-11527) 3]]), ("o", .arr [.arr [n 0, n 0], .arr [x
  r 11752 3, x r (-14203) 3], .arr [n 0, n 0], .arr [n 0, n 0], .arr [x r 11738 3, x r 24809 3]]), ("v", .arr
  [.arr [x r (-719) 2, x r 53858 3], .arr [x r 35382 3, x r 30007 3], .arr [x r 5857 2, x r (-14339) 3], .arr
  [x r 18564 3, x r (-45092) 3], .arr [x r (-49124) 3, x r 14398 3]])]]), ("t", n 268)], .obj [("i", .obj
  [("x", x r 667 3), ("y", n 1)]), ("o", .obj [("x", x r 333 3), ("y", n 0)]), ("s", .arr [.obj [("c", .bool
  true), ("i", .arr [.arr [n 0, n 0], .arr [x r (-118) 1, x r 18126 3], .arr [n 0, n 0], .arr [n 0, n 0], .arr
  [x r 7262 3, x r (-9309) 3]]), ("o", .arr [.arr [n 0, n 0], .arr [x r 10068 3, x r (-15443) 3], .arr [n 0, n
  0], .arr [n 0, n 0], .arr [x r 11738 3, x r 24809 3]]), ("v", .arr [.arr [x r (-719) 2, x r 53858 3], .arr
  [x r 25436 3, x r 22241 3], .arr [x r 46259 3, x r (-22421) 3], .arr [x r 8618 3, x r (-52858) 3], .arr [x r
  (-49124) 3, x r 14398 3]])]]), ("t", n 282)], .obj [("s", .arr [.obj [("c", .bool true), ("i", .arr [.arr [n
  0, n 0], .arr [x r (-118) 1, x r 18126 3], .arr [n 0, n 0], .arr [n 0, n 0], .arr [x r 7262 3, x r (-9309)
  3]]), ("o", .arr [.arr [n 0, n 0], .arr [x r 10068 3, x r (-15443) 3], .arr [n 0, n 0], .arr [n 0, n 0],
  .arr [x r 11738 3, x r 24809 3]]), ("v", .arr [.arr [x r (-719) 2, x r 53858 3], .arr [x r 25436 3, x r
  22241 3], .arr [x r 48624 3, x r (-22106) 3], .arr [x r 8618 3, x r (-52858) 3], .arr [x r (-49124) 3, x r
  14398 3]])]]), ("t", n 304)]]

/-- A value in `examples/assets/google_fonts/Tiger.json`. -/
def tiger204 : Json F :=
  .arr [.obj [("i", .obj [("x", x r 833 3), ("y", x r 833 3)]), ("o", .obj [("x", x r 333 3), ("y", n 0)]),
  ("s", .arr [.obj [("c", .bool true), ("i", .arr [.arr [x r 2667 3, x r 22701 3], .arr [x r 17354 3, x r 1847
  3], .arr [x r 1707 3, x r (-25138) 3], .arr [x r 1234 3, x r (-10512) 3], .arr [x r 19753 3, x r (-5485) 3],
  .arr [x r 23709 3, x r 41749 3], .arr [x r 14311 3, x r 11185 3], .arr [x r (-33399) 3, x r (-37633) 3],
  .arr [x r (-58835) 3, x r 1306 2], .arr [x r (-4061) 3, x r 19064 3]]), ("o", .arr [.arr [x r (-1944) 3, x r
  (-16228) 3], .arr [x r (-22226) 3, x r (-2361) 3], .arr [x r (-564) 3, x r 8307 3], .arr [x r (-1234) 3, x r
  10512 3], .arr [x r (-3381) 2, x r 9389 3], .arr [x r (-23709) 3, x r (-41749) 3], .arr [n 0, n 0], .arr [x
  r 33399 3, x r 37633 3], .arr [x r 58271 3, x r (-12993) 3], .arr [x r 4061 3, x r (-19064) 3]]), ("v", .arr
  [.arr [x r 123521 3, x r (-35918) 3], .arr [x r 93802 3, x r (-72818) 3], .arr [x r 53281 3, x r (-30452)
  3], .arr [x r 51262 3, x r 8804 3], .arr [x r 25366 3, x r 35758 3], .arr [x r (-62701) 3, x r (-35788) 3],
  .arr [x r (-124005) 3, x r (-114654) 3], .arr [x r (-84891) 3, x r 55011 3], .arr [x r 38567 3, x r 102377
  3], .arr [x r 118125 3, x r 2198 2]])]]), ("t", n 0)], .obj [("i", .obj [("x", x r 667 3), ("y", n 1)]),
  ("o", .obj [("x", x r 167 3), ("y", x r 167 3)]), ("s", .arr [.obj [("c", .bool true), ("i", .arr [.arr [x r
  2667 3, x r 22701 3], .arr [x r 17354 3, x r 1847 3], .arr [x r 1707 3, x r (-25138) 3], .arr [x r 1234 3, x
  r (-10512) 3], .arr [x r 19753 3, x r (-5485) 3], .arr [x r 23709 3, x r 41749 3], .arr [x r 14311 3, x r
  11185 3], .arr [x r (-33399) 3, x r (-37633) 3], .arr [x r (-58835) 3, x r 1306 2], .arr [x r (-4061) 3, x r
  19064 3]]), ("o", .arr [.arr [x r (-1944) 3, x r (-16228) 3], .arr [x r (-22226) 3, x r (-2361) 3], .arr [x
  r (-564) 3, x r 8307 3], .arr [x r (-1234) 3, x r 10512 3], .arr [x r (-3381) 2, x r 9389 3], .arr [x r
  (-23709) 3, x r (-41749) 3], .arr [n 0, n 0], .arr [x r 33399 3, x r 37633 3], .arr [x r 58271 3, x r
  (-12993) 3], .arr [x r 4061 3, x r (-19064) 3]]), ("v", .arr [.arr [x r 123521 3, x r (-35918) 3], .arr [x r
  93802 3, x r (-72818) 3], .arr [x r 53281 3, x r (-30452) 3], .arr [x r 51262 3, x r 8804 3], .arr [x r
  25366 3, x r 35758 3], .arr [x r (-62701) 3, x r (-35788) 3], .arr [x r (-124005) 3, x r (-114654) 3], .arr
  [x r (-84891) 3, x r 55011 3], .arr [x r 38567 3, x r 102377 3], .arr [x r 118125 3, x r 2198 2]])]]), ("t",
  n 30)], .obj [("i", .obj [("x", x r 667 3), ("y", n 1)]), ("o", .obj [("x", x r 333 3), ("y", n 0)]), ("s",
  .arr [.obj [("c", .bool true), ("i", .arr [.arr [x r 8007 3, x r 21408 3], .arr [x r 20632 3, x r (-6841)
  3], .arr [x r (-4341) 3, x r (-2482) 2], .arr [x r (-127) 3, x r (-10584) 3], .arr [x r 19499 3, x r (-633)
  2], .arr [x r 23709 3, x r 41749 3], .arr [x r 14311 3, x r 11185 3], .arr [x r (-33399) 3, x r (-37633) 3],
  .arr [x r (-58204) 3, x r 15633 3], .arr [x r (-1578) 3, x r 19428 3]]), ("o", .arr [.arr [x r (-5761) 3, x
  r (-15296) 3], .arr [x r (-21215) 3, x r 7034 3], .arr [x r 1435 3, x r 8202 3], .arr [x r 127 3, x r 10584
  3], .arr [x r (-33375) 3, x r 10834 3], .arr [x r (-23709) 3, x r (-41749) 3], .arr [n 0, n 0], .arr [x r
  33399 3, x r 37633 3], .arr [x r 57659 3, x r (-15487) 3], .arr [x r 1578 3, x r (-19428) 3]]), ("v", .arr
  [.arr [x r 10689 2, x r (-48281) 3], .arr [x r 66326 3, x r (-76246) 3], .arr [x r 39983 3, x r (-26212) 3],
  .arr [x r 46372 3, x r 8607 3], .arr [x r 23761 3, x r 34266 3], .arr [x r (-62701) 3, x r (-35788) 3], .arr
  [x r (-133515) 3, x r (-111564) 3], .arr [x r (-84891) 3, x r 55011 3], .arr [x r 39813 3, x r 100256 3],
  .arr [x r 114374 3, x r 13081 3]])]]), ("t", n 38)], .obj [("i", .obj [("x", x r 833 3), ("y", x r 833 3)]),
  ("o", .obj [("x", x r 333 3), ("y", n 0)]), ("s", .arr [.obj [("c", .bool true), ("i", .arr [.arr [x r 2667
  3, x r 22701 3], .arr [x r 17354 3, x r 1847 3], .arr [x r 1707 3, x r (-25138) 3], .arr [x r 1234 3, x r
  (-10513) 3], .arr [x r 19753 3, x r (-5485) 3], .arr [x r 23709 3, x r 41749 3], .arr [x r 14311 3, x r
  11185 3], .arr [x r (-33399) 3, x r (-37633) 3], .arr [x r (-58835) 3, x r 1306 2], .arr [x r (-4061) 3, x r
  19064 3]]), ("o", .arr [.arr [x r (-1944) 3, x r (-16228) 3], .arr [x r (-22226) 3, x r (-2361) 3], .arr [x
  r (-564) 3, x r 8307 3], .arr [x r (-1234) 3, x r 10512 3], .arr [x r (-3381) 2, x r 9389 3], .arr [x r
  (-23709) 3, x r (-41749) 3], .arr [n 0, n 0], .arr [x r 33399 3, x r 37633 3], .arr [x r 58271 3, x r
  (-12993) 3], .arr [x r 4061 3, x r (-19064) 3]]), ("v", .arr [.arr [x r 123521 3, x r (-35918) 3], .arr [x r
  93802 3, x r (-72818) 3], .arr [x r 53281 3, x r (-30452) 3], .arr [x r 51262 3, x r 8804 3], .arr [x r
  25366 3, x r 35758 3], .arr [x r (-62701) 3, x r (-35788) 3], .arr [x r (-12159) 2, x r (-115301) 3], .arr
  [x r (-84891) 3, x r 55011 3], .arr [x r 38567 3, x r 102377 3], .arr [x r 118125 3, x r 2198 2]])]]), ("t",
  n 48)], .obj [("i", .obj [("x", x r 3 1), ("y", n 1)]), ("o", .obj [("x", x r 167 3), ("y", x r 167 3)]),
  ("s", .arr [.obj [("c", .bool true), ("i", .arr [.arr [x r 2667 3, x r 22701 3], .arr [x r 17354 3, x r 1847
  3], .arr [x r 1707 3, x r (-25138) 3], .arr [x r 1234 3, x r (-10513) 3], .arr [x r 19753 3, x r (-5485) 3],
  .arr [x r 19843 3, x r 61355 3], .arr [x r 13127 3, x r 5782 3], .arr [x r (-33399) 3, x r (-37633) 3], .arr
  [x r (-58835) 3, x r 1306 2], .arr [x r (-4061) 3, x r 19064 3]]), ("o", .arr [.arr [x r (-1944) 3, x r
  (-16228) 3], .arr [x r (-22226) 3, x r (-2361) 3], .arr [x r (-564) 3, x r 8307 3], .arr [x r (-1234) 3, x r
  10512 3], .arr [x r (-3381) 2, x r 9389 3], .arr [x r (-18943) 3, x r (-45669) 3], .arr [n 0, n 0], .arr [x
  r 33399 3, x r 37633 3], .arr [x r 58271 3, x r (-12993) 3], .arr [x r 4061 3, x r (-19064) 3]]), ("v", .arr
  [.arr [x r 123521 3, x r (-35918) 3], .arr [x r 93802 3, x r (-72818) 3], .arr [x r 53281 3, x r (-30452)
  3], .arr [x r 51262 3, x r 8804 3], .arr [x r 25366 3, x r 35758 3], .arr [x r (-77349) 3, x r (-62212) 3],
  .arr [x r (-119678) 3, x r (-10597) 2], .arr [x r (-84891) 3, x r 55011 3], .arr [x r 38567 3, x r 102377
  3], .arr [x r 118125 3, x r 2198 2]])]]), ("t", n 50)], .obj [("i", .obj [("x", x r 833 3), ("y", x r 833
  3)]), ("o", .obj [("x", x r 7 1), ("y", n 0)]), ("s", .arr [.obj [("c", .bool true), ("i", .arr [.arr [x r
  2667 3, x r 22701 3], .arr [x r 17354 3, x r 1847 3], .arr [x r 1707 3, x r (-25138) 3], .arr [x r 1234 3, x
  r (-10513) 3], .arr [x r 19753 3, x r (-5485) 3], .arr [x r (-529) 2, x r 55927 3], .arr [x r 6864 3, x r
  (-22812) 3], .arr [x r (-33399) 3, x r (-37633) 3], .arr [x r (-58835) 3, x r 1306 2], .arr [x r (-4061) 3,
  x r 19064 3]]), ("o", .arr [.arr [x r (-1944) 3, x r (-16228) 3], .arr [x r (-22226) 3, x r (-2361) 3], .arr
  [x r (-564) 3, x r 8307 3], .arr [x r (-1234) 3, x r 10512 3], .arr [x r (-3381) 2, x r 9389 3], .arr [x r
  6282 3, x r (-66417) 3], .arr [n 0, n 0], .arr [x r 33399 3, x r 37633 3], .arr [x r 58271 3, x r (-12993)
  3], .arr [x r 4061 3, x r (-19064) 3]]), ("v", .arr [.arr [x r 123521 3, x r (-35918) 3], .arr [x r 93802 3,
  x r (-72818) 3], .arr [x r 53281 3, x r (-30452) 3], .arr [x r 51262 3, x r 8804 3], .arr [x r 25366 3, x r
  35758 3], .arr [x r (-50271) 3, x r (-63532) 3], .arr [x r (-109559) 3, x r (-56594) 3], .arr [x r (-84891)
  3, x r 55011 3], .arr [x r 38567 3, x r 102377 3], .arr [x r 118125 3, x r 2198 2]])]]), ("t", n 58)], .obj
  [("i", .obj [("x", x r 833 3), ("y", x r 833 3)]), ("o", .obj [("x", x r 167 3), ("y", x r 167 3)]), ("s",
  .arr [.obj [("c", .bool true), ("i", .arr [.arr [x r (-15099) 3, x r 1716 2], .arr [x r 10231 3, x r 14139
  3], .arr [x r 19836 3, x r (-15537) 3], .arr [x r 8643 3, x r (-611) 2], .arr [x r 20499 3, x r (-257) 3],
  .arr [x r (-19959) 3, x r 52511 3], .arr [x r 6864 3, x r (-22812) 3], .arr [x r (-33399) 3, x r (-37633)
  3], .arr [x r (-60221) 3, x r (-2345) 3], .arr [x r (-16893) 3, x r 9725 3]]), ("o", .arr [.arr [x r 10769
  3, x r (-12295) 3], .arr [x r (-13103) 3, x r (-18107) 3], .arr [x r (-6555) 3, x r 5134 3], .arr [x r
  (-8643) 3, x r 611 2], .arr [x r (-35087) 3, x r 441 3], .arr [x r 17058 3, x r (-44879) 3], .arr [n 0, n
  0], .arr [x r 33399 3, x r 37633 3], .arr [x r 59657 3, x r 2323 3], .arr [x r 16893 3, x r (-9725) 3]]),
  ("v", .arr [.arr [x r 175722 3, x r 6364 2], .arr [x r 183295 3, x r 16869 3], .arr [x r 124699 3, x r 15057
  3], .arr [x r 94155 3, x r 398 1], .arr [x r 34023 3, x r 4748 2], .arr [x r (-37184) 3, x r (-44513) 3],
  .arr [x r (-104041) 3, x r (-36731) 3], .arr [x r (-84891) 3, x r 55011 3], .arr [x r 29767 3, x r 115261
  3], .arr [x r 129057 3, x r 98334 3]])]]), ("t", n 66)], .obj [("i", .obj [("x", x r 833 3), ("y", x r 833
  3)]), ("o", .obj [("x", x r 167 3), ("y", x r 167 3)]), ("s", .arr [.obj [("c", .bool true), ("i", .arr
  [.arr [x r (-22165) 3, x r 558 2], .arr [x r 416 3, x r 17447 3], .arr [x r 25148 3, x r (-1558) 3], .arr [x
  r 10584 3, x r (-135) 3], .arr [x r 19446 3, x r 6491 3], .arr [x r (-12223) 3, x r 42818 3], .arr [x r 6864
  3, x r (-22812) 3], .arr [x r (-29856) 3, x r (-405) 1], .arr [x r (-3796) 2, x r (-16682) 3], .arr [x r
  (-19429) 3, x r (-1562) 3]]), ("o", .arr [.arr [x r 15841 3, x r (-4026) 3], .arr [x r (-533) 3, x r
  (-22345) 3], .arr [x r (-831) 2, x r 515 3], .arr [x r (-10584) 3, x r 135 3], .arr [x r (-33284) 3, x r
  (-1111) 2], .arr [x r 13179 3, x r (-46167) 3], .arr [n 0, n 0], .arr [x r 29856 3, x r 405 1], .arr [x r
  3796 2, x r 16682 3], .arr [x r 19429 3, x r 1562 3]]), ("v", .arr [.arr [x r 16538 2, x r 145493 3], .arr
  [x r 198128 3, x r 111252 3], .arr [x r 150879 3, x r 76549 3], .arr [x r 111691 3, x r 79622 3], .arr [x r
  43754 3, x r 62912 3], .arr [x r (-37184) 3, x r (-44513) 3], .arr [x r (-104041) 3, x r (-36731) 3], .arr
  [x r (-83089) 3, x r 50815 3], .arr [x r 14036 3, x r 126642 3], .arr [x r 107271 3, x r 147628 3]])]]),
  ("t", n 70)], .obj [("i", .obj [("x", x r 667 3), ("y", n 1)]), ("o", .obj [("x", x r 167 3), ("y", x r 167
  3)]), ("s", .arr [.obj [("c", .bool true), ("i", .arr [.arr [x r (-15932) 3, x r (-16389) 3], .arr [x r
  (-14892) 3, x r 9099 3], .arr [x r 13945 3, x r 20985 3], .arr [x r 16828 3, x r 2637 2], .arr [x r 45324 3,
  x r 52008 3], .arr [x r 46774 3, x r 44344 3], .arr [x r (-1567) 2, x r (-20116) 3], .arr [x r (-33983) 3, x
  r (-31099) 3], .arr [x r (-21082) 3, x r (-24092) 3], .arr [x r (-16842) 3, x r (-22765) 3]]), ("o", .arr
  [.arr [x r 11419 3, x r 11693 3], .arr [x r 19073 3, x r (-11654) 3], .arr [x r (-4608) 3, x r (-6935) 3],
  .arr [x r (-16091) 3, x r (-25214) 3], .arr [x r (-33574) 3, x r (-38525) 3], .arr [x r (-34842) 3, x r
  (-33032) 3], .arr [x r 1567 2, x r 20115 3], .arr [x r 1835 2, x r 16792 3], .arr [x r 39316 3, x r 4493 2],
  .arr [x r 14238 3, x r 19246 3]]), ("v", .arr [.arr [x r 103798 3, x r 236136 3], .arr [x r 149837 3, x r
  247328 3], .arr [x r 156206 3, x r 189051 3], .arr [x r 125703 3, x r 144082 3], .arr [x r 52409 3, x r
  53952 3], .arr [x r (-58227) 3, x r (-55503) 3], .arr [x r (-149152) 3, x r (-49392) 3], .arr [x r (-85908)
  3, x r 19052 3], .arr [x r 1757 3, x r 103938 3], .arr [x r 66697 3, x r 184708 3]])]]), ("t", n 74)], .obj
  [("i", .obj [("x", x r 667 3), ("y", n 1)]), ("o", .obj [("x", x r 333 3), ("y", n 0)]), ("s", .arr [.obj
  [("c", .bool true), ("i", .arr [.arr [x r 4466 3, x r (-22416) 3], .arr [x r (-15939) 3, x r (-7108) 3],
  .arr [x r (-9379) 3, x r 23386 3], .arr [x r (-342) 2, x r 27359 3], .arr [x r 28174 3, x r 62971 3], .arr
  [x r 45363 3, x r 45786 3], .arr [x r (-21573) 3, x r (-18204) 3], .arr [x r (-32993) 3, x r (-32147) 3],
  .arr [x r (-13134) 3, x r (-29196) 3], .arr [x r (-475) 3, x r (-19486) 3]]), ("o", .arr [.arr [x r (-3157)
  3, x r 16037 3], .arr [x r 20413 3, x r 9103 3], .arr [x r 3099 3, x r (-7728) 3], .arr [x r 3711 3, x r
  (-2968) 2], .arr [x r (-2087) 2, x r (-46646) 3], .arr [x r (-33791) 3, x r (-34106) 3], .arr [x r 19488 3,
  x r 16444 3], .arr [x r 17815 3, x r 17359 3], .arr [x r 24493 3, x r 54447 3], .arr [x r 584 3, x r 23933
  3]]), ("v", .arr [.arr [x r (-19579) 3, x r 252288 3], .arr [x r (-2694) 3, x r 296557 3], .arr [x r 48921
  3, x r 268759 3], .arr [x r 63882 3, x r 2092 1], .arr [x r 36915 3, x r 7392 2], .arr [x r (-57892) 3, x r
  (-58536) 3], .arr [x r (-1536) 1, x r (-45366) 3], .arr [x r (-87893) 3, x r 15116 3], .arr [x r (-24386) 3,
  x r 105951 3], .arr [x r (-6036) 3, x r 196147 3]])]]), ("t", n 92)], .obj [("i", .obj [("x", x r 833 3),
  ("y", x r 833 3)]), ("o", .obj [("x", x r 333 3), ("y", n 0)]), ("s", .arr [.obj [("c", .bool true), ("i",
  .arr [.arr [x r (-6656) 3, x r (-21866) 3], .arr [x r (-17406) 3, x r 1268 3], .arr [x r 2785 3, x r 25042
  3], .arr [x r 9913 3, x r 25728 3], .arr [x r 33898 3, x r 60084 3], .arr [x r 17733 3, x r 22135 3], .arr
  [x r (-917) 2, x r (-27638) 3], .arr [x r (-23936) 3, x r (-32233) 3], .arr [x r (-33238) 3, x r (-57057)
  3], .arr [x r (-7025) 3, x r (-2064) 2]]), ("o", .arr [.arr [x r 4795 3, x r 15625 3], .arr [x r 22292 3, x
  r (-1624) 3], .arr [x r (-92) 2, x r (-8275) 3], .arr [x r (-10754) 3, x r (-27911) 3], .arr [x r (-2511) 2,
  x r (-44508) 3], .arr [x r (-39566) 3, x r (-49389) 3], .arr [x r 4074 3, x r 1228 2], .arr [x r 14829 3, x
  r 1997 2], .arr [x r 25968 3, x r 44577 3], .arr [x r 7713 3, x r 22664 3]]), ("v", .arr [.arr [x r 34271 3,
  x r 263336 3], .arr [x r 70071 3, x r 294372 3], .arr [x r 102425 3, x r 245484 3], .arr [x r 87466 3, x r
  185924 3], .arr [x r 36623 3, x r 72718 3], .arr [x r (-58893) 3, x r (-56445) 3], .arr [x r (-14264) 2, x r
  (-66009) 3], .arr [x r (-10136) 2, x r (-1141) 3], .arr [x r (-20918) 3, x r 110094 3], .arr [x r 15787 3, x
  r 194772 3]])]]), ("t", n 106)], .obj [("i", .obj [("x", x r 833 3), ("y", n 1)]), ("o", .obj [("x", x r 167
  3), ("y", x r 167 3)]), ("s", .arr [.obj [("c", .bool true), ("i", .arr [.arr [x r (-22748) 3, x r (-2229)
  3], .arr [x r (-5498) 3, x r 16564 3], .arr [x r 24198 3, x r 7022 3], .arr [x r 25955 3, x r 9302 3], .arr
  [x r 19481 3, x r 18579 3], .arr [x r 15397 3, x r 61201 3], .arr [x r (-5233) 3, x r (-24956) 3], .arr [x r
  (-16045) 3, x r (-28356) 3], .arr [x r (-42815) 3, x r (-43104) 3], .arr [x r (-35117) 3, x r (-14152) 3]]),
  ("o", .arr [.arr [x r 1627 2, x r 1557 3], .arr [x r 7041 3, x r (-21213) 3], .arr [x r (-7996) 3, x r
  (-2321) 3], .arr [x r (-2497) 2, x r (-8949) 3], .arr [x r (-28921) 3, x r (-27581) 3], .arr [x r (-11713)
  3, x r (-4656) 2], .arr [x r 9905 3, x r 47235 3], .arr [x r 1225 2, x r 21648 3], .arr [x r 35991 3, x r
  36234 3], .arr [x r 22205 3, x r 8948 3]]), ("v", .arr [.arr [x r 140919 3, x r 200993 3], .arr [x r 183303
  3, x r 179816 3], .arr [x r 150541 3, x r 1312 1], .arr [x r 87078 3, x r 119734 3], .arr [x r 15593 3, x r
  70742 3], .arr [x r (-61945) 3, x r (-54596) 3], .arr [x r (-141599) 3, x r (-76712) 3], .arr [x r (-100759)
  3, x r 30304 3], .arr [x r (-28518) 3, x r 12448 2], .arr [x r 70983 3, x r 18946 2]])]]), ("t", n 124)],
  .obj [("i", .obj [("x", x r 833 3), ("y", x r 833 3)]), ("o", .obj [("x", x r 167 3), ("y", n 0)]), ("s",
  .arr [.obj [("c", .bool true), ("i", .arr [.arr [x r (-22857) 3, x r 85 3], .arr [x r (-3792) 3, x r 17035
  3], .arr [x r 24785 3, x r 4536 3], .arr [x r 25014 3, x r 11597 3], .arr [x r 18068 3, x r 19956 3], .arr
  [x r 15761 3, x r 59555 3], .arr [x r (-7323) 3, x r (-24425) 3], .arr [x r (-22344) 3, x r (-29719) 3],
  .arr [x r (-33943) 3, x r (-32447) 3], .arr [x r (-30364) 3, x r (-13257) 3]]), ("o", .arr [.arr [x r 16344
  3, x r (-98) 3], .arr [x r 4857 3, x r (-21817) 3], .arr [x r (-819) 2, x r (-1499) 3], .arr [x r (-25462)
  3, x r (-11805) 3], .arr [x r (-32034) 3, x r (-35382) 3], .arr [x r (-12283) 3, x r (-46414) 3], .arr [x r
  7564 3, x r 25229 3], .arr [x r 14948 3, x r 19882 3], .arr [x r 36917 3, x r 3529 2], .arr [x r 2194 2, x r
  9579 3]]), ("v", .arr [.arr [x r 137768 3, x r 204436 3], .arr [x r 178476 3, x r 177839 3], .arr [x r
  140274 3, x r 134027 3], .arr [x r 77254 3, x r 115139 3], .arr [x r 16939 3, x r 74565 3], .arr [x r
  (-61941) 3, x r (-54547) 3], .arr [x r (-137805) 3, x r (-52014) 3], .arr [x r (-92696) 3, x r 51567 3],
  .arr [x r (-24658) 3, x r 133556 3], .arr [x r 59978 3, x r 190283 3]])]]), ("t", n 134)], .obj [("i", .obj
  [("x", x r 833 3), ("y", x r 833 3)]), ("o", .obj [("x", x r 167 3), ("y", x r 167 3)]), ("s", .arr [.obj
  [("c", .bool true), ("i", .arr [.arr [x r (-22748) 3, x r (-2229) 3], .arr [x r (-5498) 3, x r 16564 3],
  .arr [x r 24198 3, x r 7022 3], .arr [x r 25955 3, x r 9302 3], .arr [x r 17919 3, x r 2009 2], .arr [x r
  25684 3, x r 61599 3], .arr [x r (-13426) 3, x r (-26654) 3], .arr [x r (-16045) 3, x r (-28356) 3], .arr [x
  r (-35655) 3, x r (-37398) 3], .arr [x r (-35117) 3, x r (-14152) 3]]), ("o", .arr [.arr [x r 1627 2, x r
  1557 3], .arr [x r 7041 3, x r (-21213) 3], .arr [x r (-7996) 3, x r (-2321) 3], .arr [x r (-2497) 2, x r
  (-8949) 3], .arr [x r (-31769) 3, x r (-3562) 2], .arr [x r (-18477) 3, x r (-44314) 3], .arr [x r 18153 3,
  x r 36041 3], .arr [x r 1225 2, x r 21648 3], .arr [x r 35241 3, x r 36963 3], .arr [x r 22205 3, x r 8948
  3]]), ("v", .arr [.arr [x r 140034 3, x r 210011 3], .arr [x r 182418 3, x r 188834 3], .arr [x r 149656 3,
  x r 140219 3], .arr [x r 89142 3, x r 128205 3], .arr [x r 21619 3, x r 77329 3], .arr [x r (-58996) 3, x r
  (-55143) 3], .arr [x r (-136512) 3, x r (-43325) 3], .arr [x r (-96243) 3, x r 31791 3], .arr [x r (-21676)
  3, x r 133452 3], .arr [x r 70979 3, x r 198005 3]])]]), ("t", n 146)], .obj [("i", .obj [("x", x r 833 3),
  ("y", x r 833 3)]), ("o", .obj [("x", x r 167 3), ("y", x r 167 3)]), ("s", .arr [.obj [("c", .bool true),
  ("i", .arr [.arr [x r (-6656) 3, x r (-21866) 3], .arr [x r (-17406) 3, x r 1268 3], .arr [x r 2785 3, x r
  25042 3], .arr [x r 6649 3, x r 26758 3], .arr [x r 33898 3, x r 60084 3], .arr [x r 42234 3, x r 48688 3],
  .arr [x r (-10674) 3, x r (-1943) 2], .arr [x r (-25095) 3, x r (-31339) 3], .arr [x r (-17807) 3, x r
  (-30356) 3], .arr [x r (-349) 2, x r (-15983) 3]]), ("o", .arr [.arr [x r 4795 3, x r 15625 3], .arr [x r
  22292 3, x r (-1624) 3], .arr [x r (-92) 2, x r (-8275) 3], .arr [x r (-5992) 3, x r (-24112) 3], .arr [x r
  (-2511) 2, x r (-44508) 3], .arr [x r (-33055) 3, x r (-38105) 3], .arr [x r 12277 3, x r 22349 3], .arr [x
  r 26792 3, x r 33457 3], .arr [x r 30208 3, x r 51496 3], .arr [x r 5107 3, x r 23389 3]]), ("v", .arr [.arr
  [x r 29268 3, x r 257093 3], .arr [x r 65068 3, x r 288129 3], .arr [x r 97422 3, x r 239241 3], .arr [x r
  86058 3, x r 182568 3], .arr [x r 39744 3, x r 70217 3], .arr [x r (-59518) 3, x r (-57226) 3], .arr [x r
  (-143427) 3, x r (-48398) 3], .arr [x r (-79715) 3, x r 27819 3], .arr [x r (-20733) 3, x r 109579 3], .arr
  [x r 18999 3, x r 198625 3]])]]), ("t", n 160)], .obj [("i", .obj [("x", x r 833 3), ("y", n 1)]), ("o",
  .obj [("x", x r 167 3), ("y", x r 167 3)]), ("s", .arr [.obj [("c", .bool true), ("i", .arr [.arr [x r 4466
  3, x r (-22416) 3], .arr [x r (-15939) 3, x r (-7108) 3], .arr [x r (-9379) 3, x r 23386 3], .arr [x r
  (-2132) 3, x r 27489 3], .arr [x r 23759 3, x r 51897 3], .arr [x r 45363 3, x r 45786 3], .arr [x r
  (-19131) 3, x r (-19517) 3], .arr [x r (-22449) 3, x r (-29756) 3], .arr [x r (-11618) 3, x r (-29831) 3],
  .arr [x r (-475) 3, x r (-19486) 3]]), ("o", .arr [.arr [x r (-3157) 3, x r 16037 3], .arr [x r 20413 3, x r
  9103 3], .arr [x r 3099 3, x r (-7728) 3], .arr [x r 2887 3, x r (-37226) 3], .arr [x r (-21272) 3, x r
  (-46464) 3], .arr [x r (-33791) 3, x r (-34106) 3], .arr [x r 1785 2, x r 18209 3], .arr [x r 14981 3, x r
  19857 3], .arr [x r 22357 3, x r 57406 3], .arr [x r 584 3, x r 23933 3]]), ("v", .arr [.arr [x r (-19579)
  3, x r 252288 3], .arr [x r (-2694) 3, x r 296557 3], .arr [x r 48921 3, x r 268759 3], .arr [x r 63079 3, x
  r 207113 3], .arr [x r 35234 3, x r 73714 3], .arr [x r (-56812) 3, x r (-60283) 3], .arr [x r (-146936) 3,
  x r (-4737) 2], .arr [x r (-74194) 3, x r 26243 3], .arr [x r (-26003) 3, x r 107158 3], .arr [x r (-6036)
  3, x r 196147 3]])]]), ("t", n 170)], .obj [("i", .obj [("x", x r 667 3), ("y", n 1)]), ("o", .obj [("x", x
  r 167 3), ("y", n 0)]), ("s", .arr [.obj [("c", .bool true), ("i", .arr [.arr [x r 6765 3, x r (-21833) 3],
  .arr [x r (-15117) 3, x r (-8721) 3], .arr [x r (-11751) 3, x r 22288 3], .arr [x r (-4325) 3, x r 37608 3],
  .arr [x r 17348 3, x r 44594 3], .arr [x r 45363 3, x r 45786 3], .arr [x r (-25998) 3, x r (-22754) 3],
  .arr [x r (-32993) 3, x r (-32147) 3], .arr [x r (-11392) 3, x r (-29918) 3], .arr [x r 3826 3, x r (-28099)
  3]]), ("o", .arr [.arr [x r (-4802) 3, x r 15623 3], .arr [x r 1936 2, x r 11169 3], .arr [x r 3883 3, x r
  (-7365) 3], .arr [x r 3417 3, x r (-29715) 3], .arr [x r (-18528) 3, x r (-47625) 3], .arr [x r (-33791) 3,
  x r (-34106) 3], .arr [x r 19188 3, x r 16794 3], .arr [x r 17815 3, x r 17359 3], .arr [x r 16506 3, x r
  43349 3], .arr [x r (-409) 2, x r 30035 3]]), ("v", .arr [.arr [x r (-30617) 3, x r 243925 3], .arr [x r
  (-18409) 3, x r 289706 3], .arr [x r 35808 3, x r 267406 3], .arr [x r 56403 3, x r 189419 3], .arr [x r
  37415 3, x r 68425 3], .arr [x r (-56075) 3, x r (-62265) 3], .arr [x r (-145334) 3, x r (-42803) 3], .arr
  [x r (-8147) 2, x r 13574 3], .arr [x r (-28889) 3, x r 89456 3], .arr [x r (-1133) 2, x r 18949 2]])]]),
  ("t", n 184)], .obj [("i", .obj [("x", x r 833 3), ("y", x r 833 3)]), ("o", .obj [("x", x r 333 3), ("y", n
  0)]), ("s", .arr [.obj [("c", .bool true), ("i", .arr [.arr [x r 4466 3, x r (-22416) 3], .arr [x r (-15939)
  3, x r (-7108) 3], .arr [x r (-9379) 3, x r 23386 3], .arr [x r (-342) 2, x r 27359 3], .arr [x r 28174 3, x
  r 62971 3], .arr [x r 45363 3, x r 45786 3], .arr [x r (-21573) 3, x r (-18204) 3], .arr [x r (-32993) 3, x
  r (-32147) 3], .arr [x r (-13134) 3, x r (-29196) 3], .arr [x r 2511 3, x r (-22068) 3]]), ("o", .arr [.arr
  [x r (-3157) 3, x r 16037 3], .arr [x r 20413 3, x r 9103 3], .arr [x r 3099 3, x r (-7728) 3], .arr [x r
  3711 3, x r (-2968) 2], .arr [x r (-2087) 2, x r (-46646) 3], .arr [x r (-33791) 3, x r (-34106) 3], .arr [x
  r 19488 3, x r 16444 3], .arr [x r 17815 3, x r 17359 3], .arr [x r 24493 3, x r 54447 3], .arr [x r (-2707)
  3, x r 23787 3]]), ("v", .arr [.arr [x r (-19579) 3, x r 252288 3], .arr [x r (-2694) 3, x r 296557 3], .arr
  [x r 48921 3, x r 268759 3], .arr [x r 63882 3, x r 2092 1], .arr [x r 38302 3, x r 72479 3], .arr [x r
  (-56505) 3, x r (-59977) 3], .arr [x r (-150826) 3, x r (-48248) 3], .arr [x r (-85813) 3, x r 12954 3],
  .arr [x r (-22999) 3, x r 10451 2], .arr [x r (-3902) 3, x r 196814 3]])]]), ("t", n 200)], .obj [("i", .obj
  [("x", x r 833 3), ("y", x r 833 3)]), ("o", .obj [("x", x r 167 3), ("y", x r 167 3)]), ("s", .arr [.obj
  [("c", .bool true), ("i", .arr [.arr [x r (-6656) 3, x r (-21866) 3], .arr [x r (-17406) 3, x r 1268 3],
  .arr [x r 2785 3, x r 25042 3], .arr [x r 9913 3, x r 25728 3], .arr [x r 33898 3, x r 60084 3], .arr [x r
  24491 3, x r 44034 3], .arr [x r (-11664) 3, x r (-18853) 3], .arr [x r (-23936) 3, x r (-32233) 3], .arr [x
  r (-15787) 3, x r (-27851) 3], .arr [x r (-9627) 3, x r (-16949) 3]]), ("o", .arr [.arr [x r 4795 3, x r
  15625 3], .arr [x r 22292 3, x r (-1624) 3], .arr [x r (-92) 2, x r (-8275) 3], .arr [x r (-10754) 3, x r
  (-27911) 3], .arr [x r (-2511) 2, x r (-44508) 3], .arr [x r (-30759) 3, x r (-55304) 3], .arr [x r 17109 3,
  x r 27654 3], .arr [x r 14829 3, x r 1997 2], .arr [x r 29441 3, x r 51939 3], .arr [x r 11824 3, x r 20817
  3]]), ("v", .arr [.arr [x r 37627 3, x r 261158 3], .arr [x r 73427 3, x r 292194 3], .arr [x r 10578 2, x r
  243306 3], .arr [x r 90821 3, x r 183746 3], .arr [x r 39978 3, x r 7054 2], .arr [x r (-55538) 3, x r
  (-58623) 3], .arr [x r (-140978) 3, x r (-53169) 3], .arr [x r (-91063) 3, x r 17582 3], .arr [x r (-19718)
  3, x r 109278 3], .arr [x r 25484 3, x r 20355 2]])]]), ("t", n 214)], .obj [("i", .obj [("x", x r 833 3),
  ("y", n 1)]), ("o", .obj [("x", x r 167 3), ("y", x r 167 3)]), ("s", .arr [.obj [("c", .bool true), ("i",
  .arr [.arr [x r (-22857) 3, x r 85 3], .arr [x r (-3792) 3, x r 17035 3], .arr [x r 24785 3, x r 4536 3],
  .arr [x r 25014 3, x r 11597 3], .arr [x r 18068 3, x r 19956 3], .arr [x r 1576 2, x r 59555 3], .arr [x r
  (-9449) 3, x r (-28571) 3], .arr [x r (-2138) 2, x r (-33404) 3], .arr [x r (-33943) 3, x r (-32447) 3],
  .arr [x r (-30364) 3, x r (-13257) 3]]), ("o", .arr [.arr [x r 16344 3, x r (-98) 3], .arr [x r 4857 3, x r
  (-21817) 3], .arr [x r (-819) 2, x r (-1499) 3], .arr [x r (-25462) 3, x r (-11805) 3], .arr [x r (-32034)
  3, x r (-35382) 3], .arr [x r (-12283) 3, x r (-46414) 3], .arr [x r 827 2, x r 25006 3], .arr [x r 13409 3,
  x r 2095 2], .arr [x r 36917 3, x r 3529 2], .arr [x r 2194 2, x r 9579 3]]), ("v", .arr [.arr [x r 14148 2,
  x r 202946 3], .arr [x r 182188 3, x r 176349 3], .arr [x r 143986 3, x r 132537 3], .arr [x r 80966 3, x r
  113649 3], .arr [x r 20651 3, x r 73075 3], .arr [x r (-58229) 3, x r (-56037) 3], .arr [x r (-13725) 2, x r
  (-53314) 3], .arr [x r (-88984) 3, x r 50077 3], .arr [x r (-20946) 3, x r 132066 3], .arr [x r 6369 2, x r
  188793 3]])]]), ("t", n 226)], .obj [("i", .obj [("x", x r 833 3), ("y", x r 833 3)]), ("o", .obj [("x", x r
  167 3), ("y", n 0)]), ("s", .arr [.obj [("c", .bool true), ("i", .arr [.arr [x r (-22857) 3, x r 85 3], .arr
  [x r (-3792) 3, x r 17035 3], .arr [x r 24785 3, x r 4536 3], .arr [x r 24629 3, x r 12394 3], .arr [x r
  17418 3, x r 20526 3], .arr [x r 15761 3, x r 59555 3], .arr [x r (-7546) 3, x r (-24357) 3], .arr [x r
  (-21378) 3, x r (-30421) 3], .arr [x r (-32884) 3, x r (-3352) 2], .arr [x r (-30364) 3, x r (-13257) 3]]),
  ("o", .arr [.arr [x r 16344 3, x r (-98) 3], .arr [x r 4857 3, x r (-21817) 3], .arr [x r (-819) 2, x r
  (-1499) 3], .arr [x r (-2507) 2, x r (-12616) 3], .arr [x r (-30881) 3, x r (-36392) 3], .arr [x r (-12283)
  3, x r (-46414) 3], .arr [x r 1669 2, x r 53877 3], .arr [x r 14302 3, x r 20351 3], .arr [x r 35765 3, x r
  36456 3], .arr [x r 2194 2, x r 9579 3]]), ("v", .arr [.arr [x r 137768 3, x r 204436 3], .arr [x r 178476
  3, x r 177839 3], .arr [x r 140274 3, x r 134027 3], .arr [x r 7628 2, x r 117797 3], .arr [x r 19492 3, x r
  71677 3], .arr [x r (-61941) 3, x r (-54547) 3], .arr [x r (-137805) 3, x r (-52014) 3], .arr [x r (-91542)
  3, x r 48802 3], .arr [x r (-23977) 3, x r 129302 3], .arr [x r 59978 3, x r 190283 3]])]]), ("t", n 242)],
  .obj [("i", .obj [("x", x r 833 3), ("y", x r 833 3)]), ("o", .obj [("x", x r 167 3), ("y", x r 167 3)]),
  ("s", .arr [.obj [("c", .bool true), ("i", .arr [.arr [x r (-15099) 3, x r 1716 2], .arr [x r 10231 3, x r
  14139 3], .arr [x r 19836 3, x r (-15537) 3], .arr [x r 8643 3, x r (-611) 2], .arr [x r 20499 3, x r (-257)
  3], .arr [x r (-19959) 3, x r 52511 3], .arr [x r 6864 3, x r (-22812) 3], .arr [x r (-33399) 3, x r
  (-37633) 3], .arr [x r (-60221) 3, x r (-2345) 3], .arr [x r (-16893) 3, x r 9725 3]]), ("o", .arr [.arr [x
  r 10769 3, x r (-12295) 3], .arr [x r (-13103) 3, x r (-18107) 3], .arr [x r (-6555) 3, x r 5134 3], .arr [x
  r (-8643) 3, x r 611 2], .arr [x r (-35087) 3, x r 441 3], .arr [x r 17058 3, x r (-44879) 3], .arr [n 0, n
  0], .arr [x r 33399 3, x r 37633 3], .arr [x r 59657 3, x r 2323 3], .arr [x r 16893 3, x r (-9725) 3]]),
  ("v", .arr [.arr [x r 175722 3, x r 6364 2], .arr [x r 183295 3, x r 16869 3], .arr [x r 124699 3, x r 15057
  3], .arr [x r 94155 3, x r 398 1], .arr [x r 34023 3, x r 4748 2], .arr [x r (-37184) 3, x r (-44513) 3],
  .arr [x r (-116565) 3, x r (-62885) 3], .arr [x r (-84891) 3, x r 55011 3], .arr [x r 29767 3, x r 115261
  3], .arr [x r 129057 3, x r 98334 3]])]]), ("t", n 248)], .obj [("i", .obj [("x", x r 833 3), ("y", x r 833
  3)]), ("o", .obj [("x", x r 167 3), ("y", x r 167 3)]), ("s", .arr [.obj [("c", .bool true), ("i", .arr
  [.arr [x r 2667 3, x r 22701 3], .arr [x r 17354 3, x r 1847 3], .arr [x r 1707 3, x r (-25138) 3], .arr [x
  r 1234 3, x r (-10513) 3], .arr [x r 19753 3, x r (-5485) 3], .arr [x r (-25818) 3, x r 73595 3], .arr [x r
  12244 3, x r (-72578) 3], .arr [x r (-33399) 3, x r (-37633) 3], .arr [x r (-58835) 3, x r 1306 2], .arr [x
  r (-4061) 3, x r 19064 3]]), ("o", .arr [.arr [x r (-1944) 3, x r (-16228) 3], .arr [x r (-22226) 3, x r
  (-2361) 3], .arr [x r (-564) 3, x r 8307 3], .arr [x r (-1234) 3, x r 10512 3], .arr [x r (-3381) 2, x r
  9389 3], .arr [x r 15894 3, x r (-45304) 3], .arr [n 0, n 0], .arr [x r 33399 3, x r 37633 3], .arr [x r
  58271 3, x r (-12993) 3], .arr [x r 4061 3, x r (-19064) 3]]), ("v", .arr [.arr [x r 123521 3, x r (-35918)
  3], .arr [x r 93802 3, x r (-72818) 3], .arr [x r 53281 3, x r (-30452) 3], .arr [x r 51262 3, x r 8804 3],
  .arr [x r 25366 3, x r 35758 3], .arr [x r (-4217) 2, x r (-65519) 3], .arr [x r (-113913) 3, x r (-5441)
  2], .arr [x r (-84891) 3, x r 55011 3], .arr [x r 38567 3, x r 102377 3], .arr [x r 118125 3, x r 2198
  2]])]]), ("t", n 252)], .obj [("i", .obj [("x", x r 833 3), ("y", x r 833 3)]), ("o", .obj [("x", x r 167
  3), ("y", x r 167 3)]), ("s", .arr [.obj [("c", .bool true), ("i", .arr [.arr [x r 8007 3, x r 21408 3],
  .arr [x r 20632 3, x r (-6841) 3], .arr [x r (-4341) 3, x r (-2482) 2], .arr [x r (-127) 3, x r (-10584) 3],
  .arr [x r 19499 3, x r (-633) 2], .arr [x r 23709 3, x r 41749 3], .arr [x r 1363 2, x r (-11582) 3], .arr
  [x r (-33399) 3, x r (-37633) 3], .arr [x r (-58204) 3, x r 15633 3], .arr [x r (-1578) 3, x r 19428 3]]),
  ("o", .arr [.arr [x r (-5761) 3, x r (-15296) 3], .arr [x r (-21215) 3, x r 7034 3], .arr [x r 1435 3, x r
  8202 3], .arr [x r 127 3, x r 10584 3], .arr [x r (-33375) 3, x r 10834 3], .arr [x r (-23709) 3, x r
  (-41749) 3], .arr [n 0, n 0], .arr [x r 33399 3, x r 37633 3], .arr [x r 57659 3, x r (-15487) 3], .arr [x r
  1578 3, x r (-19428) 3]]), ("v", .arr [.arr [x r 10689 2, x r (-48281) 3], .arr [x r 66326 3, x r (-76246)
  3], .arr [x r 39983 3, x r (-26212) 3], .arr [x r 46372 3, x r 8607 3], .arr [x r 23761 3, x r 34266 3],
  .arr [x r (-62701) 3, x r (-35788) 3], .arr [x r (-133656) 3, x r (-41307) 3], .arr [x r (-84891) 3, x r
  55011 3], .arr [x r 39813 3, x r 100256 3], .arr [x r 114374 3, x r 13081 3]])]]), ("t", n 256)], .obj
  [("i", .obj [("x", x r 833 3), ("y", x r 833 3)]), ("o", .obj [("x", x r 167 3), ("y", x r 167 3)]), ("s",
  .arr [.obj [("c", .bool true), ("i", .arr [.arr [x r 8007 3, x r 21408 3], .arr [x r 20632 3, x r (-6841)
  3], .arr [x r (-4341) 3, x r (-2482) 2], .arr [x r (-127) 3, x r (-10584) 3], .arr [x r 19499 3, x r (-633)
  2], .arr [x r 3089 3, x r 45088 3], .arr [n 0, n 0], .arr [x r (-33399) 3, x r (-37633) 3], .arr [x r
  (-58204) 3, x r 15633 3], .arr [x r (-1578) 3, x r 19428 3]]), ("o", .arr [.arr [x r (-5761) 3, x r (-15296)
  3], .arr [x r (-21215) 3, x r 7034 3], .arr [x r 1435 3, x r 8202 3], .arr [x r 127 3, x r 10584 3], .arr [x
  r (-33375) 3, x r 10834 3], .arr [x r (-3282) 3, x r (-47899) 3], .arr [n 0, n 0], .arr [x r 33399 3, x r
  37633 3], .arr [x r 57659 3, x r (-15487) 3], .arr [x r 1578 3, x r (-19428) 3]]), ("v", .arr [.arr [x r
  10689 2, x r (-48281) 3], .arr [x r 66326 3, x r (-76246) 3], .arr [x r 39983 3, x r (-26212) 3], .arr [x r
  46372 3, x r 8607 3], .arr [x r 23761 3, x r 34266 3], .arr [x r (-48641) 3, x r (-49225) 3], .arr [x r
  (-111022) 3, x r (-57404) 3], .arr [x r (-80153) 3, x r 60974 3], .arr [x r 39813 3, x r 100256 3], .arr [x
  r 114374 3, x r 13081 3]])]]), ("t", n 262)], .obj [("i", .obj [("x", x r 667 3), ("y", n 1)]), ("o", .obj
  [("x", x r 167 3), ("y", x r 167 3)]), ("s", .arr [.obj [("c", .bool true), ("i", .arr [.arr [x r (-2472) 3,
  x r 22723 3], .arr [x r 16504 3, x r 5674 3], .arr [x r 728 2, x r (-24122) 3], .arr [x r 2549 3, x r
  (-10273) 3], .arr [x r 20287 3, x r (-2952) 3], .arr [x r 16672 3, x r 53332 3], .arr [x r 14311 3, x r
  11185 3], .arr [x r (-33399) 3, x r (-37633) 3], .arr [x r (-60006) 3, x r 5599 3], .arr [x r (-8218) 3, x r
  17674 3]]), ("o", .arr [.arr [x r 1731 3, x r (-16253) 3], .arr [x r (-21137) 3, x r (-7267) 3], .arr [x r
  (-2406) 3, x r 7971 3], .arr [x r (-2549) 3, x r 10273 3], .arr [x r (-34724) 3, x r 5053 3], .arr [x r
  (-14325) 3, x r (-45825) 3], .arr [n 0, n 0], .arr [x r 33399 3, x r 37633 3], .arr [x r 59444 3, x r
  (-5546) 3], .arr [x r 8218 3, x r (-17674) 3]]), ("v", .arr [.arr [x r 141923 3, x r (-12407) 3], .arr [x r
  121199 3, x r (-55015) 3], .arr [x r 72237 3, x r (-22774) 3], .arr [x r 58519 3, x r 17153 3], .arr [x r
  29434 3, x r 40629 3], .arr [x r (-57266) 3, x r (-41397) 3], .arr [x r (-100746) 3, x r (-103882) 3], .arr
  [x r (-84891) 3, x r 55011 3], .arr [x r 34133 3, x r 108381 3], .arr [x r 123726 3, x r 42821 3]])]]),
  ("t", n 268)], .obj [("i", .obj [("x", x r 667 3), ("y", n 1)]), ("o", .obj [("x", x r 333 3), ("y", n 0)]),
  ("s", .arr [.obj [("c", .bool true), ("i", .arr [.arr [x r 8007 3, x r 21408 3], .arr [x r 20632 3, x r
  (-6841) 3], .arr [x r (-4341) 3, x r (-2482) 2], .arr [x r (-127) 3, x r (-10584) 3], .arr [x r 19499 3, x r
  (-633) 2], .arr [x r 23709 3, x r 41749 3], .arr [x r 14311 3, x r 11185 3], .arr [x r (-33399) 3, x r
  (-37633) 3], .arr [x r (-58204) 3, x r 15633 3], .arr [x r (-1578) 3, x r 19428 3]]), ("o", .arr [.arr [x r
  (-5761) 3, x r (-15296) 3], .arr [x r (-21215) 3, x r 7034 3], .arr [x r 1435 3, x r 8202 3], .arr [x r 127
  3, x r 10584 3], .arr [x r (-33375) 3, x r 10834 3], .arr [x r (-23709) 3, x r (-41749) 3], .arr [n 0, n 0],
  .arr [x r 33399 3, x r 37633 3], .arr [x r 57659 3, x r (-15487) 3], .arr [x r 1578 3, x r (-19428) 3]]),
  ("v", .arr [.arr [x r 10689 2, x r (-48281) 3], .arr [x r 66326 3, x r (-76246) 3], .arr [x r 39983 3, x r
  (-26212) 3], .arr [x r 46372 3, x r 8607 3], .arr [x r 23761 3, x r 34266 3], .arr [x r (-62701) 3, x r
  (-35788) 3], .arr [x r (-130687) 3, x r (-116463) 3], .arr [x r (-84891) 3, x r 55011 3], .arr [x r 39813 3,
  x r 100256 3], .arr [x r 114374 3, x r 13081 3]])]]), ("t", n 282)], .obj [("s", .arr [.obj [("c", .bool
  true), ("i", .arr [.arr [x r 2667 3, x r 22701 3], .arr [x r 17354 3, x r 1847 3], .arr [x r 1707 3, x r
  (-25138) 3], .arr [x r 1234 3, x r (-10512) 3], .arr [x r 19753 3, x r (-5485) 3], .arr [x r 23709 3, x r
  41749 3], .arr [x r 14311 3, x r 11185 3], .arr [x r (-33399) 3, x r (-37633) 3], .arr [x r (-58835) 3, x r
  1306 2], .arr [x r (-4061) 3, x r 19064 3]]), ("o", .arr [.arr [x r (-1944) 3, x r (-16228) 3], .arr [x r
  (-22226) 3, x r (-2361) 3], .arr [x r (-564) 3, x r 8307 3], .arr [x r (-1234) 3, x r 10512 3], .arr [x r
  (-3381) 2, x r 9389 3], .arr [x r (-23709) 3, x r (-41749) 3], .arr [n 0, n 0], .arr [x r 33399 3, x r 37633
  3], .arr [x r 58271 3, x r (-12993) 3], .arr [x r 4061 3, x r (-19064) 3]]), ("v", .arr [.arr [x r 123521 3,
  x r (-35918) 3], .arr [x r 93802 3, x r (-72818) 3], .arr [x r 53281 3, x r (-30452) 3], .arr [x r 51262 3,
  x r 8804 3], .arr [x r 25366 3, x r 35758 3], .arr [x r (-62701) 3, x r (-35788) 3], .arr [x r (-124005) 3,
  x r (-114654) 3], .arr [x r (-84891) 3, x r 55011 3], .arr [x r 38567 3, x r 102377 3], .arr [x r 118125 3,
  x r 2198 2]])]]), ("t", n 304)]]

/-- A value in `examples/assets/google_fonts/Tiger.json`. -/
def tiger205 : Json F :=
  .arr [.obj [("bm", n 0), ("cix", n 2), ("hd", .bool false), ("it", .arr [.obj [("hd", .bool false), ("ind",
  n 0), ("ix", n 1), ("ks", .obj [("a", n 1), ("ix", n 2), ("k", tiger201 r)]), ("mn", .str
  "ADBE Vector Shape - Group"), ("nm", .str "Path 1"), ("ty", .str "sh")], .obj [("bm", n 0), ("c", .obj
  [("a", n 0), ("ix", n 4), ("k", .arr [x r 195999998205 12, x r 19199999641 11, x r 187999994615 12, n 1])]),
  ("hd", .bool false), ("mn", .str "ADBE Vector Graphic - Fill"), ("nm", .str "Fill 1"), ("o", .obj [("a", n
  0), ("ix", n 5), ("k", n 100)]), ("r", n 1), ("ty", .str "fl")], .obj [("a", .obj [("a", n 0), ("ix", n 1),
  ("k", .arr [n 0, n 0])]), ("nm", .str "Transform"), ("o", .obj [("a", n 0), ("ix", n 7), ("k", n 100)]),
  ("p", .obj [("a", n 0), ("ix", n 2), ("k", .arr [x r 208546 3, x r 89007 3])]), ("r", .obj [("a", n 0),
  ("ix", n 6), ("k", n 0)]), ("s", .obj [("a", n 0), ("ix", n 3), ("k", .arr [n 100, n 100])]), ("sa", .obj
  [("a", n 0), ("ix", n 5), ("k", n 0)]), ("sk", .obj [("a", n 0), ("ix", n 4), ("k", n 0)]), ("ty", .str
  "tr")]]), ("ix", n 1), ("mn", .str "ADBE Vector Group"), ("nm", .str "Group 1"), ("np", n 2), ("ty", .str
  "gr")], .obj [("bm", n 0), ("cix", n 2), ("hd", .bool false), ("it", .arr [.obj [("hd", .bool false),
  ("ind", n 0), ("ix", n 1), ("ks", .obj [("a", n 1), ("ix", n 2), ("k", tiger202 r)]), ("mn", .str
  "ADBE Vector Shape - Group"), ("nm", .str "Path 1"), ("ty", .str "sh")], .obj [("bm", n 0), ("c", .obj
  [("a", n 0), ("ix", n 4), ("k", .arr [x r 195999998205 12, x r 19199999641 11, x r 187999994615 12, n 1])]),
  ("hd", .bool false), ("mn", .str "ADBE Vector Graphic - Fill"), ("nm", .str "Fill 1"), ("o", .obj [("a", n
  0), ("ix", n 5), ("k", n 100)]), ("r", n 1), ("ty", .str "fl")], .obj [("a", .obj [("a", n 0), ("ix", n 1),
  ("k", .arr [n 0, n 0])]), ("nm", .str "Transform"), ("o", .obj [("a", n 0), ("ix", n 7), ("k", n 100)]),
  ("p", .obj [("a", n 0), ("ix", n 2), ("k", .arr [x r 168935 3, x r 181898 3])]), ("r", .obj [("a", n 0),
  ("ix", n 6), ("k", n 0)]), ("s", .obj [("a", n 0), ("ix", n 3), ("k", .arr [n 100, n 100])]), ("sa", .obj
  [("a", n 0), ("ix", n 5), ("k", n 0)]), ("sk", .obj [("a", n 0), ("ix", n 4), ("k", n 0)]), ("ty", .str
  "tr")]]), ("ix", n 2), ("mn", .str "ADBE Vector Group"), ("nm", .str "Group 2"), ("np", n 2), ("ty", .str
  "gr")], .obj [("bm", n 0), ("cix", n 2), ("hd", .bool false), ("it", .arr [.obj [("hd", .bool false),
  ("ind", n 0), ("ix", n 1), ("ks", .obj [("a", n 1), ("ix", n 2), ("k", tiger203 r)]), ("mn", .str
  "ADBE Vector Shape - Group"), ("nm", .str "Path 1"), ("ty", .str "sh")], .obj [("bm", n 0), ("c", .obj
  [("a", n 0), ("ix", n 4), ("k", .arr [x r 195999998205 12, x r 19199999641 11, x r 187999994615 12, n 1])]),
  ("hd", .bool false), ("mn", .str "ADBE Vector Graphic - Fill"), ("nm", .str "Fill 1"), ("o", .obj [("a", n
  0), ("ix", n 5), ("k", n 100)]), ("r", n 1), ("ty", .str "fl")], .obj [("a", .obj [("a", n 0), ("ix", n 1),
  ("k", .arr [n 0, n 0])]), ("nm", .str "Transform"), ("o", .obj [("a", n 0), ("ix", n 7), ("k", n 100)]),
  ("p", .obj [("a", n 0), ("ix", n 2), ("k", .arr [x r 71912 3, x r 155247 3])]), ("r", .obj [("a", n 0),
  ("ix", n 6), ("k", n 0)]), ("s", .obj [("a", n 0), ("ix", n 3), ("k", .arr [n 100, n 100])]), ("sa", .obj
  [("a", n 0), ("ix", n 5), ("k", n 0)]), ("sk", .obj [("a", n 0), ("ix", n 4), ("k", n 0)]), ("ty", .str
  "tr")]]), ("ix", n 3), ("mn", .str "ADBE Vector Group"), ("nm", .str "Group 3"), ("np", n 2), ("ty", .str
  "gr")], .obj [("bm", n 0), ("cix", n 2), ("hd", .bool false), ("it", .arr [.obj [("hd", .bool false),
  ("ind", n 0), ("ix", n 1), ("ks", .obj [("a", n 1), ("ix", n 2), ("k", tiger204 r)]), ("mn", .str
  "ADBE Vector Shape - Group"), ("nm", .str "Path 1"), ("ty", .str "sh")], .obj [("bm", n 0), ("c", .obj
  [("a", n 0), ("ix", n 4), ("k", .arr [x r 995999983245 12, x r 416000007181 12, x r 122000002394 12, n
  1])]), ("hd", .bool false), ("mn", .str "ADBE Vector Graphic - Fill"), ("nm", .str "Fill 1"), ("o", .obj
  [("a", n 0), ("ix", n 5), ("k", n 100)]), ("r", n 1), ("ty", .str "fl")], .obj [("a", .obj [("a", n 0),
  ("ix", n 1), ("k", .arr [n 0, n 0])]), ("nm", .str "Transform"), ("o", .obj [("a", n 0), ("ix", n 7), ("k",
  n 100)]), ("p", .obj [("a", n 0), ("ix", n 2), ("k", .arr [x r 122138 3, x r 11562 2])]), ("r", .obj [("a",
  n 0), ("ix", n 6), ("k", n 0)]), ("s", .obj [("a", n 0), ("ix", n 3), ("k", .arr [n 100, n 100])]), ("sa",
  .obj [("a", n 0), ("ix", n 5), ("k", n 0)]), ("sk", .obj [("a", n 0), ("ix", n 4), ("k", n 0)]), ("ty", .str
  "tr")]]), ("ix", n 4), ("mn", .str "ADBE Vector Group"), ("nm", .str "Group 4"), ("np", n 2), ("ty", .str
  "gr")]]

/-- A value in `examples/assets/google_fonts/Tiger.json`. -/
def tiger206 : Json F :=
  .obj [("bm", n 0), ("cix", n 2), ("hd", .bool false), ("it", .arr [.obj [("hd", .bool false), ("ind", n 0),
  ("ix", n 1), ("ks", .obj [("a", n 0), ("ix", n 2), ("k", .obj [("c", .bool true), ("i", .arr [.arr [n 0, n
  0], .arr [n 0, n 0], .arr [n 0, n 0], .arr [n 0, n 0], .arr [n 0, n 0], .arr [n 0, n 0]]), ("o", .arr [.arr
  [n 0, n 0], .arr [n 0, n 0], .arr [n 0, n 0], .arr [n 0, n 0], .arr [n 0, n 0], .arr [n 0, n 0]]), ("v",
  .arr [.arr [n 14, n 210], .arr [m (-96), n 210], .arr [m (-174), n 240], .arr [m (-182), n 338], .arr [m
  (-86), n 354], .arr [n 32, n 270]])])]), ("mn", .str "ADBE Vector Shape - Group"), ("nm", .str "Path 1"),
  ("ty", .str "sh")], .obj [("bm", n 0), ("c", .obj [("a", n 0), ("ix", n 4), ("k", .arr [n 1, x r
  588235294118 12, x r 74509803922 12, n 1])]), ("hd", .bool false), ("mn", .str
  "ADBE Vector Graphic - Fill"), ("nm", .str "Fill 1"), ("o", .obj [("a", n 0), ("ix", n 5), ("k", n 100)]),
  ("r", n 1), ("ty", .str "fl")], .obj [("a", .obj [("a", n 0), ("ix", n 1), ("k", .arr [n 0, n 0])]), ("nm",
  .str "Transform"), ("o", .obj [("a", n 0), ("ix", n 7), ("k", n 100)]), ("p", .obj [("a", n 0), ("ix", n 2),
  ("k", .arr [n 0, n 0])]), ("r", .obj [("a", n 0), ("ix", n 6), ("k", n 0)]), ("s", .obj [("a", n 0), ("ix",
  n 3), ("k", .arr [n 100, n 100])]), ("sa", .obj [("a", n 0), ("ix", n 5), ("k", n 0)]), ("sk", .obj [("a", n
  0), ("ix", n 4), ("k", n 0)]), ("ty", .str "tr")]]), ("ix", n 1), ("mn", .str "ADBE Vector Group"), ("nm",
  .str "Shape 1"), ("np", n 3), ("ty", .str "gr")]

/-- A value in `examples/assets/google_fonts/Tiger.json`. -/
def tiger207 : Json F :=
  .arr [.obj [("ao", n 0), ("bm", n 0), ("ddd", n 0), ("ind", n 1), ("ip", n 78), ("ks", .obj [("a", .obj
  [("a", n 0), ("ix", n 1), ("k", .arr [x r 3326 1, x r 246861 3, n 0]), ("l", n 2)]), ("o", .obj [("a", n 0),
  ("ix", n 11), ("k", n 100)]), ("p", .obj [("a", n 0), ("ix", n 2), ("k", .arr [x r 500785 3, x r 723054 3, n
  0]), ("l", n 2)]), ("r", .obj [("a", n 0), ("ix", n 10), ("k", n 0)]), ("s", .obj [("a", n 0), ("ix", n 6),
  ("k", .arr [n 100, n 100, n 100]), ("l", n 2)])]), ("nm", .str "body_crouched 2"), ("op", n 254), ("shapes",
  tiger7 r), ("sr", n 1), ("st", n 0), ("td", n 1), ("ty", n 4)], .obj [("ao", n 0), ("bm", n 0), ("ddd", n
  0), ("ind", n 2), ("ip", n 76), ("ks", .obj [("a", .obj [("a", n 0), ("ix", n 1), ("k", .arr [x r 3326 1, x
  r 246861 3, n 0]), ("l", n 2)]), ("o", .obj [("a", n 0), ("ix", n 11), ("k", n 100)]), ("p", .obj [("a", n
  0), ("ix", n 2), ("k", .arr [x r 500785 3, x r 723054 3, n 0]), ("l", n 2)]), ("r", .obj [("a", n 0), ("ix",
  n 10), ("k", n 0)]), ("s", .obj [("a", n 0), ("ix", n 6), ("k", .arr [n 100, n 100, n 100]), ("l", n 2)])]),
  ("nm", .str "body_crouched "), ("op", n 254), ("shapes", tiger27 r), ("sr", n 1), ("st", n 0), ("tt", n 1),
  ("ty", n 4)], .obj [("ao", n 0), ("bm", n 0), ("ddd", n 0), ("ind", n 3), ("ip", n 0), ("ks", .obj [("a",
  .obj [("a", n 0), ("ix", n 1), ("k", .arr [x r 320547 3, x r 305245 3, n 0]), ("l", n 2)]), ("o", .obj
  [("a", n 0), ("ix", n 11), ("k", n 100)]), ("p", .obj [("a", n 1), ("ix", n 2), ("k", tiger28 r), ("l", n
  2)]), ("r", .obj [("a", n 1), ("ix", n 10), ("k", tiger29 r)]), ("s", .obj [("a", n 0), ("ix", n 6), ("k",
  .arr [n 100, n 100, n 100]), ("l", n 2)])]), ("nm", .str "head "), ("op", n 306), ("shapes", tiger66 r),
  ("sr", n 1), ("st", n 0), ("ty", n 4)], .obj [("ao", n 0), ("bm", n 0), ("ddd", n 0), ("ind", n 4), ("ip", n
  0), ("ks", tiger67 r), ("nm", .str "leg_FF"), ("op", n 78), ("shapes", tiger74 r), ("sr", n 1), ("st", n 0),
  ("ty", n 4)], .obj [("ao", n 0), ("bm", n 0), ("ddd", n 0), ("ind", n 5), ("ip", n 0), ("ks", .obj [("a",
  .obj [("a", n 0), ("ix", n 1), ("k", .arr [x r 338022 3, x r 305632 3, n 0]), ("l", n 2)]), ("o", .obj
  [("a", n 0), ("ix", n 11), ("k", n 100)]), ("p", .obj [("a", n 1), ("ix", n 2), ("k", .arr [.obj [("i", .obj
  [("x", x r 833 3), ("y", x r 833 3)]), ("o", .obj [("x", x r 167 3), ("y", x r 167 3)]), ("s", .arr [x r
  495362 3, x r 672106 3, n 0]), ("t", n 38), ("ti", .arr [n 0, n 0, n 0]), ("to", .arr [n 0, n 0, n 0])],
  .obj [("s", .arr [x r 495362 3, x r 672106 3, n 0]), ("t", n 246)]]), ("l", n 2)]), ("r", .obj [("a", n 1),
  ("ix", n 10), ("k", .arr [.obj [("i", .obj [("x", .arr [x r 833 3]), ("y", .arr [n 1])]), ("o", .obj [("x",
  .arr [x r 167 3]), ("y", .arr [n 0])]), ("s", .arr [n 0]), ("t", n 38)], .obj [("s", .arr [n 0]), ("t", n
  246)]])]), ("s", .obj [("a", n 0), ("ix", n 6), ("k", .arr [n 100, n 100, n 100]), ("l", n 2)])]), ("nm",
  .str "body mask"), ("op", n 78), ("shapes", tiger99 r), ("sr", n 1), ("st", n 0), ("td", n 1), ("ty", n 4)],
  .obj [("ao", n 0), ("bm", n 0), ("ddd", n 0), ("ind", n 6), ("ip", n 0), ("ks", .obj [("a", .obj [("a", n
  0), ("ix", n 1), ("k", .arr [x r 338022 3, x r 305632 3, n 0]), ("l", n 2)]), ("o", .obj [("a", n 0), ("ix",
  n 11), ("k", n 100)]), ("p", .obj [("a", n 1), ("ix", n 2), ("k", .arr [.obj [("i", .obj [("x", x r 833 3),
  ("y", x r 833 3)]), ("o", .obj [("x", x r 167 3), ("y", x r 167 3)]), ("s", .arr [x r 495362 3, x r 672106
  3, n 0]), ("t", n 38), ("ti", .arr [n 0, n 0, n 0]), ("to", .arr [n 0, n 0, n 0])], .obj [("s", .arr [x r
  495362 3, x r 672106 3, n 0]), ("t", n 246)]]), ("l", n 2)]), ("r", .obj [("a", n 1), ("ix", n 10), ("k",
  .arr [.obj [("i", .obj [("x", .arr [x r 833 3]), ("y", .arr [n 1])]), ("o", .obj [("x", .arr [x r 167 3]),
  ("y", .arr [n 0])]), ("s", .arr [n 0]), ("t", n 38)], .obj [("s", .arr [n 0]), ("t", n 246)]])]), ("s", .obj
  [("a", n 0), ("ix", n 6), ("k", .arr [n 100, n 100, n 100]), ("l", n 2)])]), ("nm", .str "body "), ("op", n
  78), ("shapes", tiger135 r), ("sr", n 1), ("st", n 0), ("tt", n 1), ("ty", n 4)], tiger140 r, .obj [("ao", n
  0), ("bm", n 0), ("ddd", n 0), ("ind", n 8), ("ip", n 254), ("ks", .obj [("a", .obj [("a", n 0), ("ix", n
  1), ("k", .arr [x r 338022 3, x r 305632 3, n 0]), ("l", n 2)]), ("o", .obj [("a", n 0), ("ix", n 11), ("k",
  n 100)]), ("p", .obj [("a", n 1), ("ix", n 2), ("k", .arr [.obj [("i", .obj [("x", x r 667 3), ("y", x r 667
  3)]), ("o", .obj [("x", x r 333 3), ("y", x r 333 3)]), ("s", .arr [x r 495362 3, x r 672106 3, n 0]), ("t",
  n 272), ("ti", .arr [n 0, n 0, n 0]), ("to", .arr [n 0, n 0, n 0])], .obj [("s", .arr [x r 495362 3, x r
  672106 3, n 0]), ("t", n 288)]]), ("l", n 2)]), ("r", .obj [("a", n 1), ("ix", n 10), ("k", .arr [.obj
  [("i", .obj [("x", .arr [x r 667 3]), ("y", .arr [n 1])]), ("o", .obj [("x", .arr [x r 333 3]), ("y", .arr
  [n 0])]), ("s", .arr [n 0]), ("t", n 272)], .obj [("s", .arr [n 0]), ("t", n 288)]])]), ("s", .obj [("a", n
  0), ("ix", n 6), ("k", .arr [n 100, n 100, n 100]), ("l", n 2)])]), ("nm", .str "body 3"), ("op", n 306),
  ("shapes", tiger157 r), ("sr", n 1), ("st", n 254), ("td", n 1), ("ty", n 4)], .obj [("ao", n 0), ("bm", n
  0), ("ddd", n 0), ("ind", n 9), ("ip", n 254), ("ks", .obj [("a", .obj [("a", n 0), ("ix", n 1), ("k", .arr
  [x r 338022 3, x r 305632 3, n 0]), ("l", n 2)]), ("o", .obj [("a", n 0), ("ix", n 11), ("k", n 100)]),
  ("p", .obj [("a", n 1), ("ix", n 2), ("k", .arr [.obj [("i", .obj [("x", x r 667 3), ("y", x r 667 3)]),
  ("o", .obj [("x", x r 333 3), ("y", x r 333 3)]), ("s", .arr [x r 495362 3, x r 672106 3, n 0]), ("t", n
  272), ("ti", .arr [n 0, n 0, n 0]), ("to", .arr [n 0, n 0, n 0])], .obj [("s", .arr [x r 495362 3, x r
  672106 3, n 0]), ("t", n 288)]]), ("l", n 2)]), ("r", .obj [("a", n 1), ("ix", n 10), ("k", .arr [.obj
  [("i", .obj [("x", .arr [x r 667 3]), ("y", .arr [n 1])]), ("o", .obj [("x", .arr [x r 333 3]), ("y", .arr
  [n 0])]), ("s", .arr [n 0]), ("t", n 272)], .obj [("s", .arr [n 0]), ("t", n 288)]])]), ("s", .obj [("a", n
  0), ("ix", n 6), ("k", .arr [n 100, n 100, n 100]), ("l", n 2)])]), ("nm", .str "body 2"), ("op", n 306),
  ("shapes", tiger186 r), ("sr", n 1), ("st", n 254), ("tt", n 1), ("ty", n 4)], .obj [("ao", n 0), ("bm", n
  0), ("ddd", n 0), ("ind", n 10), ("ip", n 0), ("ks", .obj [("a", .obj [("a", n 0), ("ix", n 1), ("k", .arr
  [x r 166999 3, x r 4885 3, n 0]), ("l", n 2)]), ("o", .obj [("a", n 0), ("ix", n 11), ("k", n 100)]), ("p",
  .obj [("a", n 1), ("ix", n 2), ("k", tiger187 r), ("l", n 2)]), ("r", .obj [("a", n 1), ("ix", n 10), ("k",
  tiger188 r)]), ("s", .obj [("a", n 0), ("ix", n 6), ("k", .arr [n 100, n 100, n 100]), ("l", n 2)])]),
  ("nm", .str "leg_FB "), ("op", n 306), ("shapes", tiger194 r), ("sr", n 1), ("st", n 0), ("ty", n 4)],
  tiger196 r, tiger198 r, .obj [("ao", n 0), ("bm", n 0), ("ddd", n 0), ("ind", n 13), ("ip", n 0), ("ks",
  .obj [("a", .obj [("a", n 0), ("ix", n 1), ("k", .arr [x r 20964 3, x r 68619 3, n 0]), ("l", n 2)]), ("o",
  .obj [("a", n 0), ("ix", n 11), ("k", n 100)]), ("p", .obj [("a", n 1), ("ix", n 2), ("k", tiger199 r),
  ("l", n 2)]), ("r", .obj [("a", n 1), ("ix", n 10), ("k", tiger200 r)]), ("s", .obj [("a", n 0), ("ix", n
  6), ("k", .arr [n 100, n 100, n 100]), ("l", n 2)])]), ("nm", .str "Tail "), ("op", n 306), ("shapes",
  tiger205 r), ("sr", n 1), ("st", n 0), ("tt", n 1), ("ty", n 4)], .obj [("ao", n 0), ("bm", n 0), ("ddd", n
  0), ("ind", n 14), ("ip", n 77), ("ks", .obj [("a", .obj [("a", n 0), ("ix", n 1), ("k", .arr [n 0, n 0, n
  0]), ("l", n 2)]), ("o", .obj [("a", n 0), ("ix", n 11), ("k", n 100)]), ("p", .obj [("a", n 0), ("ix", n
  2), ("k", .arr [n 512, n 512, n 0]), ("l", n 2)]), ("r", .obj [("a", n 0), ("ix", n 10), ("k", n 0)]), ("s",
  .obj [("a", n 0), ("ix", n 6), ("k", .arr [n 100, n 100, n 100]), ("l", n 2)])]), ("nm", .str "body shape"),
  ("op", n 100), ("shapes", .arr [tiger206 r]), ("sr", n 1), ("st", n 0), ("ty", n 4)]]

/-- `examples/assets/google_fonts/Tiger.json`. -/
def tiger : Json F :=
  .obj [("assets", .arr []), ("ddd", n 0), ("fr", n 60), ("h", n 1024), ("ip", n 0), ("layers", tiger207 r),
  ("markers", .arr [.obj [("cm", .str "rest"), ("dr", n 0), ("tm", n 48)]]), ("nm", .str "emoji_tiger"),
  ("op", n 306), ("v", .str "5.8.1"), ("w", n 1024)]

end
end Velato.Assets
