import Verif.Model.Json
import Mathlib.Logic.Relation

/-!
# Vocabulary: small changes of a JSON value
-/

namespace Velato

/-- The keys of the format. -/
def documentedKeys : List String :=
  ["a", "ao", "assets", "bm", "c", "cix", "cl", "cm", "cp", "ct", "d", "ddd", "dr", "e", "eo", "fr", "g", "h",
    "hasMask", "hd", "i", "id", "ind", "inv", "ip", "ir", "is", "it", "ix", "k", "ks", "l", "layers", "lc", "lj", "ln",
    "m", "markers", "masksProperties", "mb", "meta", "metadata", "ml", "ml2", "mm", "mn", "mode", "n", "nm", "np",
    "o", "op", "or", "os", "p", "parent", "pt", "r", "refId", "s", "sa", "sc", "sh", "shapes", "sid", "sk", "so",
    "sr", "st", "sw", "sy", "t", "tc", "td", "tg", "ti", "tm", "to", "tp", "tr", "tt", "ty", "u", "v", "ver", "w",
    "x", "xt", "y", "z"]

/-- Somewhere in the value, at any depth, two neighbouring entries of an object with different keys change places, or
an entry with a key that is not one of the format is added to an object that is not empty (nor a single entry that
is `null` or the empty object: this is how constants may be written). -/
inductive Json.Step {F : Type} : Json F → Json F → Prop where
  | swap {A B : List (String × Json F)} {x y : String × Json F} (h : x.1 ≠ y.1) :
      Step (.obj (A ++ x :: y :: B)) (.obj (A ++ y :: x :: B))
  | extra {A B : List (String × Json F)} {k : String} {v : Json F} (hk : k ∉ documentedKeys) (h : A ++ B ≠ [])
      (h1 : ∀ k', A ++ B ≠ [(k', .null)]) (h2 : ∀ k', A ++ B ≠ [(k', .obj [])]) :
      Step (.obj (A ++ B)) (.obj (A ++ (k, v) :: B))
  | entry {A B : List (String × Json F)} {k : String} {v w : Json F} (h : Step v w) :
      Step (.obj (A ++ (k, v) :: B)) (.obj (A ++ (k, w) :: B))
  | element {A B : List (Json F)} {v w : Json F} (h : Step v w) : Step (.arr (A ++ v :: B)) (.arr (A ++ w :: B))

/-- Such changes made and undone any number of times. -/
def Json.Same {F : Type} : Json F → Json F → Prop := Relation.EqvGen Json.Step

end Velato
