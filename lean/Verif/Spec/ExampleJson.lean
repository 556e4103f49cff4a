import Verif.Model.Json

/-!
# JSON documents used in examples
-/

namespace Velato

section
variable {F : Type}

/-- An integer. -/
def jsonInt (n : Nat) : Json F := .num (.posInt n)

/-- A point. -/
def jsonPair (x y : Nat) : Json F := .arr [jsonInt x, jsonInt y]

/-- The transform of a layer. -/
def jsonKs : Json F :=
  .obj [("p", .obj [("k", jsonPair 0 0)]), ("r", .obj [("k", jsonInt 0)])]

/-- A layer of the given type with further entries. -/
def jsonLayer (ty : Json F) (es : List (String × Json F)) : Json F :=
  .obj ([("ty", ty), ("ip", jsonInt 0), ("op", jsonInt 60), ("ks", jsonKs)] ++ es)

/-- A triangle. -/
def jsonTriangle : Json F :=
  .obj [("c", .bool true), ("v", .arr [jsonPair 0 0, jsonPair 10 0, jsonPair 0 10]),
    ("i", .arr [jsonPair 0 0, jsonPair 0 0, jsonPair 0 0]),
    ("o", .arr [jsonPair 0 0, jsonPair 0 0, jsonPair 0 0])]

/-- A path keyframe with a start shape. -/
def jsonKeyframe (t : Nat) : Json F := .obj [("t", jsonInt t), ("s", .arr [jsonTriangle])]

/-- A path keyframe without. -/
def jsonBare (t : Nat) : Json F := .obj [("t", jsonInt t)]

/-- A path shape with these keyframes. -/
def jsonPath (ks : List (Json F)) : Json F :=
  .obj [("ty", .str "sh"), ("ks", .obj [("a", jsonInt 1), ("k", .arr ks)])]

/-- A group. -/
def jsonGroup (items : List (Json F)) : Json F := .obj [("ty", .str "gr"), ("it", .arr items)]

/-- A document. -/
def jsonDoc (layers assets : List (Json F)) : Json F :=
  .obj [("layers", .arr layers), ("fr", jsonInt 60), ("ip", jsonInt 0), ("op", jsonInt 60),
    ("w", jsonInt 100), ("h", jsonInt 100), ("assets", .arr assets)]

/-- An image asset with further entries. -/
def jsonImage (es : List (String × Json F)) : Json F :=
  .obj ([("id", .str "i"), ("p", .str "i.png")] ++ es)

end
end Velato
