import Verif.Num.Ops

/-!
# `serde_json::Value`

`/repo` uses `serde_json` (without `preserve_order` / `arbitrary_precision`, see
`/repo/Cargo.toml`).  Only the data type is here; decoding and encoding of velato's schema are in
`Model/Decode.lean` and `Model/Encode.lean`.
-/

namespace Velato

/-- `serde_json::Number`: `PosInt(u64)`, `NegInt(i64)` (strictly negative), `Float(f64)` (finite).
Used at `schema/animation/animation.rs:79-85`, by way of `serde_json`. -/
inductive JNum (F : Type) where
  | posInt (n : Nat)
  | negInt (n : Int)
  | float (x : F)
  deriving DecidableEq, Repr, Inhabited

/-- `serde_json::Value`.  An object is the list of its entries (a map with unique keys).  Used at
`schema/animation/animation.rs:79-85`, by way of `serde_json`. -/
inductive Json (F : Type) where
  | null
  | bool (b : Bool)
  | num (n : JNum F)
  | str (s : String)
  | arr (xs : List (Json F))
  | obj (es : List (String × Json F))
  deriving Repr, Inhabited

end Velato
