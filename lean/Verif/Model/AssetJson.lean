import Verif.Model.Json

/-!
# Abbreviations for the documents in `/repo/examples/assets`
-/

namespace Velato.Assets

section
variable {F : Type}

/-- A non-negative integer.  Used for `examples/assets/**/*.json`. -/
abbrev n (k : Nat) : Json F := .num (.posInt k)

/-- A negative integer.  Used for `examples/assets/**/*.json`. -/
abbrev m (k : Int) : Json F := .num (.negInt k)

/-- A number with a fraction: `k / 10 ^ d`, read as `r k d`.  Used for `examples/assets/**/*.json`. -/
abbrev x (r : Int → Nat → F) (k : Int) (d : Nat) : Json F := .num (.float (r k d))

end
end Velato.Assets
