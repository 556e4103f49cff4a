import Verif.Model.Render

/-!
# What an execution of the renderer is, and when its calls are well nested
-/

namespace Velato

section
variable {F : Type} [FloatOps F] [Libm F] [Kurbo F]

/-- The call `render_layer(animation, layer_set, layer, index, transform, alpha, frame)` on an idle
renderer returns normally, having made the calls `ops` on the sink. -/
def LayerCalls (c : Composition F) (layerSet : List (Layer F)) (layer : Layer F) (index : Nat)
    (transform : Affine F) (alpha frame : F) (ops : List (Op F)) : Prop :=
  ∃ fuel r', renderLayer c fuel layerSet layer index transform alpha frame Renderer.new
    = .ok (r', ops)

/-- The call `r.append(animation, frame, transform, alpha, sink)` returns normally with the
renderer in state `r'`, having made the calls `ops` on the sink. -/
def AppendCalls (r : Renderer F) (c : Composition F) (frame : F) (transform : Affine F) (alpha : F)
    (r' : Renderer F) (ops : List (Op F)) : Prop :=
  ∃ fuel, Renderer.append fuel r c frame transform alpha = .ok (r', ops)

/-- The states a renderer can be in between appends that returned normally. -/
inductive Reachable : Renderer F → Prop where
  | new : Reachable Renderer.new
  | append {r r' : Renderer F} {c : Composition F} {fr : F} {T : Affine F} {a : F} {ops}
      (h : Reachable r) (h' : AppendCalls r c fr T a r' ops) : Reachable r'


end

/-- The two layer lists have the same length and agree at every position, except that layers which
are marked as mattes (in both) and to which no layer of either list refers as its matte may differ
in everything but the transform and parent, which place their children. -/
def SameButUnusedMattes {F : Type} (ls ls' : List (Layer F)) : Prop :=
  List.Forall₂ (fun (p p' : Layer F × Nat) => p.1 = p'.1 ∨
      (p.1.isMask = true ∧ p'.1.isMask = true ∧ p.1.transform = p'.1.transform ∧
        p.1.parent = p'.1.parent ∧ ∀ l ∈ ls ++ ls', ∀ mode, l.maskLayer ≠ some (mode, p.2)))
    ls.zipIdx ls'.zipIdx

/-- The compositions differ only in mattes nobody uses. -/
structure SameButUnusedMattesIn {F : Type} (c c' : Composition F) : Prop where
  width : c.width = c'.width
  height : c.height = c'.height
  layers : SameButUnusedMattes c.layers c'.layers
  assets : ∀ name, Option.Rel SameButUnusedMattes (c.asset name) (c'.asset name)

/-- The chain of ancestors of a layer with the given parent, nearest first, when it is finite. -/
inductive Ancestors {F : Type} (ls : List (Layer F)) : Option Nat → List (Layer F) → Prop where
  | root : Ancestors ls none []
  | dangling {i : Nat} (h : ls[i]? = none) : Ancestors ls (some i) []
  | parent {i : Nat} {p : Layer F} {ps : List (Layer F)} (h : ls[i]? = some p)
      (hp : Ancestors ls p.parent ps) : Ancestors ls (some i) (p :: ps)

/-- One iteration of the loop of `compute_transform` (`render.rs:235-248`) on the variables
`parent_index`, `transform` and `count`; `none` when the loop exits. -/
def chaseStep {F : Type} [FloatOps F] [Libm F] [Kurbo F] (ls : List (Layer F)) (frame : F) :
    Option Nat × Affine F × Nat → Option (Option Nat × Affine F × Nat)
  | (none, _, _) => none
  | (some index, transform, count) =>
    if ls.length ≤ count then none
    else match ls[index]? with
      | some parent =>
        some (parent.parent, (parent.transform.evaluate frame).mul transform, count + 1)
      | none => none

/-- `k` iterations lead from the first to the second state, where the loop exits. -/
def LoopExits {S : Type} (step : S → Option S) : Nat → S → S → Prop
  | 0, s, s' => s = s' ∧ step s = none
  | k + 1, s, s' => ∃ s₁, step s = some s₁ ∧ LoopExits step k s₁ s'

/-- The layers of the composition (`none`) or of an asset. -/
def Composition.layersOf {F : Type} (c : Composition F) : Option String → List (Layer F)
  | none => c.layers
  | some name => (c.asset name).getD []

/-- The layer at position `x.2` of the list `x.1` refers to the one at position `y.2` of the list
`y.1`: as its matte (in the same list), or because it is an instance of the asset `y.1` in which
that layer is not a matte. -/
def Refers {F : Type} (c : Composition F) (x y : Option String × Nat) : Prop :=
  ∃ l, (c.layersOf x.1)[x.2]? = some l ∧
    ((∃ mode, l.maskLayer = some (mode, y.2) ∧ y.1 = x.1) ∨
     (∃ name tr l', l.content = .instance name tr ∧ y.1 = some name ∧
       (c.layersOf y.1)[y.2]? = some l' ∧ l'.isMask = false))

/-- No layer refers to itself, directly or through a chain (there is no infinite chain). -/
def NoReferenceCycles {F : Type} (c : Composition F) : Prop :=
  WellFounded fun y x => Refers c x y

/-- What is open on the sink. -/
inductive Open where
  | layer
  | group
  deriving DecidableEq

/-- The open layers and groups after a sequence of calls (innermost first), `none` if a call closes
something that is not the innermost open thing. -/
def nest {F : Type} : List Open → List (Op F) → Option (List Open)
  | st, [] => some st
  | st, .pushLayer .. :: ops => nest (.layer :: st) ops
  | st, .pushClip .. :: ops => nest (.layer :: st) ops
  | st, .draw .. :: ops => nest st ops
  | st, .beginGroup .. :: ops => nest (.group :: st) ops
  | .layer :: st, .pop :: ops => nest st ops
  | .group :: st, .endGroup :: ops => nest st ops
  | _, _ => none

/-- Every push has its pop, every group begin its end, properly nested. -/
def Balanced {F : Type} (ops : List (Op F)) : Prop := nest [] ops = some []

end Velato
