import Verif.Proofs.Overlooked
import Verif.Spec.ExampleDoc

/-!
# C152 — further coordinates do not matter
-/

namespace Velato
open FloatOps (lit)

/-- **C152.** Take two documents that are the same, apart from the third and later coordinates of points, sizes and positions, the
fourth and later numbers of colours, the second and later numbers of the keyframes of numbers, the second and later shapes of the
keyframes of paths, the tangents of position keyframes, the deprecated end values of keyframes.  If one of them can be imported, so
can the other. -/
theorem C152_imported {F : Type} [FloatOps F] [Kurbo F] [Libm F] {a a' : Schema.Animation F} (h : a.Agrees Schema.overlooked a') :
    (∃ c, Import.convAnimation a = .ok c) ↔ ∃ c', Import.convAnimation a' = .ok c' :=
  ⟨fun ⟨_, hc⟩ => import_agrees overlooked_keeps h hc, fun ⟨_, hc⟩ => import_agrees overlooked_keeps (h.symm overlooked_symm) hc⟩

/-- **C152.** If they can be imported, `append` does the same for both, at every frame: same calls, same panics, same
non-termination. -/
theorem C152_drawn {F : Type} [FloatOps F] [LawfulCmp F] [Kurbo F] [Libm F] {a a' : Schema.Animation F}
    (h : a.Agrees Schema.overlooked a') {c c' : Composition F} (hc : Import.convAnimation a = .ok c)
    (hc' : Import.convAnimation a' = .ok c') {r : Renderer F} (hr : Reachable r) (n : Nat) (fr : F) (T : Affine F) (al : F) :
    Renderer.append n r c fr T al = Renderer.append n r c' fr T al :=
  append_agree_always overlooked_sound h hc hc' hr n fr T al

/-! ### An example -/

/-- A layer whose position moves from (1, 2) to (3, 4), with these further coordinates, tangents and end value, and whose rotation is
at 90 degrees, with these further numbers. -/
def exOverlookedLayer (zs : List F64) (ti ot : Option (List F64)) (e : Option (List F64)) : Schema.AnyLayer F64 :=
  let v : Schema.VisualLayer F64 := exVisual "z" none
  exShapeDoc { v with transform := { v.transform with
    position := .position ⟨none, some .true, none, none, .animated
      [⟨⟨⟨lit 0, none, none, none⟩, lit 1 :: lit 2 :: zs, e⟩, ti, ot⟩, ⟨⟨⟨lit 4, none, none, none⟩, lit 3 :: lit 4 :: zs, none⟩, none, none⟩]⟩
    rotation := some (.rotation ⟨none, some .true, none, none, .animatedValue [⟨⟨lit 0, none, none, none⟩, lit 90 :: zs, e⟩]⟩) } }

/-- A document with such a layer, and with an asset with such a layer. -/
def exOverlookedDoc (zs : List F64) (ti ot : Option (List F64)) (e : Option (List F64)) : Schema.Animation F64 :=
  { exDoc with
    layers := [exOverlookedLayer zs ti ot e, .precomposition ⟨exVisual "instance" (some 5), "b", lit 20, lit 30, lit 4, none⟩]
    assets := some [.precomposition ⟨⟨"b", ⟨none, none⟩⟩, [exOverlookedLayer zs ti ot e], none, none⟩] }

theorem exOverlookedLayer_agrees (zs ti ot e zs' ti' ot' e') :
    (exOverlookedLayer zs ti ot e).Agrees Schema.overlooked (exOverlookedLayer zs' ti' ot' e') :=
  .shape ⟨⟨.none, .position (.animated (.cons ⟨rfl, rfl⟩ (.cons ⟨rfl, rfl⟩ .nil))), .some (.static rfl),
    .some (.rotation (.animated rfl rfl (.cons ⟨rfl, rfl⟩ .nil))), .none, .none, .some (.static rfl rfl)⟩, .nil, rfl⟩
    (.cons (.group (.cons (.ellipse (.static rfl) (.static rfl)) (.cons (.fill (.static rfl rfl) (.static rfl)) .nil))) .nil)

/-- They agree, whatever the further coordinates, tangents and end values are. -/
theorem exOverlookedDoc_agrees (zs ti ot e zs' ti' ot' e') :
    (exOverlookedDoc zs ti ot e).Agrees Schema.overlooked (exOverlookedDoc zs' ti' ot' e') :=
  ⟨.cons (exOverlookedLayer_agrees ..) (.cons (.precomposition
    ⟨⟨.none, .position (.static rfl), .some (.static rfl), .some (.rotation (.static rfl rfl)), .none, .none,
      .some (.static rfl rfl)⟩, .nil, rfl⟩ .none rfl) .nil),
    .cons (.precomposition rfl (.cons (exOverlookedLayer_agrees ..) .nil)) .nil, rfl⟩

/-- They can be imported. -/
example [Kurbo F64] [Libm F64] (zs ti ot e) : ∃ c, Import.convAnimation (exOverlookedDoc zs ti ot e) = .ok c := ⟨_, rfl⟩

end Velato
