import Verif.Proofs.UnusedHandles
import Verif.Props.HandleForms

/-!
# C151 — the handles of held keyframes do not matter
-/

namespace Velato
open FloatOps (lit)

/-- **C151.** Take two documents that are the same, apart from the handles of held keyframes of numbers, points, sizes,
positions and colours, and apart from the handles of keyframes of paths: they may be left out, or anywhere.  If one of the
documents can be imported, so can the other. -/
theorem C151_imported {F : Type} [FloatOps F] [Kurbo F] [Libm F] {a a' : Schema.Animation F}
    (h : a.Agrees Schema.unusedHandles a') :
    (∃ c, Import.convAnimation a = .ok c) ↔ ∃ c', Import.convAnimation a' = .ok c' :=
  ⟨fun ⟨_, hc⟩ => import_agrees unusedHandles_keeps h hc,
    fun ⟨_, hc⟩ => import_agrees unusedHandles_keeps (h.symm unusedHandles_symm) hc⟩

/-- **C151.** If they can be imported, `append` does the same for both, at every frame: same calls, same panics, same
non-termination. -/
theorem C151_drawn {F : Type} [FloatOps F] [LawfulCmp F] [Kurbo F] [Libm F] {a a' : Schema.Animation F}
    (h : a.Agrees Schema.unusedHandles a') {c c' : Composition F} (hc : Import.convAnimation a = .ok c)
    (hc' : Import.convAnimation a' = .ok c') {r : Renderer F} (hr : Reachable r) (n : Nat) (fr : F) (T : Affine F) (al : F) :
    Renderer.append n r c fr T al = Renderer.append n r c' fr T al :=
  append_agree_always unusedHandles_sound h hc hc' hr n fr T al

/-! ### An example -/

/-- A path that moves, with these handles. -/
def exHandlePath (i o : Option (Schema.KeyframeBezierHandle F64)) : Schema.ShapeProperty F64 :=
  ⟨none, some .true, none, .animated
    [⟨⟨lit 0, none, i, o⟩, some [⟨some true, [(lit 0, lit 0), (lit 8, lit 0), (lit 0, lit 8)], [(lit 0, lit 0), (lit 0, lit 0), (lit 0, lit 0)],
        [(lit 0, lit 0), (lit 0, lit 0), (lit 0, lit 0)]⟩], none⟩,
     ⟨⟨lit 4, none, none, none⟩, some [⟨some true, [(lit 0, lit 0), (lit 4, lit 0), (lit 0, lit 4)], [(lit 0, lit 0), (lit 0, lit 0), (lit 0, lit 0)],
        [(lit 0, lit 0), (lit 0, lit 0), (lit 0, lit 0)]⟩], none⟩]⟩

/-- A document with a layer that has such a path, and a rotation the first keyframe of which is held. -/
def exHandlePathDoc (i o : Option (Schema.KeyframeBezierHandle F64)) : Schema.Animation F64 :=
  let v : Schema.VisualLayer F64 := exVisual "z" none
  { exDoc with
    layers := [.shape ⟨{ v with transform := { v.transform with
        rotation := some (.rotation ⟨none, some .true, none, none, .animatedValue (exHandleKeys i o (some .true))⟩) } },
      [.path ⟨⟨exElement, none⟩, exHandlePath i o⟩, exFillShape]⟩]
    assets := none }

/-- All handles are left out. -/
theorem exHandlePathDoc_agrees :
    (exHandlePathDoc (some ⟨.singleValue (lit (1 / 2)), .singleValue (lit 1)⟩)
      (some ⟨.arrayOfValues [lit (1 / 4)], .singleValue (lit 0)⟩)).Agrees Schema.unusedHandles (exHandlePathDoc none none) := by
  have free : ∀ (t x y u v : F64) (h : Option Schema.BoolInt), (⟨t, h, some ⟨.singleValue x, .singleValue y⟩,
      some ⟨.arrayOfValues [u], .singleValue v⟩⟩ : Schema.KeyframeBase F64).AnyHandles ⟨t, h, none, none⟩ := fun t x y u v h =>
    ⟨rfl, rfl, fun _ e => Option.some.inj e ▸ ⟨x, y, .inl rfl, .inl rfl⟩, fun _ e => Option.some.inj e ▸ ⟨u, v, .inr rfl, .inl rfl⟩,
      fun _ e => (Option.some_ne_none _ e.symm).elim, fun _ e => (Option.some_ne_none _ e.symm).elim⟩
  refine ⟨.cons (.shape ⟨⟨.none, .position (.static rfl rfl), .some (.static rfl rfl), .some (.rotation (.animated rfl rfl ?_)), .none,
    .none, .some (.static rfl rfl)⟩, .nil, rfl⟩ (.cons (.path (.animated rfl rfl ?_))
      (.cons (.fill (.static rfl rfl) (.static rfl rfl)) .nil))) .nil, .nil, rfl⟩
  · exact .cons ⟨.inr ⟨rfl, free _ _ _ _ _ _⟩, rfl⟩ (.cons ⟨.inl rfl, rfl⟩ .nil)
  · exact .cons ⟨.inr (free _ _ _ _ _ _), rfl⟩ (.cons ⟨.inl rfl, rfl⟩ .nil)

/-- Both can be imported. -/
example [Kurbo F64] [Libm F64] : ∃ c, Import.convAnimation (exHandlePathDoc (some ⟨.singleValue (lit (1 / 2)), .singleValue (lit 1)⟩)
    (some ⟨.arrayOfValues [lit (1 / 4)], .singleValue (lit 0)⟩)) = .ok c :=
  (C151_imported exHandlePathDoc_agrees).mpr ⟨_, rfl⟩

end Velato
