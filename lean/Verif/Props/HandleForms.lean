import Verif.Proofs.AgreeSymm
import Verif.Spec.ExampleDoc

/-!
# C149 — the handles of keyframes can be written in several ways
-/

namespace Velato
open FloatOps (lit)

/-- **C149.** Take two documents that are the same, apart from how the handles of their keyframes are written: coordinates
by themselves or in lists of one, both handles left out or at `(0, 0)` and `(1, 1)`; and `h` left out or 0.  If one of them
can be imported, so can the other. -/
theorem C149_imported {F : Type} [FloatOps F] [Kurbo F] [Libm F] {a a' : Schema.Animation F}
    (h : a.Agrees Schema.sameKeyframes a') :
    (∃ c, Import.convAnimation a = .ok c) ↔ ∃ c', Import.convAnimation a' = .ok c' :=
  ⟨fun ⟨_, hc⟩ => import_agrees sameKeyframes_keeps h hc,
    fun ⟨_, hc⟩ => import_agrees sameKeyframes_keeps (h.symm Schema.sameKeyframes_symm) hc⟩

/-- **C149.** If they can be imported, `append` does the same for both, at every frame: same calls, same panics, same
non-termination. -/
theorem C149_drawn {F : Type} [FloatOps F] [LawfulCmp F] [Kurbo F] [Libm F] {a a' : Schema.Animation F}
    (h : a.Agrees Schema.sameKeyframes a') {c c' : Composition F} (hc : Import.convAnimation a = .ok c)
    (hc' : Import.convAnimation a' = .ok c') {r : Renderer F} (hr : Reachable r) (n : Nat) (fr : F) (T : Affine F) (al : F) :
    Renderer.append n r c fr T al = Renderer.append n r c' fr T al :=
  append_agree_always sameKeyframes_sound h hc hc' hr n fr T al

/-! ### An example -/

/-- Keyframes of a number with these handles. -/
def exHandleKeys (i o : Option (Schema.KeyframeBezierHandle F64)) (h : Option Schema.BoolInt) : List (Schema.Keyframe F64) :=
  [⟨⟨lit 0, h, i, o⟩, [lit 0], none⟩, ⟨⟨lit 4, none, none, none⟩, [lit 90], none⟩]

/-- A layer with such a rotation. -/
def exHandleLayer (ks : List (Schema.Keyframe F64)) : Schema.AnyLayer F64 :=
  let v : Schema.VisualLayer F64 := exVisual "z" none
  exShapeDoc { v with transform := { v.transform with
    rotation := some (.rotation ⟨none, some .true, none, none, .animatedValue ks⟩) } }

/-- A document with such a layer, and with an asset with such a layer. -/
def exHandleDoc (ks ls : List (Schema.Keyframe F64)) : Schema.Animation F64 :=
  { exDoc with
    layers := [exHandleLayer ks, .precomposition ⟨exVisual "instance" (some 5), "b", lit 20, lit 30, lit 4, none⟩]
    assets := some [.precomposition ⟨⟨"b", ⟨none, none⟩⟩, [exHandleLayer ls], none, none⟩] }

theorem exHandleLayer_agrees {ks ks' : List (Schema.Keyframe F64)} (h : List.Forall₂ Schema.Keyframe.Same ks ks') :
    (exHandleLayer ks).Agrees Schema.sameKeyframes (exHandleLayer ks') :=
  .shape ⟨⟨.none, .position (.static rfl rfl), .some (.static rfl rfl), .some (.rotation (.animated rfl rfl h)), .none,
    .none, .some (.static rfl rfl)⟩, .nil, rfl⟩
    (.cons (.group (.cons (.ellipse (.static rfl rfl) (.static rfl rfl))
      (.cons (.fill (.static rfl rfl) (.static rfl rfl)) .nil))) .nil)

/-- In the layer, the handles that were left out are written, as is `h`; in the asset, the numbers are put in lists. -/
theorem exHandleDoc_agrees :
    (exHandleDoc (exHandleKeys none none none)
      (exHandleKeys (some ⟨.singleValue (lit (1 / 2)), .singleValue (lit 1)⟩) (some ⟨.singleValue (lit (1 / 4)), .singleValue (lit 0)⟩)
        none)).Agrees Schema.sameKeyframes
    (exHandleDoc (exHandleKeys (some ⟨.singleValue (lit 1), .arrayOfValues [lit 1]⟩) (some ⟨.singleValue (lit 0), .singleValue (lit 0)⟩)
        (some .false))
      (exHandleKeys (some ⟨.arrayOfValues [lit (1 / 2)], .arrayOfValues [lit 1]⟩)
        (some ⟨.arrayOfValues [lit (1 / 4)], .arrayOfValues [lit 0]⟩) none)) := by
  have last : Schema.Keyframe.Same (⟨⟨lit 4, none, none, none⟩, [lit 90], none⟩ : Schema.Keyframe F64)
      ⟨⟨lit 4, none, none, none⟩, [lit 90], none⟩ := ⟨⟨rfl, Iff.rfl, .equal rfl rfl⟩, rfl⟩
  refine ⟨.cons (exHandleLayer_agrees (.cons ⟨⟨rfl, by simp, ?_⟩, rfl⟩ (.cons last .nil))) (.cons (.precomposition
    ⟨⟨.none, .position (.static rfl rfl), .some (.static rfl rfl), .some (.rotation (.static rfl rfl)), .none, .none,
      .some (.static rfl rfl)⟩, .nil, rfl⟩ .none rfl) .nil),
    .cons (.precomposition rfl (.cons (exHandleLayer_agrees (.cons ⟨⟨rfl, Iff.rfl, ?_⟩, rfl⟩ (.cons last .nil))) .nil)) .nil, rfl⟩
  · exact .added rfl rfl rfl rfl ⟨.inl rfl, .inr rfl⟩ ⟨.inl rfl, .inl rfl⟩
  · exact .written (.some ⟨_, _, ⟨.inl rfl, .inl rfl⟩, ⟨.inr rfl, .inr rfl⟩⟩) (.some ⟨_, _, ⟨.inl rfl, .inl rfl⟩, ⟨.inr rfl, .inr rfl⟩⟩)

/-- Both can be imported. -/
example [Kurbo F64] [Libm F64] : (∃ c, Import.convAnimation (exHandleDoc (exHandleKeys none none none)
      (exHandleKeys (some ⟨.singleValue (lit (1 / 2)), .singleValue (lit 1)⟩) (some ⟨.singleValue (lit (1 / 4)), .singleValue (lit 0)⟩)
        none)) = .ok c) ∧
    ∃ c, Import.convAnimation (exHandleDoc (exHandleKeys (some ⟨.singleValue (lit 1), .arrayOfValues [lit 1]⟩)
        (some ⟨.singleValue (lit 0), .singleValue (lit 0)⟩) (some .false))
      (exHandleKeys (some ⟨.arrayOfValues [lit (1 / 2)], .arrayOfValues [lit 1]⟩)
        (some ⟨.arrayOfValues [lit (1 / 4)], .arrayOfValues [lit 0]⟩) none)) = .ok c :=
  ⟨⟨_, rfl⟩, ⟨_, rfl⟩⟩

end Velato
