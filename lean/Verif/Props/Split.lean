import Verif.Proofs.Split
import Verif.Spec.ExampleDoc

/-!
# C154 — a position may be split into its coordinates
-/

namespace Velato
open FloatOps (lit)

/-- **C154.** Take two documents that are the same, except that some positions, in one or the other, are given as two numbers, x and
y: both static, or with keyframes at the same times, with the same handles and hold flags.  If both can be imported, `append` does the
same for both, at every frame: same calls, same panics, same non-termination. -/
theorem C154_drawn {F : Type} [FloatOps F] [LawfulCmp F] [Kurbo F] [Libm F] {a a' : Schema.Animation F}
    (h : a.Agrees Schema.splitPositions a') {c c' : Composition F} (hc : Import.convAnimation a = .ok c)
    (hc' : Import.convAnimation a' = .ok c') {r : Renderer F} (hr : Reachable r) (n : Nat) (fr : F) (T : Affine F) (al : F) :
    Renderer.append n r c fr T al = Renderer.append n r c' fr T al :=
  append_agree_always splitPositions_sound h hc hc' hr n fr T al

/-- **C154.** In particular the position itself is the same at every frame: that of a layer with the position, and that of a layer with
the two numbers. -/
theorem C154_position {F : Type} [FloatOps F] [Kurbo F] {p : Schema.Position F} {s : Schema.SplitVector F}
    (h : p.value.Splits s.x.value s.y.value) {q q' : Position F} (hq : Import.layerPosition (.position p) = .ok q)
    (hq' : Import.layerPosition (.splitPosition s) = .ok q') (fr : F) : q'.evaluate fr = q.evaluate fr := by
  cases hq
  obtain ⟨vx, hx, hq'⟩ := bind_ok hq'
  obtain ⟨vy, hy, hq'⟩ := bind_ok hq'
  cases hq'
  exact splits_evaluate h hx hy fr

/-! ### An example -/

/-- Easing handles. -/
def exSplitBase (t : F64) (hold : Option Schema.BoolInt) : Schema.KeyframeBase F64 :=
  ⟨t, hold, some ⟨.singleValue (lit (1 / 2)), .arrayOfValues [lit 1]⟩, some ⟨.singleValue (lit (1 / 4)), .singleValue (lit 0)⟩⟩

/-- A layer with a position given in this way. -/
def exSplitLayer (p : Schema.AnyTransformP F64) : Schema.AnyLayer F64 :=
  let v : Schema.VisualLayer F64 := exVisual "z" none
  exShapeDoc { v with transform := { v.transform with position := p } }

/-- The position moves from (1, 2) with the handles to (3, 4), where it is held until it jumps to (5, 6). -/
def exJoinedPosition : Schema.AnyTransformP F64 :=
  .position ⟨none, some .true, none, none, .animated
    [⟨⟨exSplitBase (lit 0) none, [lit 1, lit 2], none⟩, none, none⟩, ⟨⟨exSplitBase (lit 4) (some .true), [lit 3, lit 4, lit 0], none⟩, none, none⟩,
      ⟨⟨⟨lit 8, none, none, none⟩, [lit 5, lit 6], none⟩, none, none⟩]⟩

/-- The same, as two numbers. -/
def exSplitPosition : Schema.AnyTransformP F64 :=
  .splitPosition ⟨true,
    ⟨none, some .true, none, none, .animatedValue [⟨exSplitBase (lit 0) none, [lit 1], none⟩, ⟨exSplitBase (lit 4) (some .true), [lit 3], none⟩,
      ⟨⟨lit 8, none, none, none⟩, [lit 5], none⟩]⟩,
    ⟨none, some .true, none, none, .animatedValue [⟨exSplitBase (lit 0) none, [lit 2], none⟩, ⟨exSplitBase (lit 4) (some .true), [lit 4], none⟩,
      ⟨⟨lit 8, none, none, none⟩, [lit 6], none⟩]⟩, none⟩

/-- A document with such a layer, and with an asset with such a layer. -/
def exSplitDoc (p q : Schema.AnyTransformP F64) : Schema.Animation F64 :=
  { exDoc with
    layers := [exSplitLayer p, .precomposition ⟨exVisual "instance" (some 5), "b", lit 20, lit 30, lit 4, none⟩]
    assets := some [.precomposition ⟨⟨"b", ⟨none, none⟩⟩, [exSplitLayer q], none, none⟩] }

theorem exSplits : (exJoinedPosition).Agrees Schema.splitPositions exSplitPosition := by
  have g : ∀ {i b x xs zs e e' t u}, xs[i]? = some x →
      Schema.PositionKeyframe.Gives i (⟨⟨b, xs, e⟩, t, u⟩ : Schema.PositionKeyframe F64) ⟨b, x :: zs, e'⟩ :=
    fun h => ⟨rfl, _, h, rfl⟩
  refine .split (.animated (.cons (g rfl) (.cons (g rfl) (.cons (g rfl) .nil))) (.cons (g rfl) (.cons (g rfl) (.cons (g rfl) .nil))) ?_)
  intro k hk
  simp only [List.mem_cons, List.not_mem_nil, or_false] at hk
  rcases hk with rfl | rfl | rfl <;> simp [exSplitBase]

theorem exSplitLayer_agrees {p q : Schema.AnyTransformP F64} (h : p.Agrees Schema.splitPositions q) :
    (exSplitLayer p).Agrees Schema.splitPositions (exSplitLayer q) :=
  .shape ⟨⟨.none, h, .some rfl, .some (.rotation rfl), .none, .none, .some rfl⟩, .nil, rfl⟩
    (.cons (.group (.cons (.ellipse rfl rfl) (.cons (.fill rfl rfl) .nil))) .nil)

/-- In the layer the position is split, in that of the asset the coordinates are put together. -/
theorem exSplitDoc_agrees :
    (exSplitDoc exJoinedPosition exSplitPosition).Agrees Schema.splitPositions (exSplitDoc exSplitPosition exJoinedPosition) := by
  have joined : (exSplitPosition).Agrees Schema.splitPositions exJoinedPosition := by
    cases exSplits with
    | split h => exact .joined h
  exact ⟨.cons (exSplitLayer_agrees exSplits) (.cons (.precomposition
    ⟨⟨.none, .position rfl, .some rfl, .some (.rotation rfl), .none, .none, .some rfl⟩, .nil, rfl⟩ .none rfl) .nil),
    .cons (.precomposition rfl (.cons (exSplitLayer_agrees joined) .nil)) .nil, rfl⟩

/-- Both can be imported. -/
example [Kurbo F64] [Libm F64] : (∃ c, Import.convAnimation (exSplitDoc exJoinedPosition exSplitPosition) = .ok c) ∧
    ∃ c, Import.convAnimation (exSplitDoc exSplitPosition exJoinedPosition) = .ok c := ⟨⟨_, rfl⟩, ⟨_, rfl⟩⟩

end Velato
