import Verif.Proofs.Steady
import Verif.Spec.ExampleDoc
import Verif.Num.F64

/-!
# C150 — a property that does not change may have keyframes or be static
-/

namespace Velato
open FloatOps (lit)

/-- **C150.** Take two documents that can be imported and are the same, except that some numbers, points, sizes and positions
are static in one of them and in the other have held keyframes, one or more, all with that value.  Then `append` does the
same for both, at every frame: same calls, same panics, same non-termination. -/
theorem C150_held {F : Type} [FloatOps F] [LawfulCmp F] [Kurbo F] [Libm F] {a a' : Schema.Animation F}
    (h : a.Agrees Schema.steadyHeld a') {c c' : Composition F} (hc : Import.convAnimation a = .ok c)
    (hc' : Import.convAnimation a' = .ok c') {r : Renderer F} (hr : Reachable r) (n : Nat) (fr : F) (T : Affine F) (al : F) :
    Renderer.append n r c fr T al = Renderer.append n r c' fr T al :=
  append_agree_always steadyHeld_sound h hc hc' hr n fr T al

/-- **C150.** In exact arithmetic the keyframes need not be held, whatever their handles, and the colours of fills and strokes,
the paths of shapes and masks, and the stops of gradients (if all that are declared are there) may be written in both ways too.
In double precision a path is undefined at the time of its last keyframe if that is not held (C16): there the weight is 0 / 0. -/
theorem C150_exact [Kurbo ℝ] [Libm ℝ] {a a' : Schema.Animation ℝ}
    (h : a.Agrees Schema.steadyAll a') {c c' : Composition ℝ} (hc : Import.convAnimation a = .ok c)
    (hc' : Import.convAnimation a' = .ok c') {r : Renderer ℝ} (hr : Reachable r) (n : Nat) (fr : ℝ) (T : Affine ℝ) (al : ℝ) :
    Renderer.append n r c fr T al = Renderer.append n r c' fr T al :=
  append_agree_always steadyAll_sound h hc hc' hr n fr T al

/-! ### Examples -/

section
variable {F : Type} [FloatOps F]

/-- Two keyframes with this value. -/
def exUnmovedKeys (h : Option Schema.BoolInt) (xs : List F) : List (Schema.Keyframe F) :=
  [⟨⟨lit 0, h, none, none⟩, xs, none⟩,
   ⟨⟨lit 4, h, some ⟨.singleValue (lit 1), .singleValue (lit 0)⟩, some ⟨.singleValue (lit 0), .singleValue (lit 1)⟩⟩, xs, none⟩]

/-- A layer with such a position, rotation and colour. -/
def exUnmovedLayer (p : Schema.PositionValueK F) (r : Schema.AnimatedPropertyK F F) (c : Schema.AnimatedPropertyK F (List F)) :
    Schema.AnyLayer F :=
  let v : Schema.VisualLayer F := exVisual "z" none
  .shape ⟨{ v with transform := { v.transform with
      position := .position ⟨none, none, none, none, p⟩
      rotation := some (.rotation ⟨none, none, none, none, r⟩) } },
    [.group exElement none [exEllipse, .fill ⟨⟨exElement, exStatic (lit 100)⟩, ⟨none, none, none, none, c⟩, none⟩] none]⟩

/-- A document with such a layer, and with an asset with such a layer. -/
def exUnmovedDoc (p : Schema.PositionValueK F) (r : Schema.AnimatedPropertyK F F) (c : Schema.AnimatedPropertyK F (List F)) :
    Schema.Animation F :=
  { exDoc with
    layers := [exUnmovedLayer p r c, .precomposition ⟨exVisual "instance" (some 5), "b", lit 20, lit 30, lit 4, none⟩]
    assets := some [.precomposition ⟨⟨"b", ⟨none, none⟩⟩, [exUnmovedLayer p r c], none, none⟩] }

end

/-- The position is static in one of them and the rotation in the other. -/
example [Kurbo F64] [Libm F64] :
    let k : List (Schema.PositionKeyframe F64) := (exUnmovedKeys (some .true) [lit 3, lit 4]).map fun k => ⟨k, none, none⟩
    let c : Schema.AnimatedPropertyK F64 (List F64) := .static [lit 1, lit 0, lit 0]
    let a := exUnmovedDoc (.static [lit 3, lit 4]) (.animatedValue (exUnmovedKeys (some .true) [lit 45])) c
    let a' := exUnmovedDoc (.animated k) (.static (lit 45)) c
    a.Agrees Schema.steadyHeld a' ∧ (∃ c, Import.convAnimation a = .ok c) ∧ ∃ c, Import.convAnimation a' = .ok c := by
  intro k c a a'
  have hl : (exUnmovedLayer (.static [lit 3, lit 4]) (.animatedValue (exUnmovedKeys (some .true) [lit 45])) c).Agrees Schema.steadyHeld
      (exUnmovedLayer (.animated k) (.static (lit 45)) c) :=
    .shape ⟨⟨.none, .position (.toKeyframes ⟨by simp [k, exUnmovedKeys], by simp [k, exUnmovedKeys]⟩), .some (.same _),
      .some (.rotation (.toStatic ⟨by simp [exUnmovedKeys], by simp [exUnmovedKeys]⟩)), .none, .none, .some (.same _)⟩, .nil, rfl⟩
      (.cons (.group (.cons (.ellipse (.same _) (.same _)) (.cons (.fill (.same _) rfl) .nil))) .nil)
  exact ⟨⟨.cons hl (.cons (.precomposition ⟨⟨.none, .position (.same _), .some (.same _), .some (.rotation (.same _)), .none,
    .none, .some (.same _)⟩, .nil, rfl⟩ .none rfl) .nil), .cons (.precomposition rfl (.cons hl .nil)) .nil, rfl⟩,
    ⟨_, rfl⟩, ⟨_, rfl⟩⟩

/-- The same, with keyframes that are not held, and also for the colour. -/
example [Kurbo ℝ] [Libm ℝ] :
    let k : List (Schema.PositionKeyframe ℝ) := (exUnmovedKeys none [lit 3, lit 4]).map fun k => ⟨k, none, none⟩
    let a := exUnmovedDoc (.static [lit 3, lit 4]) (.animatedValue (exUnmovedKeys none [lit 45])) (.static [lit 1, lit 0, lit 0])
    let a' := exUnmovedDoc (.animated k) (.static (lit 45)) (.animatedValue (exUnmovedKeys none [lit 1, lit 0, lit 0]))
    a.Agrees Schema.steadyAll a' ∧ (∃ c, Import.convAnimation a = .ok c) ∧ ∃ c, Import.convAnimation a' = .ok c := by
  intro k a a'
  have hl : (exUnmovedLayer (.static [lit 3, lit 4]) (.animatedValue (exUnmovedKeys none [lit 45])) (.static [lit 1, lit 0, lit 0])).Agrees
      Schema.steadyAll (exUnmovedLayer (.animated k) (.static (lit 45)) (.animatedValue (exUnmovedKeys none [lit 1, lit 0, lit 0]))) :=
    .shape ⟨⟨.none, .position (.toKeyframes ⟨by simp [k, exUnmovedKeys], by simp [k, exUnmovedKeys]⟩), .some (.same _),
      .some (.rotation (.toStatic ⟨by simp [exUnmovedKeys], by simp [exUnmovedKeys]⟩)), .none, .none, .some (.same _)⟩, .nil, rfl⟩
      (.cons (.group (.cons (.ellipse (.same _) (.same _)) (.cons (.fill (.same _) (.toKeyframes ⟨by simp [exUnmovedKeys],
        by simp [exUnmovedKeys]⟩)) .nil))) .nil)
  exact ⟨⟨.cons hl (.cons (.precomposition ⟨⟨.none, .position (.same _), .some (.same _), .some (.rotation (.same _)), .none,
    .none, .some (.same _)⟩, .nil, rfl⟩ .none rfl) .nil), .cons (.precomposition rfl (.cons hl .nil)) .nil, rfl⟩,
    ⟨_, rfl⟩, ⟨_, rfl⟩⟩

/-- A path with two keyframes, the first of which also gives its end, and a static path. -/
example [Kurbo ℝ] [Libm ℝ] (b : Schema.Bezier ℝ) :
    let ks : List (Schema.ShapeKeyframe ℝ) := [⟨⟨lit 0, none, none, none⟩, some [b], some [b]⟩, ⟨⟨lit 4, none, none, none⟩, some [b], none⟩]
    let l (v : Schema.ShapePropertyK ℝ) : Schema.AnyLayer ℝ :=
      .shape ⟨exVisual "z" none, [.path ⟨⟨exElement, none⟩, ⟨none, none, none, v⟩⟩, exFillShape]⟩
    let a (v : Schema.ShapePropertyK ℝ) : Schema.Animation ℝ := { exDoc with layers := [l v], assets := none }
    (a (.animated ks)).Agrees Schema.steadyAll (a (.static b)) ∧ (∃ c, Import.convAnimation (a (.animated ks)) = .ok c) ∧
      ∃ c, Import.convAnimation (a (.static b)) = .ok c := by
  intro ks l a
  refine ⟨⟨.cons (.shape ⟨⟨.none, .position (.same _), .some (.same _), .some (.rotation (.same _)), .none, .none, .some (.same _)⟩,
    .nil, rfl⟩ (.cons (.path (.toStatic ⟨by simp [ks], by simp [ks]⟩)) (.cons (.fill (.same _) (.same _)) .nil))) .nil, .nil, rfl⟩,
    ⟨_, rfl⟩, ⟨_, rfl⟩⟩

/-- A gradient of two stops with two keyframes, the first of them held, and a static one. -/
example (x : ℝ) :
    let xs : List ℝ := [0, 1, 0, 0, 1, 0, 0, x]
    let ks : List (Schema.Keyframe ℝ) := [⟨⟨lit 0, some .true, none, none⟩, xs, none⟩, ⟨⟨lit 4, none, none, none⟩, xs, none⟩]
    let g (v : Schema.AnimatedPropertyK ℝ (List ℝ)) : Schema.GradientColors ℝ := ⟨⟨⟨none, none, none, none, v⟩, none⟩, 2⟩
    (g (.animatedValue ks)).Agrees Schema.steadyAll (g (.static xs)) := by
  intro xs ks g
  exact ⟨.toStatic ⟨two_pos, by simp [xs, g], by simp [ks], by simp [ks]⟩, rfl⟩

/-- **C150** is false of gradients with fewer stops than they declare: if the gradient is static, the stops that are there are
shown, and if it has keyframes, all with the same numbers, it has no stops, at no frame. -/
theorem C150_missing_stops {F : Type} [FloatOps F] [Kurbo F] {g g' : Schema.GradientColors F} {xs : List F} {ks : List (Schema.Keyframe F)}
    (h0 : 1 ≤ g.count) (hl : xs.length < 4 * g.count) (hc : g'.count = g.count) (hg : g.colors.animatedProperty.value = .static xs)
    (hg' : g'.colors.animatedProperty.value = .animatedValue ks) (hk : ∀ k ∈ ks, k.value = xs) {s s' : ColorStops F}
    (hs : Import.convGradientColors g = .ok s) (hs' : Import.convGradientColors g' = .ok s') (fr : F) :
    (s.evaluate fr).length = xs.length / 4 ∧ s'.evaluate fr = [] := by
  unfold Import.convGradientColors at hs hs'
  rw [hg] at hs
  rw [hg', hc] at hs'
  obtain ⟨ts, -, hs'⟩ := bind_ok hs'
  cases hs
  cases hs'
  have len := Import.convStops_length xs g.count h0
  constructor
  · simp only [ColorStops.evaluate, List.length_map, len]
    omega
  · show Option.getD (AnimColorStops.evaluateInner _ _) [] = []
    rw [gradient_missing h0 hl hk]
    rfl

/-- There is such a gradient. -/
example [Kurbo F64] :
    let xs : List F64 := [lit 0, lit 1, lit 0, lit 0]
    let g : Schema.GradientColors F64 := ⟨⟨⟨none, none, none, none, .static xs⟩, none⟩, 2⟩
    let g' : Schema.GradientColors F64 := ⟨⟨⟨none, none, none, none, .animatedValue [⟨⟨lit 0, none, none, none⟩, xs, none⟩]⟩, none⟩, 2⟩
    1 ≤ g.count ∧ xs.length < 4 * g.count ∧ (∃ s, Import.convGradientColors g = .ok s) ∧ ∃ s', Import.convGradientColors g' = .ok s' :=
  ⟨by decide, by decide, ⟨_, rfl⟩, ⟨_, rfl⟩⟩

end Velato
