import Verif.Proofs.AgreeSymm
import Verif.Props.ValuesOnly

/-!
# C141 — keyframes added on straight pieces change nothing
-/

namespace Velato
open FloatOps (lit)
open Import

section
variable [Kurbo ℝ]

/-- **C141.** Numbers: a property gets one more keyframe, without handles, between two keyframes the first of which has no
handles and is not held; its value is where the straight line between the two is at that time.  Then the property can be
imported as before, and has the same value at every frame. -/
theorem C141_scalars (hk : ExactSolver) {p p' : Schema.FloatValue ℝ} {ks ks' : List (Schema.Keyframe ℝ)}
    (hp : p.value = .animatedValue ks) (hp' : p'.value = .animatedValue ks') (ho : InOrder (·.base) ks)
    (h : KeyframeAdded 1 ks ks') (fr x : ℝ) : ScalarAt p fr x ↔ ScalarAt p' fr x := by
  obtain ⟨h1, h2, h3⟩ := scalar_added hk hp hp' ho h
  constructor
  · rintro ⟨v, hv, rfl⟩
    obtain ⟨v', hv'⟩ := h1 v hv
    exact ⟨v', hv', (h3 v v' hv hv' fr _).symm⟩
  · rintro ⟨v', hv', rfl⟩
    obtain ⟨v, hv⟩ := h2 v' hv'
    exact ⟨v, hv, h3 v v' hv hv' fr _⟩

/-- **C141.** Points, sizes and scales: the same, for both coordinates. -/
theorem C141_vectors (hk : ExactSolver) {p p' : Schema.MultiDimensional ℝ} {ks ks' : List (Schema.Keyframe ℝ)}
    (hp : p.animatedProperty.value = .animatedValue ks) (hp' : p'.animatedProperty.value = .animatedValue ks')
    (ho : InOrder (·.base) ks) (h : KeyframeAdded 2 ks ks') (fr : ℝ) (d : P2 ℝ) :
    (convMultiP2 p').evaluateOr fr d = (convMultiP2 p).evaluateOr fr d := by
  unfold convMultiP2 convMulti
  rw [hp, hp']
  exact vector_added hk ho h fr d

/-- **C141.** Positions: the same (positions move on straight lines, see C68). -/
theorem C141_positions (hk : ExactSolver) {p p' : Schema.Position ℝ} {ks ks' : List (Schema.PositionKeyframe ℝ)}
    (hp : p.value = .animated ks) (hp' : p'.value = .animated ks') (ho : InOrder (·.keyframe.base) ks)
    (h : KeyframeAdded 2 (ks.map (·.keyframe)) (ks'.map (·.keyframe))) (fr : ℝ) (d : P2 ℝ) :
    (convPosPoint p').evaluateOr fr d = (convPosPoint p).evaluateOr fr d := by
  unfold convPosPoint
  rw [hp, hp']
  exact vector_added hk (by unfold InOrder at *; rwa [List.pairwise_map]) h fr d

/-- **C141.** Colours: the same, for red, green and blue. -/
theorem C141_colors (hk : ExactSolver) {p p' : Schema.ColorValue ℝ} {ks ks' : List (Schema.Keyframe ℝ)}
    (hp : p.value = .animatedValue ks) (hp' : p'.value = .animatedValue ks') (ho : InOrder (·.base) ks)
    (h : KeyframeAdded 3 ks ks') (fr : ℝ) (d : Color ℝ) : (convColor p').evaluateOr fr d = (convColor p).evaluateOr fr d := by
  unfold convColor convMulti
  rw [hp, hp']
  exact keyframes_added (colors_onStraight hk) ho h fr d

/-- **C141.** Gradients without opacity data: the same, for the four numbers of each stop, any number of times. -/
theorem C141_gradients (hk : ExactSolver) {g g' : Schema.GradientColors ℝ} {ks ks' : List (Schema.Keyframe ℝ)}
    (hg : g.colors.animatedProperty.value = .animatedValue ks) (hg' : g'.colors.animatedProperty.value = .animatedValue ks')
    (hc : g'.count = g.count) (h0 : 0 < g.count) (ho : InOrder (·.base) ks) (h : KeyframesAdded (4 * g.count) ks ks')
    (hl : ∀ k ∈ ks', k.value.length < 4 * g.count + 4) {s s' : ColorStops ℝ} (hs : convGradientColors g = .ok s)
    (hs' : convGradientColors g' = .ok s') (fr : ℝ) : s'.evaluate fr = s.evaluate fr :=
  gradients_added hk fr (g := g) (g' := g') ⟨.animated hg hg' (.inr ⟨h0, ho, h, hl⟩), hc⟩ s s' hs hs'

/-- **C141.** Paths each of whose keyframes has a shape: the same, for the vertices and the tangents, any number of times.  The
path gives an outline as before, and it is the same at every frame. -/
theorem C141_paths [Libm ℝ] {p p' : Schema.ShapeProperty ℝ} {ks ks' : List (Schema.ShapeKeyframe ℝ)} (hp : p.value = .animated ks)
    (hp' : p'.value = .animated ks') (ho : InOrder (·.base) ks) (own : ∀ k ∈ ks, ∃ b bs, k.start = some (b :: bs))
    (h : PathKeyframesAdded ks ks') {g g' : Option (Geometry ℝ)} (hg : convShapeGeometry p = .ok g)
    (hg' : convShapeGeometry p' = .ok g') : ∃ q q', g = some q ∧ g' = some q' ∧ ∀ fr, q'.evaluate fr = q.evaluate fr := by
  have both := fun fr => paths_added fr (p := p) (p' := p') (.animated hp hp' ⟨ho, own, h⟩) _ _ hg hg'
  cases g with
  | none =>
    unfold convShapeGeometry at hg
    rw [hp] at hg
    obtain ⟨x, hx, e⟩ := bind_ok hg
    rw [splineLoop_pairs own hx] at e
    cases e
  | some q =>
    cases g' with
    | none => cases both 0
    | some q' =>
      refine ⟨q, q', rfl, rfl, fun fr => ?_⟩
      cases both fr with
      | some h => exact h

/-- **C141.** Documents: adding keyframes like that, any number of them, in any numbers, points, sizes, colours,
gradients, positions and paths of the layers, of their masks and shapes, and of those of the assets, keeps a document one that can
be imported; and so does removing them. -/
theorem C141_imported [Libm ℝ] {a a' : Schema.Animation ℝ} (h : a.Agrees straightAdded a') :
    (∃ c, convAnimation a = .ok c) ↔ ∃ c', convAnimation a' = .ok c' :=
  ⟨fun hc => hc.elim fun _ hc => import_agrees straightAdded_keeps h hc,
   fun hc => hc.elim fun _ hc => import_agrees straightRemoved_keeps (h.symm straightAdded.flips) hc⟩

/-- **C141.** Documents: take two documents that can be imported and are the same, apart from keyframes like that, any number
of them, in any numbers, points, sizes, colours, gradients, positions and paths of the layers, of their masks and shapes, and of
those of the assets.  Then `append` does the same for both at every frame: same calls, same panics, same non-termination. -/
theorem C141_anywhere [Libm ℝ] (hk : ExactSolver) {a a' : Schema.Animation ℝ} (h : a.Agrees straightAdded a') {c c' : Composition ℝ}
    (hc : convAnimation a = .ok c) (hc' : convAnimation a' = .ok c') {r : Renderer ℝ} (hr : Reachable r) (n : Nat) (fr : ℝ)
    (T : Affine ℝ) (al : ℝ) : Renderer.append n r c fr T al = Renderer.append n r c' fr T al :=
  append_agree_always (straightAdded_sound hk) h hc hc' hr n fr T al

/-- **C141.** Documents: a keyframe like that in the opacity of a layer changes no call, at no frame. -/
theorem C141_document [Libm ℝ] [KurboPaths ℝ] (hk : ExactSolver) {a : Schema.Animation ℝ} {pre post : List (Schema.AnyLayer ℝ)}
    {l : Schema.AnyLayer ℝ} (ha : a.layers = pre ++ l :: post) {p p' : Schema.FloatValue ℝ}
    (hp : l.visual.transform.opacity = some p) {ks ks' : List (Schema.Keyframe ℝ)} (hks : p.value = .animatedValue ks)
    (hks' : p'.value = .animatedValue ks') (ho : InOrder (·.base) ks) (h : KeyframeAdded 1 ks ks') {c c' : Composition ℝ}
    (hc : convAnimation a = .ok c)
    (hc' : convAnimation { a with layers := pre ++ l.withTransform { l.visual.transform with opacity := some p' } :: post } =
      .ok c')
    {r r' : Renderer ℝ} (hr : Reachable r) {fr : ℝ} {T : Affine ℝ} {al : ℝ} {ops : List (Op ℝ)} :
    AppendCalls r c fr T al r' ops ↔ AppendCalls r c' fr T al r' ops := by
  obtain ⟨h1, h2, h3⟩ := scalar_added hk hks hks' ho h
  refine C140_same hc hc' rfl rfl ?_ hr
  have hl : LayerSame fr l (l.withTransform { l.visual.transform with opacity := some p' }) := by
    refine withTransform_same fun M o => ?_
    unfold LayerAt
    rw [withTransform_visual]
    have hsplit := fun t w => convTransform_opacity (v := l.visual.transform) (q := p) (t := t) (w := w)
    have hsplit' := fun t w => convTransform_opacity
      (v := (l.visual.withTransform { l.visual.transform with opacity := some p' }).transform) (q := p') (t := t) (w := w)
    constructor
    · rintro ⟨t, w, e, rfl, rfl⟩
      obtain ⟨e1, w', e2⟩ := (hsplit t w hp).mp e
      obtain ⟨w₂, e3⟩ := h1 w e1
      exact ⟨t, w₂, (hsplit' t w₂ rfl).mpr ⟨e3, w', e2⟩, rfl, (h3 w w₂ e1 e3 fr _).symm⟩
    · rintro ⟨t, w₂, e, rfl, rfl⟩
      obtain ⟨e3, w', e2⟩ := (hsplit' t w₂ rfl).mp e
      obtain ⟨w, e1⟩ := h2 w₂ e3
      exact ⟨t, w, (hsplit t w hp).mpr ⟨e1, w', e2⟩, rfl, h3 w w₂ e1 e3 fr _⟩
  rw [ha]
  refine .mk (forall₂_join (.cons hl (layerSame_refl fr post)) (layerSame_refl fr pre)) fun x x' hx _ => ?_
  rw [List.zip_append rfl, List.zip_cons_cons, List.mem_append, List.mem_cons] at hx
  rcases hx with hx | hx | hx
  · rw [zip_self_mem hx]
    exact .equal rfl
  · cases hx
    exact withTransform_content (by rfl) l
  · rw [zip_self_mem hx]
    exact .equal rfl

end

/-! ## The hypotheses can be met -/

/-- From 0 at frame 0 to 10 at frame 4, straight, then curved. -/
def exLineKeys : List (Schema.Keyframe ℝ) :=
  [⟨⟨0, none, none, none⟩, [0], none⟩,
   ⟨⟨4, none, some ⟨.singleValue 1, .singleValue 0⟩, some ⟨.singleValue 0, .singleValue 1⟩⟩, [10], none⟩,
   ⟨⟨6, none, none, none⟩, [7], none⟩]

/-- A keyframe with the value 5 is added at frame 2. -/
def exLineKeys' : List (Schema.Keyframe ℝ) :=
  [⟨⟨0, none, none, none⟩, [0], none⟩, ⟨⟨2, none, none, none⟩, [5], none⟩,
   ⟨⟨4, none, some ⟨.singleValue 1, .singleValue 0⟩, some ⟨.singleValue 0, .singleValue 1⟩⟩, [10], none⟩,
   ⟨⟨6, none, none, none⟩, [7], none⟩]

theorem exLineKeys_added : KeyframeAdded 1 exLineKeys exLineKeys' ∧ InOrder (·.base) exLineKeys := by
  refine ⟨.mk (pre := []) ⟨rfl, rfl, by simp⟩ ⟨rfl, rfl, by simp⟩ (by norm_num) (by norm_num) fun c hc => ?_, ?_⟩
  · obtain rfl : c = 0 := by omega
    exact ⟨0, 10, rfl, rfl, by norm_num⟩
  · simp [InOrder, exLineKeys]
    norm_num

/-- The opacity with these keyframes. -/
def exOpacity (ks : List (Schema.Keyframe ℝ)) : Schema.FloatValue ℝ := ⟨none, some .true, none, none, .animatedValue ks⟩

/-- A layer with such an opacity. -/
noncomputable def exStraightLayer : Schema.AnyLayer ℝ :=
  let v : Schema.VisualLayer ℝ := exVisual "z" none
  exShapeDoc { v with transform := { v.transform with opacity := some (exOpacity exLineKeys) } }

/-- A document with that layer. -/
noncomputable def exStraightDoc : Schema.Animation ℝ := { exDoc with layers := [] ++ exStraightLayer :: [] }

/-- The document can be imported, with and without the keyframe. -/
example [Kurbo ℝ] [Libm ℝ] : (∃ c, convAnimation exStraightDoc = .ok c) ∧
    (∃ c, convAnimation { exStraightDoc with
      layers := [] ++ exStraightLayer.withTransform { exStraightLayer.visual.transform with
        opacity := some (exOpacity exLineKeys') } :: [] } = .ok c) ∧
    exStraightLayer.visual.transform.opacity = some (exOpacity exLineKeys) :=
  ⟨⟨_, rfl⟩, ⟨_, rfl⟩, rfl⟩

/-- A layer with an opacity with these keyframes. -/
noncomputable def exFadingLayer (ks : List (Schema.Keyframe ℝ)) : Schema.AnyLayer ℝ :=
  let v : Schema.VisualLayer ℝ := exVisual "z" none
  exShapeDoc { v with transform := { v.transform with opacity := some (exOpacity ks) } }

/-- A document with such a layer, and with an asset with such a layer. -/
noncomputable def exFadingDoc (ks : List (Schema.Keyframe ℝ)) : Schema.Animation ℝ :=
  { exDoc with
    layers := [exFadingLayer ks, .precomposition ⟨exVisual "instance" (some 5), "b", lit 20, lit 30, lit 4, none⟩]
    assets := some [.precomposition ⟨⟨"b", ⟨none, none⟩⟩, [exFadingLayer ks], none, none⟩] }

theorem exFadingLayer_added : (exFadingLayer exLineKeys).Agrees straightAdded (exFadingLayer exLineKeys') :=
  .shape ⟨⟨.none, .position (.static rfl rfl), .some (.static rfl rfl), .some (.rotation (.static rfl rfl)), .none,
    .none, .some (.animated rfl rfl (.inr ⟨exLineKeys_added.2, .more exLineKeys_added.1 (.none _)⟩))⟩, .nil, rfl⟩
    (.cons (.group (.cons (.ellipse (.static rfl rfl) (.static rfl rfl))
      (.cons (.fill (.static rfl rfl) (.static rfl rfl)) .nil))) .nil)

/-- Both documents can be imported, and one has more keyframes, in a layer and in a layer of an asset. -/
example [Kurbo ℝ] [Libm ℝ] : (∃ c, convAnimation (exFadingDoc exLineKeys) = .ok c) ∧
    (∃ c, convAnimation (exFadingDoc exLineKeys') = .ok c) ∧
    (exFadingDoc exLineKeys).Agrees straightAdded (exFadingDoc exLineKeys') :=
  ⟨⟨_, rfl⟩, ⟨_, rfl⟩, ⟨.cons exFadingLayer_added (.cons (.precomposition ⟨⟨.none, .position (.static rfl rfl),
    .some (.static rfl rfl), .some (.rotation (.static rfl rfl)), .none, .none, .some (.static rfl rfl)⟩, .nil, rfl⟩ .none rfl)
    .nil), .cons (.precomposition rfl (.cons exFadingLayer_added .nil)) .nil, rfl⟩⟩

/-- A triangle that grows, in four frames and with a keyframe after one of them. -/
example : (straightAdded.paths
    (.animated [⟨⟨0, none, none, none⟩, some [⟨some true, [(0, 0), (4, 0), (0, 8)], [(0, 0), (0, 0), (0, 0)], [(0, 0), (0, 0), (0, 0)]⟩], none⟩,
      ⟨⟨4, none, none, none⟩, some [⟨some true, [(0, 0), (8, 0), (0, 16)], [(0, 0), (4, 0), (0, 0)], [(0, 0), (0, 0), (0, 0)]⟩], none⟩])
    (.animated [⟨⟨0, none, none, none⟩, some [⟨some true, [(0, 0), (4, 0), (0, 8)], [(0, 0), (0, 0), (0, 0)], [(0, 0), (0, 0), (0, 0)]⟩], none⟩,
      ⟨⟨1, none, none, none⟩, some [⟨some true, [(0, 0), (5, 0), (0, 10)], [(0, 0), (1, 0), (0, 0)], [(0, 0), (0, 0), (0, 0)]⟩], none⟩,
      ⟨⟨4, none, none, none⟩, some [⟨some true, [(0, 0), (8, 0), (0, 16)], [(0, 0), (4, 0), (0, 0)], [(0, 0), (0, 0), (0, 0)]⟩], none⟩])) := by
  refine .animated rfl rfl ⟨by simp [InOrder], ?_, .more (.mk (pre := []) ⟨rfl, rfl, by simp⟩ ⟨rfl, rfl, by simp⟩ (by norm_num)
    (by norm_num) rfl rfl rfl rfl rfl ?_) (.none _)⟩
  · intro k hk
    simp only [List.mem_cons, List.not_mem_nil, or_false] at hk
    rcases hk with rfl | rfl <;> exact ⟨_, _, rfl⟩
  · exact ⟨⟨rfl, by norm_num⟩, ⟨rfl, by norm_num⟩, ⟨rfl, by norm_num⟩, rfl⟩

/-- A gradient of two stops, with a keyframe added. -/
example : (straightAdded.gradients 2
    (.animatedValue [⟨⟨0, none, none, none⟩, [0, 1, 0, 0, 1, 0, 0, 1], none⟩, ⟨⟨4, none, none, none⟩, [0, 0, 0, 1, 1, 1, 0, 1], none⟩])
    (.animatedValue [⟨⟨0, none, none, none⟩, [0, 1, 0, 0, 1, 0, 0, 1], none⟩,
      ⟨⟨1, none, none, none⟩, [0, 3 / 4, 0, 1 / 4, 1, 1 / 4, 0, 1], none⟩,
      ⟨⟨4, none, none, none⟩, [0, 0, 0, 1, 1, 1, 0, 1], none⟩])) := by
  refine .animated rfl rfl (.inr ⟨two_pos, by simp [InOrder], .more (.mk (pre := []) ⟨rfl, rfl, by simp⟩ ⟨rfl, rfl, by simp⟩
    (by norm_num) (by norm_num) fun c hc => ?_) (.none _), by simp⟩)
  match c, hc with
  | 0, _ => exact ⟨0, 0, rfl, rfl, by norm_num⟩
  | 1, _ => exact ⟨1, 0, rfl, rfl, by norm_num⟩
  | 2, _ => exact ⟨0, 0, rfl, rfl, by norm_num⟩
  | 3, _ => exact ⟨0, 1, rfl, rfl, by norm_num⟩
  | 4, _ => exact ⟨1, 1, rfl, rfl, by norm_num⟩
  | 5, _ => exact ⟨0, 1, rfl, rfl, by norm_num⟩
  | 6, _ => exact ⟨0, 0, rfl, rfl, by norm_num⟩
  | 7, _ => exact ⟨1, 1, rfl, rfl, by norm_num⟩

/-- Two coordinates. -/
example : KeyframeAdded 2
    [⟨⟨0, none, none, none⟩, [0, 3], none⟩, ⟨⟨4, none, none, none⟩, [10, 1], none⟩]
    [⟨⟨0, none, none, none⟩, [0, 3], none⟩, ⟨⟨1, none, none, none⟩, [5 / 2, 5 / 2], none⟩, ⟨⟨4, none, none, none⟩, [10, 1], none⟩] :=
  .mk (pre := []) ⟨rfl, rfl, by simp⟩ ⟨rfl, rfl, by simp⟩ (by norm_num) (by norm_num) fun c hc => by
    match c, hc with
    | 0, _ => exact ⟨0, 10, rfl, rfl, by norm_num⟩
    | 1, _ => exact ⟨3, 1, rfl, rfl, by norm_num⟩

end Velato
