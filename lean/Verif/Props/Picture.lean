import Verif.Proofs.Picture
import Verif.Props.Compositing
import Verif.Props.Fade
import Verif.Proofs.FadePicture

/-!
# C80, C81, C82, C83 — what a rendered composition looks like

`Spec/Picture.lean` says what a sequence of calls shows at a pixel.
-/

namespace Velato
open FloatOps (lit)

variable [Kurbo ℝ]

/-! ### C80 — layers are painted one over the other, inside the composition -/

/-- **C80.** The calls of a layer put its picture in front of whatever is there. -/
theorem C80_layer {c : Composition ℝ} {ls : List (Layer ℝ)} {l : Layer ℝ} {ix : Nat}
    {T : Affine ℝ} {a fr : ℝ} {ops : List (Op ℝ)} (h : LayerCalls c ls l ix T a fr ops)
    (R : Rasteriser) (d : Pixel) : R.picture ops d = (R.picture ops .clear).over d :=
  (h.paints R).picture d

/-- **C80.** A rendered composition shows the layers that are not mattes, the last one first and
each one in front of the ones before it, cut off at the borders of the composition, in front of what
was there. -/
theorem C80_append {r r' : Renderer ℝ} (hr : Reachable r) {c : Composition ℝ} {fr : ℝ}
    {T : Affine ℝ} {a : ℝ} {ops : List (Op ℝ)} (h : AppendCalls r c fr T a r' ops) :
    ∃ per, List.Forall₂ (fun (p : Layer ℝ × Nat) os => LayerCalls c c.layers p.1 p.2 T a fr os)
        (c.layers.zipIdx.reverse.filter (fun p => !p.1.isMask)) per ∧
      ∀ (R : Rasteriser) (d : Pixel), R.picture ops d
        = ((per.foldl (fun under os => R.picture os under) .clear).scale
            (R.clip T (.rect 0 0 c.width c.height))).over d := by
  obtain ⟨-, per, hper, rfl⟩ := (appendCalls_iff hr.idle).mp h
  refine ⟨per, hper, fun R d => ?_⟩
  have hp : ∀ os ∈ per, Paints R os (R.picture os .clear) := by
    intro os hos
    obtain ⟨p, -, hp⟩ := forall₂_right hper hos
    exact hp.paints R
  have hq : List.Forall₂ (Paints R) per (per.map fun os => R.picture os .clear) := by
    clear hper h
    induction per with
    | nil => exact .nil
    | cons o per ih => exact .cons (hp o (by simp)) (ih fun os h => hp os (by simp [h]))
  have hf : (per.map fun os => R.picture os .clear).foldl (fun under q => q.over under) .clear
      = per.foldl (fun under os => R.picture os under) .clear := by
    generalize Pixel.clear.over Pixel.clear = z
    rw [List.foldl_map]
    have : ∀ (d : Pixel) (per : List (List (Op ℝ))), (∀ os ∈ per, Paints R os (R.picture os .clear))
        → per.foldl (fun under os => (R.picture os .clear).over under) d
          = per.foldl (fun under os => R.picture os under) d := by
      intro d per
      induction per generalizing d with
      | nil => intros; rfl
      | cons o per ih =>
        intro hp
        rw [List.foldl_cons, List.foldl_cons, (hp o (by simp)).picture d]
        exact ih _ fun os h => hp os (by simp [h])
    exact this _ per hp
  have hrect : fullRect c = .rect 0 0 (c.width : ℝ) (c.height : ℝ) := by simp [fullRect]
  have := ((Paints.flatten hq).clip T (fullRect c)).picture d
  rw [hf, hrect] at this
  rw [hrect]
  exact this

/-- **C80.** Nothing changes outside of the composition. -/
theorem C80_outside {r r' : Renderer ℝ} (hr : Reachable r) {c : Composition ℝ} {fr : ℝ}
    {T : Affine ℝ} {a : ℝ} {ops : List (Op ℝ)} (h : AppendCalls r c fr T a r' ops)
    {R : Rasteriser} (hR : R.clip T (.rect 0 0 c.width c.height) = 0) (d : Pixel) :
    R.picture ops d = d := by
  obtain ⟨per, -, hp⟩ := C80_append hr h
  rw [hp, hR, Pixel.scale_zero, Pixel.clear_over]

/-- **C80.** Where the first layer is opaque, nothing else of the composition is visible. -/
theorem C80_opaque {r r' : Renderer ℝ} (hr : Reachable r) {c : Composition ℝ} {fr : ℝ}
    {T : Affine ℝ} {a : ℝ} {ops top : List (Op ℝ)} (h : AppendCalls r c fr T a r' ops)
    {l : Layer ℝ} {ls : List (Layer ℝ)} (hl : c.layers = l :: ls) (hm : l.isMask = false)
    (htop : LayerCalls c c.layers l 0 T a fr top) {R : Rasteriser}
    (ho : (R.picture top .clear).a = 1) (d : Pixel) :
    R.picture ops d
      = ((R.picture top .clear).scale (R.clip T (.rect 0 0 c.width c.height))).over d := by
  obtain ⟨per, hper, hp⟩ := C80_append hr h
  rw [hp]
  have hs : c.layers.zipIdx.reverse.filter (fun p => !p.1.isMask)
      = (ls.zipIdx 1).reverse.filter (fun p => !p.1.isMask) ++ [(l, 0)] := by
    rw [hl, List.zipIdx_cons, List.reverse_cons, List.filter_append]
    simp [hm]
  rw [hs] at hper
  have hlast' := List.forall₂_drop_append per _ _ hper.flip
  obtain ⟨per₀, last, hcat, hlast⟩ : ∃ per₀ last, per = per₀ ++ last ∧
      List.Forall₂ (fun (p : Layer ℝ × Nat) os => LayerCalls c c.layers p.1 p.2 T a fr os)
        [(l, 0)] last := ⟨_, _, (List.take_append_drop _ per).symm, hlast'.flip⟩
  clear hlast'
  subst hcat
  obtain ⟨os, hos, rfl⟩ : ∃ os, LayerCalls c c.layers l 0 T a fr os ∧ last = [os] := by
    cases hlast with
    | cons hx ht => cases ht; exact ⟨_, hx, rfl⟩
  obtain rfl := hos.unique htop
  rw [List.foldl_append, List.foldl_cons, List.foldl_nil, (hos.paints R).picture]
  congr 2
  apply Pixel.ext <;> simp [Pixel.over, ho]

/-- Two layers in front of each other. -/
theorem exStack_calls : ∃ r' ops, AppendCalls Renderer.new exStack 1 Affine.identity 1 r' ops := by
  exact ⟨_, _, (appendCalls_iff rfl).mpr ⟨rfl, _,
    .cons (exShapeLayer_calls exStack exStack.layers "bottom" 1 false 1)
      (.cons (exTwice_calls exStack exStack.layers "top" 0 100 1) .nil), rfl⟩⟩

/-- The hypotheses of `C80_append`, `C80_outside` and `C80_opaque` can be met. -/
example : ∃ r' ops, Reachable (F := ℝ) Renderer.new ∧
    AppendCalls Renderer.new exStack 1 Affine.identity 1 r' ops ∧
    (∃ l ls top, exStack.layers = l :: ls ∧ l.isMask = false ∧
      LayerCalls exStack exStack.layers l 0 Affine.identity 1 1 top ∧
      (exInside.picture top .clear).a = 1) ∧
    ∃ R : Rasteriser, R.clip Affine.identity (.rect 0 0 exStack.width exStack.height) = 0 := by
  obtain ⟨r', ops, h⟩ := exStack_calls
  refine ⟨r', ops, .new, h, ⟨_, _, _, rfl, rfl, exTwice_calls _ _ _ _ _ _, ?_⟩,
    { exInside with clip := fun _ _ => 0 }, rfl⟩
  norm_num [Rasteriser.picture, Rasteriser.run, Rasteriser.step, exInside, Pixel.over, Pixel.scale,
    Pixel.ofColor, Pixel.clear]

/-! ### C81 — mattes -/

/-- **C81.** Inside the composition, a layer with an alpha matte shows its picture times the opacity
of the picture of the matte; with an inverted alpha matte, times what is missing from that opacity to
1. -/
theorem C81_matte {c : Composition ℝ} {ls : List (Layer ℝ)} {l m : Layer ℝ} {ix : Nat}
    {T : Affine ℝ} {a fr : ℝ} {ops : List (Op ℝ)} {compose : Compose} {j : Nat}
    (hm : l.maskLayer = some (BlendMode.ofCompose compose, j)) (hj : ls[j]? = some m)
    (hin : l.frames.contains fr = true) (h : LayerCalls c ls l ix T a fr ops) :
    ∃ matte own, LayerCalls c ls m 0 T a fr matte ∧
      LayerCalls c ls { l with maskLayer := none } ix T a fr own ∧
      ∀ R : Rasteriser, R.clip T (.rect 0 0 c.width c.height) = 1 →
        R.picture ops .clear = match compose with
          | .srcOver => (R.picture own .clear).over (R.picture matte .clear)
          | .srcIn => (R.picture own .clear).scale (R.picture matte .clear).a
          | .srcOut => (R.picture own .clear).scale (1 - (R.picture matte .clear).a) := by
  obtain ⟨matte, inner, h1, h2, rfl⟩ := (C42_matte hm hin).mp h
  rw [hj] at h1
  refine ⟨matte, _, h1, h2, fun R hR => ?_⟩
  have hrect : fullRect c = .rect 0 0 (c.width : ℝ) (c.height : ℝ) := by simp [fullRect]
  have hi : Paints R inner (R.picture ([Op.beginGroup l.name ix] ++ inner ++ [Op.endGroup]) .clear) := by
    have h3 := h2.paints R
    intro p st
    have h4 := h3 p st
    rw [Rasteriser.run_append, Rasteriser.run_append] at h4
    exact h4
  have := ((Paints.matte (T := T) (s := fullRect c) (mode := BlendMode.ofCompose compose)
    (h1.paints R) hi).begin l.name ix).clear
  rw [hrect, hR, Pixel.scale_one, Pixel.scale_one] at this
  rw [hrect]
  refine (Eq.trans ?_ this).trans ?_
  · simp [List.append_assoc]
  · cases compose <;> simp [Rasteriser.compose, BlendMode.ofCompose]

/-- A layer and its matte. -/
theorem exMatted_calls (a : ℝ) : LayerCalls exMatted exMatted.layers
    { exShapeLayer "t" with maskLayer := some (BlendMode.ofCompose .srcIn, 1) } 0 Affine.identity a 1
    ([Op.beginGroup "t" 0,
        Op.pushLayer (BlendMode.ofMix .normal) 1 Affine.identity (fullRect exMatted)] ++
      [.beginGroup "matte" 0, .draw none Affine.identity (.solid ⟨1, 0, 0, a * 50 / 100⟩) exTriangle,
        .endGroup] ++
      [Op.pushLayer (BlendMode.ofCompose .srcIn) 1 Affine.identity (fullRect exMatted)] ++
      [.draw none Affine.identity (.solid ⟨1, 0, 0, a * 50 / 100⟩) exTriangle] ++
      [Op.pop, Op.pop, Op.endGroup]) := by
  refine (C42_matte rfl (by simp [exShapeLayer, exLayer, FRange.contains])).mpr
    ⟨_, [.draw none Affine.identity (.solid ⟨1, 0, 0, a * 50 / 100⟩) exTriangle],
      exShapeLayer_calls exMatted exMatted.layers "matte" 0 true a,
      exShapeLayer_calls exMatted exMatted.layers "t" 0 false a, ?_⟩
  simp [exShapeLayer, exLayer]

/-- The hypotheses of `C81_matte` can be met: half of the opacity of a half transparent layer is
left. -/
example : ∃ l m ops, l.maskLayer = some (BlendMode.ofCompose .srcIn, 1) ∧
    exMatted.layers[1]? = some m ∧ l.frames.contains (1 : ℝ) = true ∧
    LayerCalls exMatted exMatted.layers l 0 Affine.identity 1 1 ops ∧
    exInside.clip Affine.identity (.rect 0 0 exMatted.width exMatted.height) = 1 ∧
    (exInside.picture ops .clear).a = 1 / 4 := by
  refine ⟨_, _, _, rfl, rfl, by simp [exShapeLayer, exLayer, FRange.contains], exMatted_calls 1,
    rfl, ?_⟩
  norm_num [Rasteriser.picture, Rasteriser.run, Rasteriser.step, exInside, Pixel.over, Pixel.scale,
    Pixel.ofColor, Pixel.clear, Rasteriser.compose, BlendMode.ofCompose, BlendMode.ofMix]

/-! ### C82 — masks -/

/-- **C82.** A layer with masks (and no matte, see `C81_matte`) shows its picture without masks
times the part of the pixel that lies inside of each mask: only what is inside of all of them. -/
theorem C82_masks {c : Composition ℝ} {ls : List (Layer ℝ)} {l : Layer ℝ} {ix : Nat}
    {T : Affine ℝ} {a fr : ℝ} {ops : List (Op ℝ)} (hm : l.maskLayer = none)
    (hin : l.frames.contains fr = true) (h : LayerCalls c ls l ix T a fr ops) :
    ∃ paths own,
      List.Forall₂ (fun (m : Mask ℝ) path => m.geometry.evaluate fr = .ok path) l.masks paths ∧
      LayerCalls c ls { l with masks := [] } ix T a fr own ∧
      ∀ R : Rasteriser, R.picture ops .clear = (R.picture own .clear).scale
        (paths.map fun p => R.clip (computeTransform ls l T fr) (.path p)).prod := by
  obtain ⟨paths, inner, h1, h2, rfl⟩ := (C41_masks hm hin).mp h
  refine ⟨paths, _, h1, h2, fun R => ?_⟩
  have hi : Paints R inner (R.picture ([Op.beginGroup l.name ix] ++ inner ++ [Op.endGroup]) .clear) := by
    have h3 := h2.paints R
    intro p st
    have h4 := h3 p st
    rw [Rasteriser.run_append, Rasteriser.run_append] at h4
    exact h4
  have := ((hi.masks (T := computeTransform ls l T fr) paths).begin l.name ix).clear
  rw [← h1.length_eq] at this
  simpa [List.append_assoc] using this

/-- **C82.** Outside of one of its masks a layer shows nothing. -/
theorem C82_outside {c : Composition ℝ} {ls : List (Layer ℝ)} {l : Layer ℝ} {ix : Nat}
    {T : Affine ℝ} {a fr : ℝ} {ops : List (Op ℝ)} (hm : l.maskLayer = none)
    (hin : l.frames.contains fr = true) (h : LayerCalls c ls l ix T a fr ops)
    {m : Mask ℝ} (hmem : m ∈ l.masks) {path : List (PathEl ℝ)} (hp : m.geometry.evaluate fr = .ok path)
    {R : Rasteriser} (hR : R.clip (computeTransform ls l T fr) (.path path) = 0) (d : Pixel) :
    R.picture ops d = d := by
  obtain ⟨paths, own, h1, -, h2⟩ := C82_masks hm hin h
  obtain ⟨q, hq, hpq⟩ := forall₂_right h1.flip hmem
  have e : path = q := Except.ok.inj (hp.symm.trans hpq)
  subst e
  rw [C80_layer h, h2, List.prod_eq_zero (List.mem_map.mpr ⟨path, hq, hR⟩), Pixel.scale_zero,
    Pixel.clear_over]

/-- The hypotheses of `C82_masks` and `C82_outside` can be met. -/
example : ∃ (l : Layer ℝ) (m : Mask ℝ) (ops : List (Op ℝ)) (path : List (PathEl ℝ)),
    l.maskLayer = none ∧ l.frames.contains 1 = true ∧ m ∈ l.masks ∧
    LayerCalls exStack [] l 0 Affine.identity 1 1 ops ∧ m.geometry.evaluate 1 = .ok path ∧
    ∃ R : Rasteriser, R.clip (computeTransform [] l Affine.identity 1) (.path path) = 0 := by
  refine ⟨{ exShapeLayer "m" with masks := [⟨BlendMode.ofMix .normal, .fixed exTriangle, .fixed 100⟩] },
    _, _, exTriangle, rfl, by simp [exShapeLayer, exLayer, FRange.contains], List.mem_singleton.mpr rfl,
    (C41_masks rfl (by simp [exShapeLayer, exLayer, FRange.contains])).mpr
      ⟨[exTriangle], [.draw none Affine.identity (.solid ⟨1, 0, 0, 1 * 50 / 100⟩) exTriangle],
        .cons rfl .nil, exShapeLayer_calls exStack [] "m" 0 false 1, rfl⟩, rfl,
    { exInside with clip := fun _ _ => 0 }, rfl⟩

/-! ### C83 — does opacity fade a layer as a whole? -/

/-- **C83.** With an opacity of 0, `append` changes nothing. -/
theorem C83_append_invisible {r r' : Renderer ℝ} (hr : Reachable r) {c : Composition ℝ} {fr : ℝ}
    {T : Affine ℝ} {ops : List (Op ℝ)} (h : AppendCalls r c fr T 0 r' ops) {R : Rasteriser}
    (hR : R.Fades) (d : Pixel) : R.picture ops d = d := by
  obtain ⟨ops₁, -, rfl⟩ := (C79_calls 0 hr).mp h
  obtain ⟨per, hper, hp⟩ := C80_append hr h
  have h0 := R.picture_fade_zero hR ops₁
  rw [hp, Pixel.over_clear] at h0
  rw [hp, h0, Pixel.clear_over]

/-- **C83.** A layer with an opacity of 0 shows nothing, with or without masks and alpha mattes. -/
theorem C83_layer_invisible {c : Composition ℝ} {ls : List (Layer ℝ)} {l : Layer ℝ} {ix : Nat}
    {T : Affine ℝ} {a fr : ℝ} {ops : List (Op ℝ)} (h : LayerCalls c ls l ix T a fr ops)
    (h0 : l.opacity.evaluate fr = 0)
    (hm : ∀ mode j, l.maskLayer = some (mode, j) →
      mode = BlendMode.ofCompose .srcIn ∨ mode = BlendMode.ofCompose .srcOut)
    {R : Rasteriser} (hR : R.Fades) (d : Pixel) : R.picture ops d = d := by
  have key : ∀ (l : Layer ℝ) ops, LayerCalls c ls l ix T a fr ops → l.opacity.evaluate fr = 0 →
      l.maskLayer = none → R.picture ops .clear = .clear := by
    intro l ops h h0 hn
    obtain ⟨ops₁, -, rfl⟩ := (C79_layer hn).mp h
    rw [h0, zero_div]
    exact R.picture_fade_zero hR ops₁
  cases hM : l.maskLayer with
  | none => rw [C80_layer h, key l ops h h0 hM, Pixel.clear_over]
  | some p =>
    obtain ⟨mode, j⟩ := p
    by_cases hin : l.frames.contains fr = true
    · obtain ⟨matte, inner, h1, h2, rfl⟩ := (C42_matte hM hin).mp h
      have hi : Paints R inner .clear := by
        have h3 := h2.paints R
        rw [key _ _ h2 h0 rfl] at h3
        intro p st
        have h4 := h3 p st
        rw [Rasteriser.run_append, Rasteriser.run_append] at h4
        exact h4
      obtain ⟨q, hq⟩ : ∃ q, Paints R matte q := by
        cases hj : ls[j]? with
        | none => rw [hj] at h1; subst h1; exact ⟨_, .nil⟩
        | some m => rw [hj] at h1; exact ⟨_, h1.paints R⟩
      have := ((Paints.matte (T := T) (s := fullRect c) (mode := mode) hq hi).begin l.name ix).picture d
      rw [Pixel.scale_clear] at this
      refine (Eq.trans ?_ this).trans ?_
      · simp [List.append_assoc]
      · rcases hm mode j hM with rfl | rfl <;>
          simp [Rasteriser.compose, BlendMode.ofCompose, Pixel.scale_clear, Pixel.clear_over]
    · obtain rfl : ops = [] := by
        obtain ⟨n, hn⟩ := layerCalls_iff.mp h
        cases n with
        | zero => cases hn
        | succ n =>
          have : layerBody c (layerOps c n) ls l ix T a fr = .ok [] := by
            unfold layerBody
            rw [if_pos (by simpa using hin)]
          exact Except.ok.inj (hn.symm.trans this)
      rfl

/-- **C83, partial.** A layer without mattes, of which at most one drawing is visible at the pixel,
is faded by its opacity as a whole. -/
theorem C83_layer_partial {c : Composition ℝ} {ls : List (Layer ℝ)} {l : Layer ℝ} {ix : Nat}
    {T : Affine ℝ} {a fr : ℝ} {ops : List (Op ℝ)} (h : LayerCalls c ls l ix T a fr ops)
    {R : Rasteriser} (hR : R.Fades) (hm : l.maskLayer = none)
    (hp : ∀ b k T sh, Op.pushLayer b k T sh ∉ ops)
    (hone : ops.Pairwise fun x y => ¬ (x.Covers R ∧ y.Covers R)) :
    ∃ ops₁, LayerCalls c ls { l with opacity := .fixed 100 } ix T a fr ops₁ ∧
      R.picture ops .clear = (R.picture ops₁ .clear).scale (l.opacity.evaluate fr / 100) := by
  obtain ⟨ops₁, h1, rfl⟩ := (C79_layer hm).mp h
  exact ⟨ops₁, h1, R.picture_fade_lone hR _ (Op.noLayer_of_fade hp) (Op.lone_of_fade hone)⟩

/-- **C83, partial.** Without mattes, and if at most one drawing is visible at the pixel, the
opacity given to `append` fades the picture as a whole. -/
theorem C83_append_partial (α : ℝ) {r r' : Renderer ℝ} (hr : Reachable r) {c : Composition ℝ}
    {fr : ℝ} {T : Affine ℝ} {ops : List (Op ℝ)} (h : AppendCalls r c fr T α r' ops) {R : Rasteriser}
    (hR : R.Fades) (hp : ∀ b k T sh, Op.pushLayer b k T sh ∉ ops)
    (hone : ops.Pairwise fun x y => ¬ (x.Covers R ∧ y.Covers R)) :
    ∃ ops₁, AppendCalls r c fr T 1 r' ops₁ ∧
      R.picture ops .clear = (R.picture ops₁ .clear).scale α := by
  obtain ⟨ops₁, h1, rfl⟩ := (C79_calls α hr).mp h
  exact ⟨ops₁, h1, R.picture_fade_lone hR _ (Op.noLayer_of_fade hp) (Op.lone_of_fade hone)⟩

/-- **C83, partial.** Without mattes, whatever is visible: the opacity of the picture is at least
that of the picture faded as a whole, and at most that of the picture that is not faded. -/
theorem C83_bounds_partial {α : ℝ} (h0 : 0 ≤ α) (h1 : α ≤ 1) {r r' r₁ : Renderer ℝ}
    (hr : Reachable r) {c : Composition ℝ} {fr : ℝ} {T : Affine ℝ} {ops ops₁ : List (Op ℝ)}
    (h : AppendCalls r c fr T α r' ops) (h₁ : AppendCalls r c fr T 1 r₁ ops₁) {R : Rasteriser}
    (hR : R.Fades) (hU : R.Unit) (hb : ∀ op ∈ ops₁, op.UnitBrush R)
    (hp : ∀ b k T sh, Op.pushLayer b k T sh ∉ ops₁) :
    α * (R.picture ops₁ .clear).a ≤ (R.picture ops .clear).a ∧
      (R.picture ops .clear).a ≤ (R.picture ops₁ .clear).a := by
  obtain ⟨ops₂, h2, rfl⟩ := (C79_calls α hr).mp h
  obtain ⟨n, hn⟩ := h₁
  obtain ⟨m, hm⟩ := h2
  obtain ⟨rfl, rfl⟩ := append_unique hr.idle hn hm
  obtain ⟨-, -, h3, h4⟩ := R.picture_fade_bound hR hU h0 h1 hp hb
  exact ⟨h3, h4⟩

omit [Kurbo ℝ] in
/-- The example rasteriser fades brushes. -/
theorem exInside_fades : exInside.Fades := by
  intro α b T
  cases b with
  | solid c => rfl
  | gradient k s => simp [exInside, Brush.fade, Color.fade]

/-- **C83 fails**: a layer that draws twice at a pixel has an opacity of 0.75 there when its own
opacity is 50 percent, not of 0.5. -/
theorem C83_overlap_counterexample : exInside.Fades ∧ ∃ ops₁ ops,
    LayerCalls exStack [] (exTwice "x" 100) 0 Affine.identity 1 1 ops₁ ∧
    LayerCalls exStack [] (exTwice "x" 50) 0 Affine.identity 1 1 ops ∧
    (exInside.picture ops₁ .clear).a = 1 ∧ (exInside.picture ops .clear).a = 3 / 4 := by
  refine ⟨exInside_fades, _, _, exTwice_calls _ _ _ _ _ _, exTwice_calls _ _ _ _ _ _, ?_, ?_⟩ <;>
  norm_num [Rasteriser.picture, Rasteriser.run, Rasteriser.step, exInside, Pixel.over, Pixel.scale,
    Pixel.ofColor, Pixel.clear]

/-- **C83 fails**: with the opacity 0.5, `append` shows a layer with a matte at a quarter of its
opacity. -/
theorem C83_matte_counterexample : exInside.Fades ∧ ∃ r' ops₁ ops,
    AppendCalls Renderer.new exMatted 1 Affine.identity 1 r' ops₁ ∧
    AppendCalls Renderer.new exMatted 1 Affine.identity (1 / 2) r' ops ∧
    (exInside.picture ops₁ .clear).a = 1 / 4 ∧ (exInside.picture ops .clear).a = 1 / 16 := by
  refine ⟨exInside_fades, _, _, _,
    (appendCalls_iff rfl).mpr ⟨rfl, [_], .cons (exMatted_calls 1) .nil, rfl⟩,
    (appendCalls_iff rfl).mpr ⟨rfl, [_], .cons (exMatted_calls (1 / 2)) .nil, rfl⟩, ?_, ?_⟩ <;>
  norm_num [Rasteriser.picture, Rasteriser.run, Rasteriser.step, exInside, Pixel.over, Pixel.scale,
    Pixel.ofColor, Pixel.clear, Rasteriser.compose, BlendMode.ofCompose, BlendMode.ofMix]

/-- The hypotheses of the positive parts can be met: a layer that draws once, and a composition
without mattes. -/
example : exInside.Fades ∧ exInside.Unit ∧ (exShapeLayer (F := ℝ) "x").maskLayer = none ∧
    (∃ ops, LayerCalls exStack [] (exShapeLayer "x") 0 Affine.identity 1 1 ops ∧
      (∀ b k T sh, Op.pushLayer b k T sh ∉ ops) ∧ (∃ op ∈ ops, op.Covers exInside) ∧
      ops.Pairwise (fun x y => ¬ (x.Covers exInside ∧ y.Covers exInside))) ∧
    ∃ r' ops, AppendCalls Renderer.new exStack 1 Affine.identity 1 r' ops ∧
      (∀ b k T sh, Op.pushLayer b k T sh ∉ ops) ∧ ∀ op ∈ ops, op.UnitBrush exInside := by
  refine ⟨exInside_fades, ⟨by simp [exInside], by simp [exInside]⟩, rfl, ⟨_, exShapeLayer_calls exStack [] "x" 0 false 1, by simp,
    ⟨_, List.mem_cons_of_mem _ (List.mem_cons_self ..), by simp [Op.Covers, exInside]⟩,
    by simp [Op.Covers]⟩, _, _, (appendCalls_iff rfl).mpr ⟨rfl, _,
    .cons (exShapeLayer_calls exStack exStack.layers "bottom" 1 false 1)
      (.cons (exTwice_calls exStack exStack.layers "top" 0 100 1) .nil), rfl⟩, by simp, ?_⟩
  norm_num [Op.UnitBrush, exInside]

end Velato
