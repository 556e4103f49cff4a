import Verif.Proofs.NoPanic
import Verif.Props.Termination

/-!
# C29 — rendering never panics
-/

namespace Velato
open FloatOps (lit)

/-- How an execution failed. -/
def faultOf {α : Type} : Except Fault α → Option Fault
  | .ok _ => none
  | .error e => some e

theorem eq_error_of_fault {α : Type} {x : Except Fault α} {e : Fault} (h : faultOf x = some e) :
    x = .error e := by
  cases x with
  | ok a => cases h
  | error e' => cases h; rfl

section
variable {F : Type} [FloatOps F] [Libm F] [Kurbo F]

theorem allGood [KurboPaths F] {A : PanicSite → Prop} {c : Composition F}
    (hp : c.PathsStartWithMove)
    (hs : ∀ l ∈ c.allLayers, ∀ g ∈ l.geometries ++ l.masks.map (·.geometry), ∀ fr,
      Safe A (g.evaluate fr)) : ∀ l ∈ c.allLayers, l.Good A := by
  intro l hl
  refine ⟨fun g hg fr => ⟨hs l hl g (by simp [hg]) fr, g.startsOk fr ?_⟩, fun m hm fr =>
    hs l hl m.geometry (by simp only [List.mem_append, List.mem_map]; exact .inr ⟨m, hm, rfl⟩) fr⟩
  rintro p rfl
  exact hp l hl p hg

theorem append_safe {A : PanicSite → Prop} {c : Composition F}
    (h : ∀ l ∈ c.allLayers, l.Good A) {r : Renderer F} (hr : Reachable r) (fuel : Nat) (fr : F)
    (T : Affine F) (a : F) : Safe A (Renderer.append fuel r c fr T a) := by
  rw [append_idle fuel r hr.idle]
  refine Safe.map (Safe.map (Safe.mapM fun p hp => ?_))
  rw [List.mem_filter, List.mem_reverse] at hp
  have hl : ∀ l ∈ c.layers, l.Good A := fun l hl => h l (List.mem_append_left _ hl)
  exact layerOps_safe (fun name als ha l hl => h l (asset_mem ha l hl)) fuel c.layers hl p.1
    (hl _ (List.fst_mem_of_mem_zipIdx hp.1)) _ _ _ _

/-- **C29**: rendering a composition whose explicit paths are empty or begin with a move never
panics, at any frame, with any transform and alpha, to any recursion depth — provided no star has
an astronomical number of points (see `C29_star_counterexample`). -/
theorem C29_no_panic [KurboPaths F] {c : Composition F} (hp : c.PathsStartWithMove)
    (hs : c.StarsFit) {r : Renderer F} (hr : Reachable r) (fuel : Nat) (fr : F) (T : Affine F)
    (a : F) (site : PanicSite) :
    Renderer.append fuel r c fr T a ≠ .error (.panic site) := by
  refine fun h => append_safe (A := fun _ => False) (allGood hp ?_) hr fuel fr T a site h
  intro l hl g hg fr
  refine g.safe_of_stars fr ?_
  rintro s rfl
  exact hs l hl s hg fr

/-- **C29** with termination: without reference cycles, rendering such a composition returns
normally. -/
theorem C29_returns [KurboPaths F] {c : Composition F} (hp : c.PathsStartWithMove)
    (hs : c.StarsFit) (hc : NoReferenceCycles c) {r : Renderer F} (hr : Reachable r) (fr : F)
    (T : Affine F) (a : F) : ∃ r' ops, AppendCalls r c fr T a r' ops := by
  obtain ⟨fuel, hf⟩ := C36_terminates_partial hc hr fr T a
  cases hx : Renderer.append fuel r c fr T a with
  | ok p => exact ⟨p.1, p.2, fuel, hx⟩
  | error e =>
    cases e with
    | fuel => exact absurd hx hf
    | panic site => exact absurd hx (C29_no_panic hp hs hr fuel fr T a site)

/-- **C29** without the condition on stars: the only place that can panic is the allocation for
the vertices of a star. -/
theorem C29_only_stars [KurboPaths F] {c : Composition F} (hp : c.PathsStartWithMove)
    {r : Renderer F} (hr : Reachable r) (fuel : Nat) (fr : F) (T : Affine F) (a : F)
    (site : PanicSite) (h : Renderer.append fuel r c fr T a = .error (.panic site)) :
    site = .starCapacity :=
  append_safe (A := (· = .starCapacity)) (allGood hp fun _ _ g _ fr => g.safe fr) hr fuel fr T a
    site h

/-- A composition with one layer: a star with the given number of points, a path, a trim, a
repeater and a fill in nested groups. -/
def exStarComp (points : F) : Composition F where
  frames := ⟨lit 0, lit 10⟩
  frameRate := lit 25
  width := 100
  height := 50
  assets := []
  layers := [exLayer "s" (.shape
    [.geometry (.fixed exTriangle),
     .group [.geometry (.star ⟨false, lit 1, .fixed ⟨lit 0, lit 0⟩, .fixed (lit 1), .fixed (lit 0),
        .fixed (lit 2), .fixed (lit 0), .fixed (lit 0), .fixed points⟩),
      .trim (.fixed ⟨lit 10, lit 60, lit 90⟩), .draw exFill] none,
     .repeater (.fixed ⟨2, lit 0, ⟨lit 0, lit 0⟩, ⟨lit 5, lit 0⟩, lit 0, ⟨lit 100, lit 100⟩, lit 100,
       lit 50⟩),
     .trim (.fixed ⟨lit 10, lit 60, lit 0⟩)])]

end

section
variable [Libm F64] [Kurbo F64]

/-- The hypotheses are met by a composition with a five-pointed star. -/
example : (exStarComp (F := F64) (lit 5)).PathsStartWithMove ∧ (exStarComp (F := F64) (lit 5)).StarsFit ∧
    NoReferenceCycles (exStarComp (F := F64) (lit 5)) := by
  refine ⟨?_, ?_, ?_⟩
  · intro l hl p hp
    simp only [exStarComp, Composition.allLayers, List.flatMap_nil, List.append_nil,
      List.mem_singleton] at hl
    subst hl
    simp only [exLayer, Layer.geometries, geometriesOf, Shape.geometries, List.append_nil,
      List.singleton_append, List.mem_cons, Geometry.fixed.injEq, reduceCtorEq,
      List.not_mem_nil, or_false] at hp
    subst hp
    rfl
  · intro l hl s hs fr
    simp only [exStarComp, Composition.allLayers, List.flatMap_nil, List.append_nil,
      List.mem_singleton] at hl
    subst hl
    simp only [exLayer, Layer.geometries, geometriesOf, Shape.geometries, List.append_nil,
      List.map_nil, List.singleton_append, List.mem_cons, Geometry.star.injEq, reduceCtorEq,
      List.not_mem_nil, or_false, false_or] at hs
    subst hs
    show FloatOps.toUsize (FloatOps.round (lit 5 : F64)) ≤ 2 ^ 56
    decide +kernel
  · refine NoReferenceCycles.of_rank (fun _ => 0) ?_
    rintro ⟨k, i⟩ ⟨k', j⟩ ⟨l, hl, h⟩
    exfalso
    cases k with
    | some name => cases hl
    | none =>
      have hl := List.mem_of_getElem? hl
      simp only [exStarComp, Composition.layersOf, List.mem_singleton] at hl
      subst hl
      rcases h with ⟨_, h, _⟩ | ⟨_, _, _, h, _⟩ <;> cases h

/-- Without the condition on stars the claim is false: a star with 10^20 points panics. -/
theorem C29_star_counterexample : (exStarComp (F := F64) (lit (10 ^ 20))).PathsStartWithMove ∧
    Renderer.append 2 Renderer.new (exStarComp (F := F64) (lit (10 ^ 20))) (lit 1)
      Affine.identity (lit 1) = .error (.panic .starCapacity) := by
  constructor
  · intro l hl p hp
    simp only [exStarComp, Composition.allLayers, List.flatMap_nil, List.append_nil,
      List.mem_singleton] at hl
    subst hl
    simp only [exLayer, Layer.geometries, geometriesOf, Shape.geometries, List.append_nil,
      List.singleton_append, List.mem_cons, Geometry.fixed.injEq, reduceCtorEq,
      List.not_mem_nil, or_false] at hp
    subst hp
    rfl
  · apply eq_error_of_fault
    kernel_decide

end
end Velato
