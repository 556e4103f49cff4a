import Verif.Proofs.Finish
import Verif.Props.ImportedRender
import Verif.Props.DocDraws
import Verif.Proofs.DocShows

/-!
# C118 — exactly when rendering returns
-/

namespace Velato
open FloatOps (lit)
open Import

section
variable {F : Type} [FloatOps F] [Libm F] [Kurbo F]

/-- **C118.** A composition whose paths and stars do not panic (C29): rendering it at a frame returns if
and only if there is no endless chain of layers at this frame. -/
theorem C118_returns [KurboPaths F] {c : Composition F} (hp : c.PathsStartWithMove) (hs : c.StarsFit)
    {r : Renderer F} (hr : Reachable r) (fr : F) (T : Affine F) (a : F) :
    (∃ r' ops, AppendCalls r c fr T a r' ops) ↔ ¬ Endless c fr := by
  constructor
  · rintro ⟨r', ops, h⟩ he
    obtain ⟨i, l, hl, hm, hacc⟩ := endless_iff.mp he
    obtain ⟨-, per, hper, -⟩ := (C33_painters_order hr).mp h
    obtain ⟨h1, e1⟩ := List.getElem?_eq_some_iff.mp hl
    obtain ⟨ops, hops⟩ := forall₂_left hper (x := (l, i)) (by
      rw [List.mem_zipIdx_iff_getElem?]
      exact hl)
    rw [if_neg (by rw [hm]; decide)] at hops
    exact hacc (acc_of_calls hops none i rfl hl)
  · intro h
    obtain ⟨n, hn⟩ := appendOps_ends h T a
    cases hx : Renderer.append n r c fr T a with
    | ok p => exact ⟨p.1, p.2, n, hx⟩
    | error e =>
      cases e with
      | fuel =>
        rw [append_idle n r hr.idle] at hx
        exact absurd hx (NoFuel.map hn)
      | panic site => exact absurd hx (C29_no_panic hp hs hr n fr T a site)

/-- **C118.** If there is such a chain, no depth of recursion suffices. -/
theorem C118_overflows [KurboPaths F] {c : Composition F} (hp : c.PathsStartWithMove)
    (hs : c.StarsFit) {r : Renderer F} (hr : Reachable r) {fr : F} (h : Endless c fr) (T : Affine F)
    (a : F) (depth : Nat) : Renderer.append depth r c fr T a = .error .fuel := by
  cases hx : Renderer.append depth r c fr T a with
  | ok p => exact absurd h ((C118_returns hp hs hr fr T a).mp ⟨p.1, p.2, depth, hx⟩)
  | error e =>
    cases e with
    | fuel => rfl
    | panic site => exact absurd hx (C29_no_panic hp hs hr depth fr T a site)

end

section
variable {F : Type} [FloatOps F] [Libm F] [Kurbo F]

/-- **C118.** Rendering an imported document, the numbers of points of whose stars are bounded and not
animated, returns at a frame if and only if the document has no endless chain of layers at this frame. -/
theorem C118_document [KurboPaths F] {doc : Schema.Animation F} {c : Composition F}
    (h : convAnimation doc = .ok c)
    (hst : ∀ t, doc.HasStar t → ∃ x, t.points.value = .static x ∧
      FloatOps.toUsize (FloatOps.round x) ≤ 2 ^ 56)
    {r : Renderer F} (hr : Reachable r) (fr : F) (T : Affine F) (a : F) :
    (∃ r' ops, AppendCalls r c fr T a r' ops) ↔ ¬ EndlessDocument doc fr := by
  rw [← endless_document h]
  refine C118_returns (imported_paths h) (fun l hl s hs fr => ?_) hr fr T a
  obtain ⟨t, ht, hof⟩ := imported_star h hl hs
  obtain ⟨x, hx, hle⟩ := hst t ht
  have hp := hof.points
  unfold ScalarOf at hp
  rw [hx] at hp
  unfold AnimStar.pointCount
  rw [hp]
  exact hle

/-- **C118.** An imported document stands for calls at a frame if and only if it
has no endless chain of layers at this frame. -/
theorem C118_drawn [LawfulCmp F] [KurboPaths F] {doc : Schema.Animation F} {c : Composition F}
    (h : convAnimation doc = .ok c)
    (hst : ∀ t, doc.HasStar t → ∃ x, t.points.value = .static x ∧
      FloatOps.toUsize (FloatOps.round x) ≤ 2 ^ 56) (fr : F) (T : Affine F) (a : F) :
    (∃ ops, DocumentDrawn doc T a fr ops) ↔ ¬ EndlessDocument doc fr := by
  rw [← C118_document h hst Reachable.new fr T a]
  constructor
  · rintro ⟨ops, hops⟩
    exact ⟨_, ops, C117_drawn h .new hops⟩
  · rintro ⟨r', ops, hops⟩
    exact ⟨ops, ((C117_calls h .new).mp hops).2⟩

end

/-! ## A precomposition that shows itself -/

/-- A layer from frame 0 to 10 that shows the precomposition "r", which starts at the given frame. -/
def exTunnelLayer {F : Type} [FloatOps F] (start : F) : Schema.AnyLayer F :=
  .precomposition ⟨exVisual "tunnel" none, "r", lit 20, lit 30, start, none⟩

/-- A document that shows the precomposition "r", and so does "r". -/
def exTunnel {F : Type} [FloatOps F] (start : F) : Schema.Animation F :=
  { (exDoc : Schema.Animation F) with
    layers := [exTunnelLayer start]
    assets := some [.precomposition ⟨⟨"r", ⟨none, none⟩⟩, [exTunnelLayer start], none, none⟩] }

theorem exTunnel_layers (start : ℝ) {k : Option String} {i : Nat} {s : Schema.AnyLayer ℝ}
    (h : ((exTunnel start).layersOf k)[i]? = some s) : s = exTunnelLayer start := by
  have hm := List.mem_of_getElem? h
  cases k with
  | none => exact List.mem_singleton.mp hm
  | some n =>
    by_cases hn : "r" = n
    · subst hn
      exact List.mem_singleton.mp hm
    · simp [Schema.Animation.layersOf, Schema.Animation.lastAsset, exTunnel,
        Schema.Animation.assetList, Schema.AnyAsset.name, hn] at hm

theorem exTunnel_needs {start : ℝ} {x y : Visit ℝ} (h : DocNeeds (exTunnel start) x y) :
    0 ≤ x.frame ∧ x.frame < 10 ∧ y.frame = x.frame - start := by
  cases h with
  | matte hl hin hm =>
    cases exTunnel_layers start hl
    cases matteOf_unique hm (.without rfl)
  | @asset k i fr q j l' hl hin hv hj hn =>
    have := exTunnel_layers start hl
    cases this
    obtain ⟨h1, h2⟩ := hin
    change (lit 0 <=. fr) = true at h1
    change (fr <. lit 10) = true at h2
    refine ⟨by simpa using h1, by simpa using h2, ?_⟩
    rw [time_real]
    show (fr - start) / (none : Option ℝ).getD 1 = fr - start
    simp

/-- If "r" starts at frame 5 in itself, the chain ends: frame 7, then frame 2, then nothing. -/
theorem exTunnel_ends : ¬ EndlessDocument (exTunnel (5 : ℝ)) 7 := by
  rintro ⟨s, -, h0, -, hs⟩
  have e0 := exTunnel_needs (hs 0)
  have e1 := exTunnel_needs (hs 1)
  have e2 := exTunnel_needs (hs 2)
  simp only [Nat.zero_add, Nat.reduceAdd] at e0 e1 e2
  linarith [e0.2.2, e1.2.2, e2.1]

/-- If it starts at frame 0 in itself, there is no end. -/
theorem exTunnel_endless : EndlessDocument (exTunnel (0 : ℝ)) 7 := by
  have hin : (exTunnelLayer (0 : ℝ)).During 7 := by
    refine ⟨?_, ?_⟩
    · show ((lit 0 : ℝ) <=. 7) = true
      simp
    · show ((7 : ℝ) <. lit 10) = true
      simp
      norm_num
  have hv : ¬ (exTunnelLayer (0 : ℝ)).Hidden := by
    intro h
    cases h
  have hm : ¬ (exTunnelLayer (0 : ℝ)).Matte := by
    rintro ⟨-, h⟩
    cases h
  have ht : (7 - (0 : ℝ)) / (none : Option ℝ).getD 1 = 7 := by simp
  have step : ∀ k, k = none ∨ k = some "r" → DocNeeds (exTunnel (0 : ℝ)) ⟨k, 0, 7⟩ ⟨some "r", 0, 7⟩ := by
    intro k hk
    have := DocNeeds.asset (a := exTunnel (0 : ℝ)) (k := k) (i := 0) (fr := 7)
      (q := ⟨exVisual "tunnel" none, "r", lit 20, lit 30, 0, none⟩) (j := 0)
      (l' := exTunnelLayer 0) (by rcases hk with rfl | rfl <;> rfl) hin hv rfl hm
    rw [time_real] at this
    change DocNeeds _ _ ⟨some "r", 0, (7 - (0 : ℝ)) / (none : Option ℝ).getD 1⟩ at this
    rw [ht] at this
    exact this
  refine ⟨fun n => ⟨if n = 0 then none else some "r", 0, 7⟩, rfl, rfl, ⟨_, rfl, hm⟩, fun n => ?_⟩
  show DocNeeds _ ⟨_, 0, 7⟩ ⟨if n + 1 = 0 then none else some "r", 0, 7⟩
  rw [if_neg (Nat.succ_ne_zero n)]
  refine step _ ?_
  by_cases hn : n = 0
  · exact .inl (if_pos hn)
  · exact .inr (if_neg hn)

theorem exTunnel_imported [Kurbo ℝ] (start : ℝ) : ∃ c, convAnimation (exTunnel start) = .ok c :=
  ⟨_, rfl⟩

theorem exTunnel_stars (start : ℝ) (t) : ¬ (exTunnel start).HasStar t := by
  rintro ⟨l, hl, q, rfl, -⟩
  simp [exTunnel, exTunnelLayer, Schema.Animation.allLayers, Schema.Animation.assetList] at hl

/-- The hypotheses are met, and what the theorem says: with a shift the recursion ends, without it does
not. -/
example [Kurbo ℝ] [KurboPaths ℝ] (T : Affine ℝ) (a : ℝ) :
    (∃ c, convAnimation (exTunnel (5 : ℝ)) = .ok c ∧
      ∃ r' ops, AppendCalls Renderer.new c 7 T a r' ops) ∧
    ∃ c, convAnimation (exTunnel (0 : ℝ)) = .ok c ∧
      ¬ ∃ r' ops, AppendCalls Renderer.new c 7 T a r' ops := by
  obtain ⟨c, hc⟩ := exTunnel_imported 5
  obtain ⟨c', hc'⟩ := exTunnel_imported 0
  exact ⟨⟨c, hc, (C118_document hc (fun t ht => (exTunnel_stars _ t ht).elim) .new 7 T a).mpr
    exTunnel_ends⟩, c', hc', fun h => (C118_document hc' (fun t ht => (exTunnel_stars _ t ht).elim)
    .new 7 T a).mp h exTunnel_endless⟩

end Velato
