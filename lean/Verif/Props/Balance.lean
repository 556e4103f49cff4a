import Verif.Proofs.LayerSets
import Verif.Spec.Examples

/-!
# C27, C28, C30, C31 — the calls of one `append`
-/

namespace Velato
open FloatOps (lit)

section
variable {F : Type} [FloatOps F] [Libm F] [Kurbo F]

/-! ## C27 -/

/-- **C27.** The calls made by one `append`, whatever the composition, frame, transform and alpha,
are balanced and properly nested. -/
theorem C27_balanced {c : Composition F} {fr : F} {T : Affine F} {a : F} {r r' : Renderer F}
    (hr : Reachable r) {ops : List (Op F)} (h : AppendCalls r c fr T a r' ops) :
    Balanced ops := by
  obtain ⟨-, per, hper, rfl⟩ := (appendCalls_iff hr.idle).mp h
  unfold Balanced
  rw [nest_append, nest_append]
  show ((nest [.layer] per.flatten).bind _) = _
  rw [nest_flatten fun ops hops st => by
    obtain ⟨p, -, h'⟩ := forall₂_right hper hops
    exact h'.nest st]
  rfl

/-! ## C28 -/

/-- **C28.** The first call is a clip with the caller's transform and the rectangle
`(0, 0, width, height)`, the last call is a pop, and it is the pop of that clip because what is in
between is balanced by itself. -/
theorem C28_clip {c : Composition F} {fr : F} {T : Affine F} {a : F} {r r' : Renderer F}
    (hr : Reachable r) {ops : List (Op F)} (h : AppendCalls r c fr T a r' ops) :
    ∃ mid, ops = Op.pushClip T (.rect (lit 0) (lit 0) (FloatOps.ofUsize c.width)
        (FloatOps.ofUsize c.height)) :: mid ++ [Op.pop] ∧ Balanced mid := by
  obtain ⟨-, per, hper, rfl⟩ := (appendCalls_iff hr.idle).mp h
  exact ⟨per.flatten, rfl, nest_flatten (fun ops hops st => by
    obtain ⟨p, -, h'⟩ := forall₂_right hper hops
    exact h'.nest st) []⟩

/-! ## C30 -/

/-- **C30.** Whatever was rendered before with the renderer, an append does exactly what it does
with a new one: same calls, same final state, same panics, same non-termination. -/
theorem C30_reuse {r : Renderer F} (h : Reachable r) (fuel : Nat) (c : Composition F) (fr : F)
    (T : Affine F) (a : F) :
    Renderer.append fuel r c fr T a = Renderer.append fuel Renderer.new c fr T a := by
  rw [append_idle fuel r h.idle, append_idle fuel Renderer.new rfl]

/-- **C30.** A sequence of appends with one renderer makes the calls that fresh renderers make. -/
theorem C30_sequence {r r' : Renderer F} (h : Reachable r) {c : Composition F} {fr : F}
    {T : Affine F} {a : F} {ops} :
    AppendCalls r c fr T a r' ops ↔ AppendCalls Renderer.new c fr T a r' ops := by
  unfold AppendCalls
  simp only [C30_reuse h]

/-! ## C31 -/

/-- **C31.** A layer makes no sink call at a frame outside its range. -/
theorem C31_layer {c : Composition F} {ls : List (Layer F)} {l : Layer F} {fr : F}
    (h : ¬ ((l.frames.start <=. fr) = true ∧ (fr <. l.frames.stop) = true)) {ix : Nat}
    {T : Affine F} {a : F} {ops} : LayerCalls c ls l ix T a fr ops ↔ ops = [] := by
  have hc : l.frames.contains fr = false := by
    unfold FRange.contains
    rw [← Bool.not_eq_true, Bool.and_eq_true]
    exact h
  rw [layerCalls_cases, hc]
  simp

/-- **C31.** At a frame outside every layer's range an append pushes and pops the clip, and that
is all. -/
theorem C31_append {c : Composition F} {fr : F}
    (h : ∀ l ∈ c.layers, ¬ ((l.frames.start <=. fr) = true ∧ (fr <. l.frames.stop) = true))
    {r r' : Renderer F} (hr : Reachable r) {T : Affine F} {a : F} {ops} :
    AppendCalls r c fr T a r' ops ↔ r' = Renderer.new ∧ ops = [Op.pushClip T
      (.rect (lit 0) (lit 0) (FloatOps.ofUsize c.width) (FloatOps.ofUsize c.height)), Op.pop] := by
  rw [appendCalls_iff hr.idle]
  have hl : ∀ p ∈ c.layers.zipIdx.reverse.filter (fun p => !p.1.isMask), ∀ os,
      LayerCalls c c.layers p.1 p.2 T a fr os ↔ os = [] := by
    intro p hp os
    rw [List.mem_filter, List.mem_reverse] at hp
    exact C31_layer (h p.1 (List.fst_mem_of_mem_zipIdx hp.1))
  generalize c.layers.zipIdx.reverse.filter (fun p => !p.1.isMask) = ps at hl ⊢
  constructor
  · rintro ⟨hr', per, hper, rfl⟩
    refine ⟨hr', ?_⟩
    suffices per.flatten = [] by rw [this]; rfl
    clear hr'
    induction hper with
    | nil => rfl
    | cons hx _ ih =>
      rw [List.flatten_cons, (hl _ (by simp) _).mp hx, List.nil_append]
      exact ih fun p hp => hl p (by simp [hp])
  · rintro ⟨hr', rfl⟩
    refine ⟨hr', ps.map fun _ => [], ?_, ?_⟩
    · clear hr'
      induction ps with
      | nil => exact .nil
      | cons p ps ih => exact .cons ((hl p (by simp) []).mpr rfl) (ih fun p hp => hl p (by simp [hp]))
    · have : (ps.map fun _ => ([] : List (Op F))).flatten = [] := by
        clear hr' hl
        induction ps with
        | nil => rfl
        | cons _ _ ih => simp
      rw [this]; rfl

end

/-- **C31.** A NaN frame is outside every range. -/
theorem C31_nan [Libm F64] [Kurbo F64] {c : Composition F64} {r r' : Renderer F64}
    (hr : Reachable r) {T : Affine F64} {a : F64} {ops} :
    AppendCalls r c F64.nan T a r' ops ↔ r' = Renderer.new ∧ ops = [Op.pushClip T
      (.rect (lit 0) (lit 0) (FloatOps.ofUsize c.width) (FloatOps.ofUsize c.height)), Op.pop] :=
  C31_append (fun l _ h => by
    have : (F64.nan <. l.frames.stop) = false := by cases l.frames.stop <;> rfl
    rw [this] at h
    exact absurd h.2 (by decide)) hr

section
variable [Libm F64] [Kurbo F64]

/-- The hypotheses of `C27_balanced` and `C28_clip` are met by a composition with an asset instance,
a mask and a matte (see `exComp_renders` for the calls). -/
example : ∃ r' ops, Reachable (F := F64) Renderer.new ∧
    AppendCalls (F := F64) Renderer.new exComp (lit 1) Affine.identity (lit 1) r' ops ∧
    ops.length = 25 := by
  obtain ⟨r', ops, h, ht⟩ := exComp_renders
  exact ⟨r', ops, .new, h, by simpa using congrArg List.length ht⟩

/-- A renderer that has rendered something is reachable (`C30_reuse`). -/
example : ∃ r', Reachable (F := F64) r' ∧ ∃ ops,
    AppendCalls (F := F64) Renderer.new exComp (lit 1) Affine.identity (lit 1) r' ops := by
  obtain ⟨r', ops, h, -⟩ := exComp_renders
  exact ⟨r', .append .new h, ops, h⟩

/-- Frame 10 is outside the ranges of the example's layers (`C31_append`). -/
example : ∀ l ∈ (exComp (F := F64)).layers,
    ¬ ((l.frames.start <=. lit 10) = true ∧ ((lit 10 : F64) <. l.frames.stop) = true) := by
  decide +kernel

end

end Velato
