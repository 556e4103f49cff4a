import Verif.Proofs.Termination
import Verif.Spec.Examples
import Verif.Num.Real

/-!
# C36 — termination of rendering
-/

namespace Velato
open FloatOps (lit)

section
variable {F : Type} [FloatOps F] [Libm F] [Kurbo F]

/-- **C36** for compositions without reference cycles: rendering terminates (returns or panics) at
every frame, with every transform and alpha, on every renderer.  *Missing: compositions with
cycles*, for which it is false (`C36_self_matte`, `C36_self_instance`). -/
theorem C36_terminates_partial {c : Composition F} (h : NoReferenceCycles c) {r : Renderer F}
    (hr : Reachable r) (fr : F) (T : Affine F) (a : F) :
    ∃ fuel, Renderer.append fuel r c fr T a ≠ .error .fuel := by
  obtain ⟨n, hn⟩ := appendOps_terminates h fr T a
  refine ⟨n, ?_⟩
  rw [append_idle n r hr.idle]
  exact NoFuel.map hn

omit [FloatOps F] [Libm F] [Kurbo F] in
/-- A way to check the hypothesis of `C36_terminates_partial`: a rank that decreases along every
reference. -/
theorem NoReferenceCycles.of_rank {c : Composition F} (rank : Option String × Nat → Nat)
    (h : ∀ x y, Refers c x y → rank y < rank x) : NoReferenceCycles c :=
  Subrelation.wf (r := fun y x => rank y < rank x) (fun hxy => h _ _ hxy)
    (InvImage.wf rank Nat.lt_wfRel.wf)

/-- The example has references (an instance and a matte) but no cycle. -/
theorem exComp_noCycles : NoReferenceCycles (exComp (F := F64)) := by
  refine NoReferenceCycles.of_rank
    (fun x => if x.1 = some "b" then 0 else if x.1 = none then (if x.2 = 3 then 0 else 1) else 0) ?_
  rintro ⟨k, i⟩ ⟨k', j⟩ ⟨l, hl, h⟩
  cases k with
  | some name =>
    exfalso
    by_cases hb : name = "b"
    · subst hb
      have : (exComp (F := F64)).layersOf (some "b") = [exShapeLayer "x", exShapeLayer "y"] := by
        rfl
      rw [this] at hl
      have hl := List.mem_of_getElem? hl
      simp only [List.mem_cons, List.not_mem_nil, or_false] at hl
      rcases hl with rfl | rfl <;> rcases h with ⟨_, h, _⟩ | ⟨_, _, _, h, _⟩ <;> cases h
    · have : (exComp (F := F64)).layersOf (some name) = [] := by
        simp [Composition.layersOf, Composition.asset, exComp, Ne.symm hb]
      rw [this] at hl
      cases hl
  | none =>
    have hl : (exComp (F := F64)).layers[i]? = some l := hl
    rcases i with _ | _ | _ | _ | i
    · cases hl
      rcases h with ⟨_, h, _⟩ | ⟨name, tr, l', h, h2, _⟩
      · cases h
      · cases h
        cases h2
        simp
    · cases hl
      rcases h with ⟨_, h, _⟩ | ⟨name, tr, l', h, h2, _⟩ <;> cases h
    · cases hl
      rcases h with ⟨_, h, h2⟩ | ⟨name, tr, l', h, h2, _⟩
      · cases h
        cases h2
        simp
      · cases h
    · cases hl
      rcases h with ⟨_, h, _⟩ | ⟨name, tr, l', h, h2, _⟩ <;> cases h
    · cases hl

/-- **C36 is false** for a layer that is its own matte: no recursion depth suffices. -/
theorem C36_self_matte {c : Composition F} {ls : List (Layer F)} {l : Layer F} {mode : BlendMode}
    {j : Nat} (hm : l.maskLayer = some (mode, j)) (hj : ls[j]? = some l) {fr : F}
    (hin : l.frames.contains fr = true) :
    ∀ (fuel ix : Nat) (T : Affine F) (a : F),
      renderLayer c fuel ls l ix T a fr Renderer.new = .error .fuel := by
  have : ∀ (fuel ix : Nat) (T : Affine F) (a : F), layerOps c fuel ls l ix T a fr = .error .fuel := by
    intro fuel
    induction fuel with
    | zero => intros; rfl
    | succ n ih =>
      intro ix T a
      change layerBody c (layerOps c n) ls l ix T a fr = _
      unfold layerBody matteOps
      rw [if_neg (by rw [hin]; decide), hm]
      dsimp only
      rw [hj]
      dsimp only
      rw [ih]
      rfl
  intro fuel ix T a
  rw [renderLayer_idle, this]
  rfl

/-- **C36 is false** for an asset that contains an instance of itself which is visible at all
frames (stretch 1, start 0 and an unbounded frame range would do; here for any layer that stays
visible under its own time mapping). -/
theorem C36_self_instance {c : Composition F} {l : Layer F} {name : String}
    {tr : Option (Value F F)} (hl : l.content = .instance name tr) (ha : c.asset name = some [l])
    (hm : l.maskLayer = none) (hms : l.masks = []) (hmask : l.isMask = false)
    (hin : ∀ fr, l.frames.contains fr = true →
      l.frames.contains (fr /. l.stretch +. FloatOps.neg l.startFrame /. l.stretch) = true) :
    ∀ (fuel : Nat) (ls : List (Layer F)) (ix : Nat) (T : Affine F) (a fr : F),
      l.frames.contains fr = true →
      renderLayer c fuel ls l ix T a fr Renderer.new = .error .fuel := by
  have : ∀ (fuel : Nat) (ls : List (Layer F)) (ix : Nat) (T : Affine F) (a fr : F),
      l.frames.contains fr = true → layerOps c fuel ls l ix T a fr = .error .fuel := by
    intro fuel
    induction fuel with
    | zero => intros; rfl
    | succ n ih =>
      intro ls ix T a fr hf
      change layerBody c (layerOps c n) ls l ix T a fr = _
      unfold layerBody matteOps contentOps
      rw [if_neg (by rw [hf]; decide), hm, hms, hl]
      dsimp only
      have hfl : ([l].reverse.filter (fun l => !l.isMask)) = [l] := by simp [hmask]
      rw [ha]
      dsimp only
      rw [hfl, mapM_cons', ih _ _ _ _ _ (hin fr hf)]
      rfl
  intro fuel ls ix T a fr hf
  rw [renderLayer_idle, this _ _ _ _ _ _ hf]
  rfl

/-- The hypotheses of `C36_self_instance` are met (exact arithmetic). -/
example : ∃ (c : Composition ℝ) (l : Layer ℝ), l.content = .instance "b" none ∧
    c.asset "b" = some [l] ∧ l.maskLayer = none ∧ l.masks = [] ∧ l.isMask = false ∧
    l.frames.contains (5 : ℝ) = true ∧
    ∀ fr : ℝ, l.frames.contains fr = true →
      l.frames.contains (fr /. l.stretch +. FloatOps.neg l.startFrame /. l.stretch) = true := by
  refine ⟨{ exComp with assets := [("b", [exLayer "i" (.instance "b" none)])] },
    exLayer "i" (.instance "b" none), rfl, rfl, rfl, rfl, rfl, ?_, fun fr h => ?_⟩
  · simp only [exLayer, FRange.contains, real_lit, real_le, real_lt]
    norm_num
  · have : fr /. (exLayer (F := ℝ) "i" (.instance "b" none)).stretch
        +. FloatOps.neg (exLayer (F := ℝ) "i" (.instance "b" none)).startFrame
          /. (exLayer (F := ℝ) "i" (.instance "b" none)).stretch = fr := by
      simp only [exLayer, real_add, real_div, real_neg, real_lit]
      push_cast
      ring
    rw [this]
    exact h

/-- A composition whose only layer is its own matte (as the document `"tt": 1, "tp": 0` on a layer
with index 0 imports). -/
def exSelfMatte : Composition F :=
  { exComp with layers := [{ exShapeLayer "s" with maskLayer := some (BlendMode.ofCompose .srcIn, 0) }] }

/-- **C36 is false**: rendering this composition does not terminate. -/
theorem C36_counterexample [Libm F64] [Kurbo F64] (fuel : Nat) (T : Affine F64) (a : F64) :
    Renderer.append (F := F64) fuel Renderer.new exSelfMatte (lit 1) T a = .error .fuel := by
  have h := C36_self_matte (c := exSelfMatte (F := F64)) (ls := exSelfMatte.layers)
    (l := { exShapeLayer "s" with maskLayer := some (BlendMode.ofCompose .srcIn, 0) })
    (fr := (lit 1 : F64)) rfl rfl (by decide +kernel) fuel 0 T a
  unfold Renderer.append
  show (renderSeq _ [_] Renderer.new >>= _) = _
  rw [renderSeq]
  dsimp only
  rw [h]
  rfl

end
end Velato
