import Verif.Proofs.ParsedPaths
import Verif.Proofs.RoundTripDoc
import Verif.Proofs.ImportSites
import Verif.Proofs.JsonKeys
import Verif.Spec.ExampleJson
import Verif.Num.KernelDecide

/-!
# C52, C58, C59 — parsing
-/

namespace Velato
open Schema Decode Encode

section
variable {F : Type} [FloatOps F]

/-! ### C52 -/

/-- **C52.** In a parsed document every keyframe of every path, in masks and in shapes at any depth,
has a start shape, except that the last of at least two keyframes may lack it. -/
theorem C52_accepted {j : Json F} {a : Animation F} (h : jAnimation j = some a)
    {p : ShapeProperty F} (hp : a.HasPath p) {ks : List (ShapeKeyframe F)}
    (hk : p.value = .animated ks) (i : Nat) (hi : i < ks.length) (hn : ks[i].start = none) :
    0 < i ∧ i + 1 = ks.length :=
  parsed_animation h hp ks hk i hi hn

/-- **C52.** The parser rejects no other keyframe array: one whose elements parse is accepted
exactly when the start shapes are given. -/
theorem C52_exact {j : Json F} {ks : List (ShapeKeyframe F)} (h : jVec jShapeKeyframe j = some ks) :
    jShapeKeyframes j = some ks ↔
      ∀ (i : Nat) (hi : i < ks.length), ks[i].start = none → 0 < i ∧ i + 1 = ks.length := by
  rw [show jShapeKeyframes j = if keyframesOk ks then some ks else none by
    unfold jShapeKeyframes; rw [h]]
  refine Iff.trans ?_ (keyframesOk_iff ks)
  cases keyframesOk ks <;> simp

/-- **C52.** Importing a parsed document does not underflow the keyframe index: if it panics, it
does so at one of the other places. -/
theorem C52_import [Kurbo F] [Libm F] {j : Json F} {e : Fault}
    (h : fromJson j = some (.error e)) :
    e ∈ [PanicSite.unsupportedAsset, .unknownBlendMode, .missingRotation, .splitRotation,
      .splitPosition, .emptyKeyframe, .handleArray, .starCapacity].map Fault.panic := by
  obtain ⟨a, ha, h⟩ := Option.map_eq_some_iff.1 h
  obtain ⟨s, rfl, hs⟩ := animation_sites (A := (· ∈ otherSites)) (fun _ h => h) a
    (fun p hp k ks hv hk =>
      absurd (parsed_animation ha hp _ hv 0 (by simp) hk).1 (Nat.lt_irrefl 0)) e h
  exact List.mem_map_of_mem hs

/-- **C52.** Without the check the index would underflow: that is what happens to every animated
path whose first keyframe has no start shape (and parsable handles). -/
theorem C52_check_needed {p : ShapeProperty F} {k : ShapeKeyframe F} {ks : List (ShapeKeyframe F)}
    (hv : p.value = .animated (k :: ks)) (hs : k.start = none) {t : Time F}
    (ht : Import.convTime k.base = .ok t) :
    Import.convShapeGeometry p = .error (.panic .underflow) := by
  unfold Import.convShapeGeometry Import.splineLoop Import.startBezier
  simp only [hv, ht, hs]
  rfl

/-- A document with an animated path in a group whose last keyframe has no start shape is parsed;
with a single such keyframe, or one in the middle, it is not. -/
example :
    (jAnimation (F := F) (jsonDoc [jsonLayer (jsonInt 4) [("shapes",
      .arr [jsonGroup [jsonPath [jsonKeyframe 0, jsonKeyframe 9, jsonBare 20]]])]] [])).isSome = true ∧
    (jAnimation (F := F) (jsonDoc [jsonLayer (jsonInt 4) [("shapes",
      .arr [jsonGroup [jsonPath [jsonBare 20]]])]] [])).isSome = false ∧
    (jAnimation (F := F) (jsonDoc [jsonLayer (jsonInt 4) [("shapes",
      .arr [jsonGroup [jsonPath [jsonKeyframe 0, jsonBare 9, jsonKeyframe 20]]])]] [])).isSome
        = false := by
  refine ⟨?_, ?_, ?_⟩ <;> kernel_decide

/-! ### C58 -/

/-- **C58.** The kind of a parsed layer is the one its `ty` names. -/
theorem C58_layer_type {j : Json F} {l : AnyLayer F} (h : jLayer j = some l) :
    j.At "ty" (.num (.posInt l.typeCode)) := by
  cases j with
  | obj es =>
    unfold jLayer objOnly at h
    dsimp only at h
    split at h
    all_goals first
      | (obtain ⟨v, -, rfl⟩ := Option.map_eq_some_iff.1 h
         exact lookup_at.1 (by assumption))
      | exact nomatch h
  | _ => exact nomatch h

/-- **C58.** A value whose `ty` is not one of the integers 0 to 4, or that has no `ty`, or is not an
object, is no layer. -/
theorem C58_layer_rejected {j : Json F} (h : ∀ n ≤ 4, ¬ j.At "ty" (.num (.posInt n))) :
    jLayer j = none := by
  cases hl : jLayer j with
  | none => rfl
  | some l => exact absurd (C58_layer_type hl) (h _ (by cases l <;> simp [AnyLayer.typeCode]))

/-- Every type from 0 to 4 is that of some layer; 5, -0.0, strings and a missing type are not. -/
example :
    (jLayer (F := F) (jsonLayer (jsonInt 0) [("refId", .str "a"), ("w", jsonInt 1),
      ("h", jsonInt 1), ("st", jsonInt 0)])).map AnyLayer.typeCode = some 0 ∧
    (jLayer (F := F) (jsonLayer (jsonInt 1) [("sw", jsonInt 1), ("sh", jsonInt 1),
      ("sc", .str "#fff")])).map AnyLayer.typeCode = some 1 ∧
    (jLayer (F := F) (jsonLayer (jsonInt 2) [("refId", .str "a")])).map AnyLayer.typeCode = some 2 ∧
    (jLayer (F := F) (jsonLayer (jsonInt 3) [])).map AnyLayer.typeCode = some 3 ∧
    (jLayer (F := F) (jsonLayer (jsonInt 4) [("shapes", .arr [])])).map AnyLayer.typeCode
      = some 4 ∧
    (jLayer (F := F) (jsonLayer (jsonInt 5) [])).isSome = false ∧
    (jLayer (F := F) (jsonLayer (.str "3") [])).isSome = false ∧
    (jLayer (F := F) (.obj [("ip", jsonInt 0), ("op", jsonInt 60), ("ks", jsonKs)])).isSome
      = false := by
  refine ⟨?_, ?_, ?_, ?_, ?_, ?_, ?_, ?_⟩ <;> kernel_decide

/-- **C58.** A parsed asset is a precomposition exactly when the object has the key `layers`. -/
theorem C58_asset_layers {j : Json F} {a : AnyAsset F} (h : jAsset j = some a) :
    (∃ p, a = .precomposition p) ↔ j.HasKey "layers" := by
  cases j with
  | obj es =>
    rw [← lookup_isSome]
    unfold jAsset objOnly at h
    dsimp only at h
    split at h
    · obtain ⟨v, -, rfl⟩ := Option.map_eq_some_iff.1 h
      exact iff_of_true ⟨v, rfl⟩ (by assumption)
    · rename_i hn
      have : ∃ i, a = .image i := by
        split at h
        · exact nomatch h
        · split at h
          · obtain ⟨v, -, rfl⟩ := Option.map_eq_some_iff.1 h
            exact ⟨v, rfl⟩
          · exact nomatch h
      obtain ⟨i, rfl⟩ := this
      exact iff_of_false (fun h => nomatch h.choose_spec) hn
  | _ => exact nomatch h

/-- **C58.** Without `layers`, an asset of type 3 is rejected. -/
theorem C58_asset_type {j : Json F} (hl : ¬ j.HasKey "layers") (ht : j.At "t" (.num (.posInt 3))) :
    jAsset j = none := by
  cases j with
  | obj es =>
    rw [← lookup_isSome] at hl
    rw [← lookup_at] at ht
    simp [jAsset, objOnly, hl, ht]
  | _ => rfl

/-- **C58.** Without `layers`, an asset with neither a width nor a height is rejected. -/
theorem C58_asset_size {j : Json F} (hl : ¬ j.HasKey "layers") (hw : ¬ j.HasKey "w")
    (hh : ¬ j.HasKey "h") : jAsset j = none := by
  cases j with
  | obj es =>
    rw [← lookup_isSome] at hl hw hh
    simp only [jAsset, objOnly, hl, hw, hh, Bool.or_self, Bool.false_eq_true, if_false]
    split <;> rfl
  | _ => rfl

/-- Assets that are accepted, and one for each reason of rejection. -/
example :
    (jAsset (F := F) (.obj [("id", .str "a"), ("layers", .arr []), ("t", jsonInt 3)])).isSome
      = true ∧
    (jAsset (F := F) (jsonImage [("h", jsonInt 8)])).isSome = true ∧
    (jAsset (F := F) (jsonImage [("h", jsonInt 8), ("t", jsonInt 3)])).isSome = false ∧
    (jAsset (F := F) (jsonImage [])).isSome = false := by
  refine ⟨?_, ?_, ?_, ?_⟩ <;> kernel_decide

/-! ### C59 -/

/-- **C59.** A parsed animation is read back unchanged from what is written, provided that every
image asset has a width or a height. -/
theorem C59_round_trip_partial {j : Json F} {a : Animation F} (h : jAnimation j = some a)
    (hs : ∀ i, AnyAsset.image i ∈ a.assetList → i.width ≠ none ∨ i.height ≠ none) :
    jAnimation (wAnimation a) = some a := by
  obtain ⟨es, -, hd⟩ := Option.bind_eq_some_iff.1 h
  have hsz : SizedAssets a.assets := fun as has i hi => hs i (by
    unfold Animation.assetList; rw [has]; exact hi)
  rw [jAnimation_w]
  exact rt_dAnimation (es' := eAnimation a) hd (fun _ _ => rfl) hsz

/-- **C59.** The proviso cannot be dropped: an animation with an image asset that has neither is
not read back at all. -/
theorem C59_unsized {a : Animation F} {i : ImageAsset F} (hi : AnyAsset.image i ∈ a.assetList)
    (hw : i.width = none) (hh : i.height = none) : jAnimation (wAnimation a) = none :=
  rt_unsized hi hw hh

/-- **C59** is false as stated: the size may be given as `null`. -/
theorem C59_counterexample :
    ∃ a : Animation F, jAnimation (jsonDoc [] [jsonImage [("w", .null)]]) = some a ∧
      jAnimation (wAnimation a) = none := by
  have h : (jAnimation (F := F) (jsonDoc [] [jsonImage [("w", .null)]])).isSome = true := by
    kernel_decide
  obtain ⟨a, ha⟩ := Option.isSome_iff_exists.1 h
  have h2 : ((jAnimation (F := F) (jsonDoc [] [jsonImage [("w", .null)]])).bind fun a =>
      jAnimation (wAnimation a)).isSome = false := by kernel_decide
  rw [ha] at h2
  exact ⟨a, ha, by simpa using h2⟩

/-- A document with layers, nested shapes and a sized image is parsed. -/
example : ∃ a : Animation F, jAnimation (jsonDoc [jsonLayer (jsonInt 4) [("shapes",
      .arr [jsonGroup [jsonPath [jsonKeyframe 0, jsonBare 20]]])]] [jsonImage [("w", jsonInt 5)]])
        = some a ∧
    ∀ i, AnyAsset.image i ∈ a.assetList → i.width ≠ none ∨ i.height ≠ none := by
  have h : ((jAnimation (F := F) (jsonDoc [jsonLayer (jsonInt 4) [("shapes",
      .arr [jsonGroup [jsonPath [jsonKeyframe 0, jsonBare 20]]])]]
      [jsonImage [("w", jsonInt 5)]])).map fun a => a.assetList.all fun
        | .image i => i.width.isSome
        | _ => true) = some true := by kernel_decide
  obtain ⟨a, ha, h⟩ := Option.map_eq_some_iff.1 h
  refine ⟨a, ha, fun i hi => .inl fun hn => ?_⟩
  have := List.all_eq_true.1 h _ hi
  simp [hn] at this

end
end Velato
