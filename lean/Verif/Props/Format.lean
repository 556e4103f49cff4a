import Verif.Spec.FormatOf
import Verif.Proofs.Format
import Verif.Props.ImportLayers
import Verif.Props.LayerAttributes

/-!
# C78 — what is read from a document
-/

namespace Velato
open Schema Decode

section
variable {F : Type} [FloatOps F]

/-- **C78.** The parser reads from a JSON value exactly the animation that the value describes. -/
theorem C78_reads {j : Json F} {a : Animation F} : jAnimation j = some a ↔ Format.Document j a :=
  Format.document j a

/-- **C78.** A JSON value describes at most one animation. -/
theorem C78_unique {j : Json F} {a b : Animation F} (ha : Format.Document j a)
    (hb : Format.Document j b) : a = b :=
  Option.some.inj (((Format.document j a).2 ha).symm.trans ((Format.document j b).2 hb))

/-- **C78.** An animation that was read is written in the same format, provided its image assets
have a size. -/
theorem C78_writes {j : Json F} {a : Animation F} (h : Format.Document j a)
    (hs : ∀ i, AnyAsset.image i ∈ a.assetList → i.width ≠ none ∨ i.height ≠ none) :
    Format.Document (Encode.wAnimation a) a :=
  (Format.document _ a).1 (C59_round_trip_partial ((Format.document j a).2 h) hs)

variable [Kurbo F] [Libm F]

/-- **C78.** Loading fails with an error exactly if the JSON value describes no animation. -/
theorem C78_error {j : Json F} : fromJson j = none ↔ ¬ ∃ a, Format.Document j a := by
  unfold fromJson
  rw [Option.map_eq_none_iff]
  exact Format.choice_none Format.document j

/-- Arrays of two relations. -/
theorem forall₂_layers {vs : List (Json F)} {src : List (AnyLayer F)} {dst : List (Layer F)}
    (h1 : List.Forall₂ Format.Layer vs src) (h2 : List.Forall₂ KeepsLayer src dst)
    (h3 : List.Forall₂ HasAttributes src dst) : List.Forall₂ Format.LayerOf vs dst := by
  induction h1 generalizing dst with
  | nil => cases h2; exact .nil
  | cons h _ ih =>
    cases h2 with
    | cons k h2 =>
      cases h3 with
      | cons m h3 => exact .cons ⟨_, h, k, m⟩ (ih h2 h3)

/-- **C78.** A composition that is loaded is the one that the JSON value describes: frame range,
rate, size, and for every layer of the composition and of its assets, in order, the names, times,
transform, opacity, blend mode, masks and content. -/
theorem C78_from_json {j : Json F} {c : Composition F} (h : fromJson j = some (.ok c)) :
    Format.CompositionOf j c := by
  obtain ⟨a, ha, hc⟩ := Option.map_eq_some_iff.1 h
  obtain ⟨es, rfl, hip, hop, hfr, ⟨_, hw, rfl, -⟩, ⟨_, hh, rfl, -⟩, ⟨v, hl, vs, rfl, hls⟩, has, -⟩ :=
    (Format.document j a).1 ha
  obtain ⟨h1, h2, h3, h4, h5, h6⟩ := C44_layers hc
  refine ⟨h1 ▸ hip, h1 ▸ hop, h2 ▸ hfr, h3 ▸ hw, h4 ▸ hh,
    ⟨_, hl, vs, rfl, forall₂_layers hls h5 (C77_attributes hc .root)⟩, ?_⟩
  cases hassets : a.assets with
  | none =>
    rw [hassets] at has
    refine Or.inr ⟨has, ?_⟩
    rw [Animation.assetList, hassets] at h6
    exact List.length_eq_zero_iff.1 h6.length_eq.symm
  | some as =>
    rw [hassets] at has
    obtain ⟨v, hv, -, vs, rfl, hf⟩ := has
    refine Or.inl ⟨_, hv, vs, rfl, ?_⟩
    have hlist : a.assetList = as := by rw [Animation.assetList, hassets]; rfl
    have hatt := fun i p dst h h' => C77_attributes hc (.asset i p dst h h')
    rw [hlist] at h6 hatt
    clear hv hassets hlist h
    rw [List.forall₂_iff_get] at hf h6 ⊢
    refine ⟨hf.1.trans h6.1, fun i hi hi' => ?_⟩
    have hia : i < as.length := hf.1 ▸ hi
    obtain ⟨p, hp, hid, hk⟩ := h6.2 i hia hi'
    have hj := hf.2 i hi hia
    rw [hp] at hj
    obtain ⟨es', hes, ⟨hidr, -⟩, ⟨w, hwl, ws, rfl, hws⟩, -⟩ := hj
    refine ⟨es', hes, hid ▸ hidr, _, hwl, ws, rfl, forall₂_layers hws hk (hatt i p _ ?_ ?_)⟩
    · rw [← hp]; simp [List.getElem?_eq_getElem hia]
    · rw [← hid]; simp [List.getElem?_eq_getElem hi']

/-- A document with an asset, a shape layer with a nested path, and a layer that shows the asset is
loaded, so it is described by the format. -/
example : ∃ a : Animation F, Format.Document (jsonDoc
    [jsonLayer (jsonInt 4) [("shapes", .arr [jsonGroup [jsonPath [jsonKeyframe 0, jsonBare 20]]])],
      jsonLayer (jsonInt 0) [("refId", .str "a"), ("w", jsonInt 10), ("h", jsonInt 10),
        ("st", jsonInt 0)]]
    [.obj [("id", .str "a"), ("layers", .arr [jsonLayer (jsonInt 3) []])]]) a := by
  simp only [← C78_reads]
  rw [← Option.isSome_iff_exists]
  kernel_decide

/-- A layer without `ks` is not. -/
example : ¬ ∃ a : Animation F, Format.Document (jsonDoc
    [.obj [("ty", jsonInt 3), ("ip", jsonInt 0), ("op", jsonInt 60)]] []) a := by
  simp only [← C78_reads]
  rw [← Option.isSome_iff_exists]
  kernel_decide

/-- A document is loaded, in every arithmetic. -/
example : ∃ c, fromJson (F := F) (jsonDoc [jsonLayer (jsonInt 3) [("nm", .str "x")]]
    [.obj [("id", .str "a"), ("layers", .arr [])]]) = some (.ok c) ∧
    c.layers.map (·.name) = ["x"] ∧ c.assets.map (·.1) = ["a"] :=
  ⟨_, rfl, rfl, rfl⟩

end
end Velato
