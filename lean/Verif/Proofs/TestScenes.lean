import Verif.Model.TestScenes
import Verif.Spec.Shapes
import Verif.Proofs.Player
import Verif.Proofs.SceneList
import Verif.Props.Player

/-!
# Lemmas about the built-in scenes
-/

namespace Velato
open FloatOps (lit)
open Decode

section
variable {F : Type}

/-- The composition has no assets, nothing in it shows an asset, and the matte of a layer comes before it. -/
def flat (c : Composition F) : Bool :=
  c.assets.isEmpty
    && c.layers.zipIdx.all (fun p => match p.1.maskLayer with
      | some (_, k) => decide (k < p.2)
      | none => true)
    && c.layers.all fun l => match l.content with
      | .instance _ _ => false
      | _ => true

theorem noReferenceCycles_of_flat {c : Composition F} (h : flat c = true) : NoReferenceCycles c := by
  unfold flat at h
  rw [Bool.and_eq_true, Bool.and_eq_true, List.all_eq_true, List.all_eq_true, List.isEmpty_iff] at h
  obtain ⟨⟨ha, hm⟩, hi⟩ := h
  have hsub : ∀ s (i : Nat) l, (c.layersOf s)[i]? = some l → s = none := by
    intro s i l hl
    cases s with
    | none => rfl
    | some name =>
      rw [Composition.layersOf, Composition.asset, ha] at hl
      simp at hl
  have key : ∀ x y : Option String × Nat, Refers c x y → y.2 < x.2 := by
    rintro ⟨s, i⟩ ⟨t, k⟩ ⟨l, hl, ⟨mode, hk, rfl⟩ | ⟨name, tr, -, hc, -⟩⟩
    · cases hsub _ _ _ hl
      have := hm (l, i) (List.mem_zipIdx_iff_getElem?.mpr hl)
      rw [hk] at this
      exact of_decide_eq_true this
    · cases hsub _ _ _ hl
      have := hi l (List.mem_of_getElem? hl)
      rw [show l.content = _ from hc] at this
      cases this
  exact Subrelation.wf (fun {y x} h => key x y h) (InvImage.wf (fun x : Option String × Nat => x.2) Nat.lt_wfRel.wf)

theorem allLayers_of_flat {c : Composition F} (h : flat c = true) : c.allLayers = c.layers := by
  unfold flat at h
  rw [Bool.and_eq_true, Bool.and_eq_true, List.isEmpty_iff] at h
  rw [Composition.allLayers, h.1.1]
  simp

/-- The document is loaded, and the composition passes a test. -/
def loadedWith (p : Composition F → Bool) (x : Option (Except Fault (Composition F))) : Bool :=
  match x with
  | some (.ok c) => p c
  | _ => false

theorem loadedWith_ok {p : Composition F → Bool} {x : Option (Except Fault (Composition F))}
    (h : loadedWith p x = true) : ∃ c, x = some (.ok c) ∧ p c = true := by
  unfold loadedWith at h
  split at h
  · exact ⟨_, rfl, h⟩
  · cases h

/-- All stars pass a test. -/
def starsPass (p : AnimStar F → Bool) (c : Composition F) : Bool :=
  c.layers.all fun l => (l.geometries ++ l.masks.map (·.geometry)).all fun g => match g with
    | .star s => p s
    | _ => true

theorem starsPass_iff {p : AnimStar F → Bool} {c : Composition F} (h : starsPass p c = true)
    {l : Layer F} (hl : l ∈ c.layers) {s : AnimStar F}
    (hs : Geometry.star s ∈ l.geometries ++ l.masks.map (·.geometry)) : p s = true := by
  unfold starsPass at h
  rw [List.all_eq_true] at h
  have := h l hl
  rw [List.all_eq_true] at this
  exact this _ hs

end

section
variable {F : Type} [FloatOps F] [Libm F] [Kurbo F]

theorem convAnimation_of_fromJson {j : Json F} {c : Composition F} (h : fromJson j = some (.ok c)) :
    ∃ doc, jAnimation j = some doc ∧ Import.convAnimation doc = .ok c := by
  unfold fromJson at h
  rw [Option.map_eq_some_iff] at h
  exact h

end

section
variable {F : Type} [FloatOps F]

theorem pickLayer_range {hits : List (LayerHit F)} {p : P2 F} {i : Nat} (h : pickLayer hits p = some i) :
    i < hits.length := by
  have key : ∀ (l : List (LayerHit F × Nat)) (b x : LayerHit F × Nat) o,
      (∀ b, o = some b → b ∈ hits.zipIdx) → (∀ b ∈ l, b ∈ hits.zipIdx) →
      l.foldl (fun (best : Option (LayerHit F × Nat)) p =>
        match best with
        | none => some p
        | some b => if b.1.paintOrder ≤ p.1.paintOrder then some p else some b) o = some x →
      x ∈ hits.zipIdx := by
    intro l b x
    induction l with
    | nil => exact fun o ho _ h => ho _ h
    | cons y l ih =>
      intro o ho hl h
      refine ih _ ?_ (fun b hb => hl b (List.mem_cons_of_mem _ hb)) h
      intro b hb
      cases o with
      | none =>
        cases hb
        exact hl _ List.mem_cons_self
      | some z =>
        dsimp only at hb
        split at hb
        · cases hb
          exact hl _ List.mem_cons_self
        · cases hb
          exact ho _ rfl
  obtain ⟨x, hx, rfl⟩ := Option.map_eq_some_iff.mp h
  have := key _ x x none (fun _ h => by cases h) (fun b hb => (List.mem_filter.mp hb).1) hx
  exact (List.getElem?_eq_some_iff.mp (List.mem_zipIdx_iff_getElem?.mp this)).1

theorem overlays_ok {hits : List (LayerHit F)} {p : Option (P2 F)} :
    ∃ ops, overlays hits (p.bind (pickLayer hits)) p = .ok ops := by
  unfold overlays
  cases p with
  | none => exact ⟨_, rfl⟩
  | some q =>
    simp only [Option.bind_some]
    cases hq : pickLayer hits q with
    | none => exact ⟨_, rfl⟩
    | some i =>
      have := pickLayer_range hq
      simp only [List.getElem?_eq_getElem this]
      exact ⟨_, rfl⟩

end

theorem directoryScenes_readable {path : PathParts} (names : List Text) :
    ∃ found, directoryScenes path (names.map some) = some found := by
  induction names with
  | nil => exact ⟨_, rfl⟩
  | cons n names ih =>
    obtain ⟨found, h⟩ := ih
    rw [List.map_cons, directoryScenes, h]
    exact ⟨_, rfl⟩

theorem exampleSceneOf_path (p : PathParts) : (exampleSceneOf p).path = p := by
  unfold exampleSceneOf
  split <;> rfl

theorem scenesFromFiles_isSome (lower : Text → Text) (files : List SceneArg) :
    (∃ x, scenesFromFiles lower files = some x) ↔ ∀ a ∈ files, a.Readable := by
  induction files with
  | nil => simp [scenesFromFiles]
  | cons a files ih =>
    rw [List.forall_mem_cons, ← ih]
    cases a with
    | file q =>
      rw [scenesFromFiles]
      cases h : scenesFromFiles lower files with
      | none => simp
      | some x =>
        simp only [SceneArg.Readable, true_and]
        exact ⟨fun _ => ⟨_, rfl⟩, fun _ => ⟨_, rfl⟩⟩
    | directory dir entries =>
      cases entries with
      | none =>
        rw [scenesFromFiles]
        refine ⟨?_, ?_⟩
        · rintro ⟨_, h⟩
          cases h
        · rintro ⟨⟨names, h⟩, -⟩
          cases h
      | some es =>
        rw [scenesFromFiles]
        cases hd : directoryScenes dir es with
        | none =>
          refine ⟨?_, ?_⟩
          · rintro ⟨_, h⟩
            cases h
          · rintro ⟨⟨names, h⟩, -⟩
            cases h
            obtain ⟨f, hf⟩ := directoryScenes_readable (path := dir) names
            rw [hf] at hd
            cases hd
        | some found =>
          obtain ⟨names, rfl, -⟩ := directoryScenes_some hd
          cases h : scenesFromFiles lower files with
          | none => simp
          | some x => exact ⟨fun _ => ⟨⟨names, rfl⟩, _, rfl⟩, fun _ => ⟨_, rfl⟩⟩

theorem scenesFromFiles_gives {lower : Text → Text} {files : List SceneArg} {scenes : List ListedScene}
    {k : Nat} (h : scenesFromFiles lower files = some (scenes, k)) (p : PathParts) :
    (∃ l ∈ scenes, l.path = p) ↔ ∃ a ∈ files, a.Gives p := by
  induction files generalizing scenes k with
  | nil =>
    cases h
    simp
  | cons a files ih =>
    simp only [List.exists_mem_cons_iff]
    cases a with
    | file q =>
      rw [scenesFromFiles] at h
      cases hf : scenesFromFiles lower files with
      | none => rw [hf] at h; cases h
      | some x =>
        obtain ⟨ss, e⟩ := x
        rw [hf] at h
        cases h
        rw [← ih hf, List.exists_mem_cons_iff, exampleSceneOf_path]
        exact or_congr_left eq_comm
    | directory dir entries =>
      cases entries with
      | none => rw [scenesFromFiles] at h; cases h
      | some es =>
        rw [scenesFromFiles] at h
        cases hd : directoryScenes dir es with
        | none => rw [hd] at h; cases h
        | some found =>
          cases hf : scenesFromFiles lower files with
          | none => rw [hd, hf] at h; cases h
          | some x =>
            obtain ⟨ss, e⟩ := x
            rw [hd, hf] at h
            cases h
            rw [← ih hf]
            simp only [List.mem_append, or_and_right, exists_or]
            refine or_congr_left ?_
            obtain ⟨names, rfl, rfl⟩ := directoryScenes_some hd
            constructor
            · rintro ⟨l, hl, rfl⟩
              obtain ⟨n, hn, rfl⟩ := List.mem_map.mp ((sortScenes_perm lower _).mem_iff.mp hl)
              obtain ⟨h1, h2⟩ := List.mem_filter.mp hn
              exact ⟨_, n, rfl, List.mem_map_of_mem h1, (fileExtension_json n).mp (of_decide_eq_true h2),
                exampleSceneOf_path _⟩
            · rintro ⟨_, n, he, hn, hj, rfl⟩
              cases he
              refine ⟨exampleSceneOf (dir ++ [n]), (sortScenes_perm lower _).mem_iff.mpr
                (List.mem_map.mpr ⟨n, List.mem_filter.mpr ⟨?_, decide_eq_true ((fileExtension_json n).mpr hj)⟩,
                  rfl⟩), exampleSceneOf_path _⟩
              obtain ⟨m, hm, e⟩ := List.mem_map.mp hn
              cases e
              exact hm
end Velato
