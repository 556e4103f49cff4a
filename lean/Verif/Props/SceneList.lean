import Verif.Proofs.SceneList

/-!
# C108 — the scenes of the example application
-/

namespace Velato

open Classical in
/-- **C108.** A directory on the command line gives one scene for each of its files `name.json`, with that name,
in the order of the names without regard to upper and lower case.  (`empty` counts the directories without
such files.) -/
theorem C108_directory {lower : Text → Text} {path : PathParts} {names : List Text}
    {scenes : List ListedScene} {empty : Nat}
    (h : scenesFromFiles lower [.directory path (some (names.map some))] = some (scenes, empty)) :
    (scenes.map (·.path)).Perm ((names.filter fun n => IsJsonFile n).map fun n => path ++ [n]) ∧
    (∀ s ∈ scenes, s.path = path ++ [s.name ++ ".json".toList]) ∧
    (scenes.Pairwise fun a b => lower a.name ≤ lower b.name) ∧
    (empty = if scenes = [] then 1 else 0) := by
  rw [directory_single] at h
  cases h
  have hf : (names.filter fun n => fileExtension n = some "json".toList)
      = names.filter fun n => IsJsonFile n :=
    List.filter_congr fun n _ => by simp only [fileExtension_json]
  have hp := sortScenes_perm lower ((names.filter fun n => fileExtension n = some "json".toList).map
        fun n => exampleSceneOf (path ++ [n]))
  refine ⟨?_, ?_, sortScenes_pairwise lower _, ?_⟩
  · refine (hp.map _).trans ?_
    rw [List.map_map, hf]
    refine List.Perm.of_eq (List.map_congr_left fun n _ => ?_)
    simp only [Function.comp, exampleSceneOf, List.getLast?_concat]
  · intro s hs
    obtain ⟨n, hn, rfl⟩ := List.mem_map.mp (hp.mem_iff.mp hs)
    rw [hf] at hn
    obtain ⟨stem, h1, rfl⟩ := of_decide_eq_true (List.mem_filter.mp hn).2
    rw [exampleSceneOf_concat path stem h1]
  · have := hp.length_eq
    rw [List.length_map] at this
    rw [← this]
    simp only [List.length_eq_zero_iff]

/-- **C108.** A file gives one scene, named after it; the scenes come in the order of the command line. -/
theorem C108_order (lower : Text → Text) :
    (∀ (path : PathParts) (stem : Text), stem ≠ [] →
      scenesFromFiles lower [.file (path ++ [stem ++ ".json".toList])]
        = some ([⟨stem, path ++ [stem ++ ".json".toList]⟩], 0)) ∧
    ∀ args args' : List SceneArg, scenesFromFiles lower (args ++ args') =
      match scenesFromFiles lower args, scenesFromFiles lower args' with
      | some (a, m), some (b, n) => some (a ++ b, m + n)
      | _, _ => none := by
  constructor
  · intro path stem h
    unfold scenesFromFiles
    rw [exampleSceneOf_concat path stem h]
    rfl
  · intro args args'
    induction args with
    | nil =>
      rw [List.nil_append]
      cases scenesFromFiles lower args' with
      | none => rfl
      | some x => obtain ⟨b, n⟩ := x; simp [scenesFromFiles]
    | cons a args ih =>
      rw [List.cons_append]
      generalize scenesFromFiles lower args' = q at ih ⊢
      cases a with
      | file path =>
        unfold scenesFromFiles
        rw [ih]
        rcases scenesFromFiles lower args with _ | ⟨x, m⟩
        · rfl
        · rcases q with _ | ⟨y, n⟩ <;> rfl
      | directory path entries =>
        cases entries with
        | none => rfl
        | some entries =>
          unfold scenesFromFiles
          cases directoryScenes path entries with
          | none => rfl
          | some found =>
            dsimp only
            rw [ih]
            rcases scenesFromFiles lower args with _ | ⟨x, m⟩
            · rfl
            · rcases q with _ | ⟨y, n⟩
              · rfl
              · dsimp only
                rw [List.append_assoc]
                congr 2
                split <;> omega

/-- **C108.** An entry that cannot be read is an error. -/
theorem C108_error (lower : Text → Text) (path : PathParts) (entries : List (Option Text))
    (h : none ∈ entries) : scenesFromFiles lower [.directory path (some entries)] = none := by
  unfold scenesFromFiles
  cases hd : directoryScenes path entries with
  | none => rfl
  | some found =>
    obtain ⟨names, rfl, -⟩ := directoryScenes_some hd
    simp at h

/-- **C108 (partial).** The scenes do not depend on the order in which the file system lists the directory, if
no two names differ only in upper and lower case.  What is missing: names that do
(`C108_counterexample`). -/
theorem C108_reproducible_partial {lower : Text → Text} {path : PathParts} {names names' : List Text}
    (hp : names.Perm names')
    (hd : ∀ s t, s ++ ".json".toList ∈ names → t ++ ".json".toList ∈ names → lower s = lower t → s = t) :
    scenesFromFiles lower [.directory path (some (names.map some))]
      = scenesFromFiles lower [.directory path (some (names'.map some))] := by
  rw [directory_single, directory_single]
  have hf := hp.filter fun n => decide (fileExtension n = some "json".toList)
  have hm := hf.map fun n => exampleSceneOf (path ++ [n])
  rw [hf.length_eq]
  congr 2
  have h1 := sortScenes_perm lower ((names.filter fun n => fileExtension n = some "json".toList).map
        fun n => exampleSceneOf (path ++ [n]))
  have h2 := sortScenes_perm lower ((names'.filter fun n => fileExtension n = some "json".toList).map
        fun n => exampleSceneOf (path ++ [n]))
  have h3 : (sortScenes lower ((names.filter fun n => fileExtension n = some "json".toList).map
        fun n => exampleSceneOf (path ++ [n]))).Perm
      (sortScenes lower ((names'.filter fun n => fileExtension n = some "json".toList).map
        fun n => exampleSceneOf (path ++ [n]))) := h1.trans (hm.trans h2.symm)
  refine h3.eq_of_pairwise ?_ (sortScenes_pairwise lower _) (sortScenes_pairwise lower _)
  have hmem : ∀ a ∈ sortScenes lower ((names.filter fun n => fileExtension n = some "json".toList).map
        fun n => exampleSceneOf (path ++ [n])), ∃ stem, stem ++ ".json".toList ∈ names ∧
        a = ⟨stem, path ++ [stem ++ ".json".toList]⟩ := by
    intro a ha
    obtain ⟨n, hn, rfl⟩ := List.mem_map.mp (h1.mem_iff.mp ha)
    obtain ⟨hn1, hn2⟩ := List.mem_filter.mp hn
    obtain ⟨stem, hs, rfl⟩ := (fileExtension_json n).mp (of_decide_eq_true hn2)
    exact ⟨stem, hn1, exampleSceneOf_concat path stem hs⟩
  intro a b ha hb hab hba
  obtain ⟨s, hs, rfl⟩ := hmem a ha
  obtain ⟨t, ht, rfl⟩ := hmem b (h3.mem_iff.mpr hb)
  cases hd s t hs ht (List.le_antisymm hab hba)
  rfl

/-- **C108.** The claim is false for `A.json` and `a.json` (whatever the rule for lower case, if it makes the two
names equal): they come in the order in which the file system lists them. -/
theorem C108_counterexample (lower : Text → Text) (h : lower "A".toList = lower "a".toList)
    (path : PathParts) :
    (["A.json".toList, "a.json".toList] : List Text).Perm ["a.json".toList, "A.json".toList] ∧
    scenesFromFiles lower [.directory path (some [some "A.json".toList, some "a.json".toList])]
      ≠ scenesFromFiles lower [.directory path (some [some "a.json".toList, some "A.json".toList])] := by
  refine ⟨List.Perm.swap _ _ _, ?_⟩
  have e1 := directory_single (lower := lower) (path := path) (names := ["A.json".toList, "a.json".toList])
  have e2 := directory_single (lower := lower) (path := path) (names := ["a.json".toList, "A.json".toList])
  have f1 : (["A.json".toList, "a.json".toList].filter fun n => fileExtension n = some "json".toList)
    = ["A".toList ++ ".json".toList, "a".toList ++ ".json".toList] := by decide +kernel
  have f2 : (["a.json".toList, "A.json".toList].filter fun n => fileExtension n = some "json".toList)
    = ["a".toList ++ ".json".toList, "A".toList ++ ".json".toList] := by decide +kernel
  rw [f1] at e1
  rw [f2] at e2
  simp only [List.map_cons, List.map_nil] at e1 e2
  rw [exampleSceneOf_concat path "A".toList (by decide), exampleSceneOf_concat path "a".toList (by decide)] at e1 e2
  have g : ∀ a b : ListedScene, lower a.name = lower b.name → sortScenes lower [a, b] = [a, b] := by
    intro a b hab
    have : lower a.name ≤ lower b.name := hab ▸ List.le_refl _
    simp [sortScenes, List.insertionSort, this]
  rw [g _ _ h] at e1
  rw [g _ _ h.symm] at e2
  rw [e1, e2]
  intro hc
  have := (Prod.mk.inj (Option.some.inj hc)).1
  have := congrArg (fun l => l.head?.map (·.name)) this
  simp at this

/-- A directory with two scenes and another file. -/
example : (scenesFromFiles (fun s => s.map Char.toLower) [.directory ["d".toList]
      (some [some "b.json".toList, some "readme".toList, some "A.json".toList])]).map
      (fun x => x.1.map fun s => s.name) = some ["A".toList, "b".toList] := by decide +kernel

end Velato
