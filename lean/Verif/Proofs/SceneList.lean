import Verif.Spec.SceneList
import Verif.Proofs.Download
import Mathlib.Data.List.Sort
import Mathlib.Data.Char
import Mathlib.Data.List.Perm.Basic

/-!
# Lemmas about the scenes of the example application
-/

namespace Velato

theorem fileExtension_json (name : Text) :
    fileExtension name = some "json".toList ↔ IsJsonFile name := by
  have hdot : '.' ∉ "json".toList := by decide
  unfold fileExtension IsJsonFile
  cases h : Text.rfind name ['.'] with
  | none =>
    simp only [reduceCtorEq, false_iff]
    rintro ⟨stem, -, rfl⟩
    exact Text.rfind_char_none h (by simp)
  | some i =>
    obtain ⟨h1, h2, h3⟩ := Text.rfind_char_some h
    have key : ∀ stem : Text, name = stem ++ ".json".toList → stem.length = i := by
      intro stem hs
      have e : name = stem ++ '.' :: "json".toList := hs
      have h4 := h1
      rw [e] at h4
      have hlen := congrArg List.length e
      rw [List.length_append, List.length_cons] at hlen
      have hj : "json".toList.length = 4 := rfl
      by_contra hne
      rcases Nat.lt_or_gt_of_ne hne with hlt | hgt
      · -- the last dot would be in `json`
        have : name[i]? = some '.' := by
          rw [h1, List.getElem?_append_right (by simp [List.length_take])]
          simp [List.length_take, Nat.min_eq_left h3.le]
        rw [e, List.getElem?_append_right hlt.le] at this
        obtain ⟨m, hm⟩ : ∃ m, i - stem.length = m + 1 := ⟨i - stem.length - 1, by omega⟩
        rw [hm, List.getElem?_cons_succ] at this
        exact hdot (List.mem_of_getElem? this)
      · refine h2 ?_
        rw [e, List.drop_append]
        refine List.mem_append_right _ ?_
        rw [show i + 1 - stem.length = 0 by omega]
        simp
    cases i with
    | zero =>
      simp only [reduceCtorEq, false_iff]
      rintro ⟨stem, h4, h5⟩
      exact h4 (List.length_eq_zero_iff.mp (key stem h5))
    | succ i =>
      simp only [Option.some.injEq]
      constructor
      · intro hd
        refine ⟨name.take (i + 1), ?_, ?_⟩
        · intro h5
          have := congrArg List.length h5
          rw [List.length_take, List.length_nil] at this
          omega
        · conv_lhs => rw [h1, hd]
          rfl
      · rintro ⟨stem, -, h5⟩
        have := key stem h5
        rw [h5]
        have e : stem ++ ".json".toList = (stem ++ ['.']) ++ "json".toList := by
          rw [List.append_assoc]; rfl
        rw [show i + 2 = (stem ++ ['.']).length by rw [List.length_append, this]; rfl, e, List.drop_left]

theorem fileStem_json (stem : Text) (h : stem ≠ []) : fileStem (stem ++ ".json".toList) = stem := by
  have hj : fileExtension (stem ++ ".json".toList) = some "json".toList :=
    (fileExtension_json _).mpr ⟨stem, h, rfl⟩
  unfold fileExtension at hj
  unfold fileStem
  cases hr : Text.rfind (stem ++ ".json".toList) ['.'] with
  | none => rw [hr] at hj; cases hj
  | some i =>
    rw [hr] at hj
    cases i with
    | zero => cases hj
    | succ i =>
      simp only [Option.some.injEq] at hj
      dsimp only
      have h1 := (Text.rfind_char_some hr).1
      rw [hj] at h1
      have : stem ++ ".json".toList = (stem ++ ".json".toList).take (i + 1) ++ ".json".toList := h1
      exact (List.append_cancel_right this).symm

theorem directoryScenes_some {path : PathParts} {entries : List (Option Text)} {found : List ListedScene}
    (h : directoryScenes path entries = some found) :
    ∃ names : List Text, entries = names.map some ∧
      found = (names.filter fun n => fileExtension n = some "json".toList).map
        fun n => exampleSceneOf (path ++ [n]) := by
  induction entries generalizing found with
  | nil => cases h; exact ⟨[], rfl, rfl⟩
  | cons e rest ih =>
    cases e with
    | none => cases h
    | some name =>
      unfold directoryScenes at h
      cases hr : directoryScenes path rest with
      | none => rw [hr] at h; cases h
      | some scenes =>
        rw [hr] at h
        obtain ⟨names, rfl, rfl⟩ := ih hr
        refine ⟨name :: names, rfl, ?_⟩
        simp only [Option.some.injEq] at h
        rw [← h, List.filter_cons]
        by_cases hx : fileExtension name = some "json".toList
        · rw [if_pos hx, if_pos (by simpa using hx), List.map_cons]
        · rw [if_neg hx, if_neg (by simpa using hx)]

theorem exampleSceneOf_concat (path : PathParts) (stem : Text) (h : stem ≠ []) :
    exampleSceneOf (path ++ [stem ++ ".json".toList]) = ⟨stem, path ++ [stem ++ ".json".toList]⟩ := by
  unfold exampleSceneOf
  rw [List.getLast?_concat]
  dsimp only
  rw [fileStem_json stem h, if_neg]
  intro he
  have := congrArg List.getLast? he
  simp at this

theorem sortScenes_pairwise (lower : Text → Text) (l : List ListedScene) :
    (sortScenes lower l).Pairwise fun a b => lower a.name ≤ lower b.name := by
  have : Std.Total fun a b : ListedScene => lower a.name ≤ lower b.name := ⟨fun _ _ => List.le_total _ _⟩
  have : IsTrans ListedScene fun a b => lower a.name ≤ lower b.name := ⟨fun _ _ _ => List.le_trans⟩
  exact List.pairwise_insertionSort _ l

theorem sortScenes_perm (lower : Text → Text) (l : List ListedScene) : (sortScenes lower l).Perm l :=
  List.perm_insertionSort _ l

theorem directory_single {lower : Text → Text} {path : PathParts} {names : List Text} :
    scenesFromFiles lower [.directory path (some (names.map some))] =
      some (sortScenes lower ((names.filter fun n => fileExtension n = some "json".toList).map
        fun n => exampleSceneOf (path ++ [n])),
        if (names.filter fun n => fileExtension n = some "json".toList).length = 0 then 1 else 0) := by
  have hd : directoryScenes path (names.map some) = some
      ((names.filter fun n => fileExtension n = some "json".toList).map
        fun n => exampleSceneOf (path ++ [n])) := by
    induction names with
    | nil => rfl
    | cons n names ih =>
      rw [List.map_cons]
      unfold directoryScenes
      rw [ih]
      dsimp only
      rw [List.filter_cons]
      by_cases hx : fileExtension n = some "json".toList
      · rw [if_pos hx, if_pos (by simpa using hx), List.map_cons]
      · rw [if_neg hx, if_neg (by simpa using hx)]
  unfold scenesFromFiles
  rw [hd]
  unfold scenesFromFiles
  simp

end Velato
