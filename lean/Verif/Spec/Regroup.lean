import Mathlib.Logic.Relation
import Verif.Spec.DocDraws

/-!
# Vocabulary for statements about groups that change nothing

Transforms of groups are read as in Spec/DocDraws.
-/

namespace Velato

variable [Kurbo ℝ]

/-- At every frame, the transform leaves all points where they are and all opacities as they are. -/
def NeutralTransform (t : Schema.TransformShape ℝ) : Prop :=
  ∀ frame, GroupAt frame (some t) Affine.identity 1

/-- The second list is the first, where the first elements of the list, or of the list of a group at
any depth, are put in a group of their own, with neutral transforms at most. -/
inductive Wraps : List (Schema.AnyShape ℝ) → List (Schema.AnyShape ℝ) → Prop where
  | wrap {xs trs ys e n i} (hxs : ∀ t, .transform t ∉ xs)
      (htrs : ∀ s ∈ trs, ∃ t, s = .transform t ∧ NeutralTransform t) :
      Wraps (xs ++ ys) (.group e n (xs ++ trs) i :: ys)
  | inside {pre post e n i xs xs'} (h : Wraps xs xs') :
      Wraps (pre ++ .group e n xs i :: post) (pre ++ .group e n xs' i :: post)

/-- The two layers are the same, except that first elements of lists of shapes are put in groups of their
own or taken out of them, any number of times. -/
def Schema.AnyLayer.Regrouped (s s' : Schema.AnyLayer ℝ) : Prop :=
  s = s' ∨ ∃ v xs xs', s = .shape ⟨v, xs⟩ ∧ s' = .shape ⟨v, xs'⟩ ∧ Relation.EqvGen Wraps xs xs'

/-- The same for assets. -/
def Schema.AnyAsset.Regrouped (p p' : Schema.AnyAsset ℝ) : Prop :=
  p = p' ∨ ∃ q ls', p = .precomposition q ∧ p' = .precomposition { q with layers := ls' } ∧
    List.Forall₂ Schema.AnyLayer.Regrouped q.layers ls'

/-- The same for documents. -/
def Schema.Animation.Regrouped (a a' : Schema.Animation ℝ) : Prop :=
  List.Forall₂ Schema.AnyLayer.Regrouped a.layers a'.layers ∧
  Option.Rel (List.Forall₂ Schema.AnyAsset.Regrouped) a.assets a'.assets ∧
  a' = { a with layers := a'.layers, assets := a'.assets }

end Velato
