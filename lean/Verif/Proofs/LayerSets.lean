import Verif.Proofs.Nest

/-!
# Lists of layers
-/

namespace Velato
open FloatOps (lit)

section
variable {F : Type} [FloatOps F] [Libm F] [Kurbo F]

theorem Reachable.idle {r : Renderer F} (h : Reachable r) : r.maskElements = [] := by
  induction h with
  | new => rfl
  | append _ h' ih => rw [((appendCalls_iff ih).mp h').1]; rfl

omit [FloatOps F] [Libm F] [Kurbo F] in
theorem forall₂_filter_iff {α : Type} {R : α → List (Op F) → Prop} {p : α → Bool} {l : List α}
    {ops : List (Op F)} :
    (∃ per, List.Forall₂ R (l.filter p) per ∧ ops = per.flatten) ↔
    (∃ per, List.Forall₂ (fun x os => if p x then R x os else os = []) l per
      ∧ ops = per.flatten) := by
  induction l generalizing ops with
  | nil => simp
  | cons x l ih =>
    cases hp : p x with
    | false =>
      rw [List.filter_cons_of_neg (by simp [hp]), ih]
      constructor
      · rintro ⟨per, h, rfl⟩
        exact ⟨[] :: per, .cons (by simp [hp]) h, by simp⟩
      · rintro ⟨per, h, rfl⟩
        cases h with
        | cons hx h =>
          simp only [hp, Bool.false_eq_true, if_false] at hx
          exact ⟨_, h, by simp [hx]⟩
    | true =>
      rw [List.filter_cons_of_pos hp]
      constructor
      · rintro ⟨per, h, rfl⟩
        cases h with
        | cons hx h =>
          obtain ⟨per', h', he⟩ := ih.mp ⟨_, h, rfl⟩
          exact ⟨_ :: per', .cons (by simpa [hp] using hx) h', by simp [he]⟩
      · rintro ⟨per, h, rfl⟩
        cases h with
        | cons hx h =>
          obtain ⟨per', h', he⟩ := ih.mpr ⟨_, h, rfl⟩
          exact ⟨_ :: per', .cons (by simpa [hp] using hx) h', by simp [he]⟩

omit [FloatOps F] [Libm F] [Kurbo F] in
theorem forall₂_zipIdx {α : Type} {R : α × Nat → α × Nat → Prop} {l l' : List α} {k : Nat}
    (h : List.Forall₂ R (l.zipIdx k) (l'.zipIdx k)) (i : Nat) :
    Option.Rel (fun x x' => R (x, k + i) (x', k + i)) l[i]? l'[i]? := by
  induction l generalizing l' k i with
  | nil =>
    cases l' with
    | nil => exact .none
    | cons x' l' => cases h
  | cons x l ih =>
    cases l' with
    | nil => cases h
    | cons x' l' =>
      rw [List.zipIdx_cons, List.zipIdx_cons] at h
      cases h with
      | cons hx h =>
        cases i with
        | zero => exact .some hx
        | succ i =>
          have := ih h i
          rwa [show k + 1 + i = k + (i + 1) by omega] at this

theorem chaseParents_congr {ls ls' : List (Layer F)} {fr : F}
    (h : ∀ i : Nat, Option.Rel (fun l l' : Layer F => l.transform = l'.transform ∧ l.parent = l'.parent)
      ls[i]? ls'[i]?) :
    ∀ n p T, chaseParents ls fr n p T = chaseParents ls' fr n p T
  | _, none, T => by unfold chaseParents; rfl
  | 0, some _, T => rfl
  | n + 1, some i, T => by
    unfold chaseParents
    have hi := h i
    cases h1 : ls[i]? with
    | none =>
      rw [h1] at hi
      cases h2 : ls'[i]? with
      | none => rfl
      | some _ => rw [h2] at hi; cases hi
    | some l =>
      cases h2 : ls'[i]? with
      | none => rw [h1, h2] at hi; cases hi
      | some l' =>
        rw [h1, h2] at hi
        cases hi with
        | some hi =>
          dsimp only
          rw [hi.1, hi.2]
          exact chaseParents_congr h n _ _

omit [FloatOps F] [Libm F] [Kurbo F] in
theorem filter_fst (l : List (Layer F)) (k : Nat) :
    l.filter (fun l => !l.isMask)
      = ((l.zipIdx k).filter (fun p => !p.1.isMask)).map Prod.fst := by
  induction l generalizing k with
  | nil => rfl
  | cons x l ih =>
    rw [List.zipIdx_cons, List.filter_cons, List.filter_cons, ih (k + 1)]
    dsimp only
    split <;> rfl

omit [FloatOps F] [Libm F] [Kurbo F] in
theorem zipIdx_filter_eq (k : Nat) (l l' : List (Layer F))
    (h : List.Forall₂ (fun p p' : Layer F × Nat =>
      p.1 = p'.1 ∨ (p.1.isMask = true ∧ p'.1.isMask = true)) (l.zipIdx k) (l'.zipIdx k)) :
    (l.zipIdx k).filter (fun p => !p.1.isMask) = (l'.zipIdx k).filter (fun p => !p.1.isMask) := by
  induction l generalizing k l' with
  | nil =>
    cases l' with
    | nil => rfl
    | cons => cases h
  | cons x l ih =>
    cases l' with
    | nil => cases h
    | cons x' l' =>
      rw [List.zipIdx_cons, List.zipIdx_cons] at h
      cases h with
      | cons hx h =>
        rw [List.zipIdx_cons, List.zipIdx_cons, List.filter_cons, List.filter_cons, ih _ _ h]
        rcases hx with hx | hx
        · change x = x' at hx
          rw [hx]
        · have h1 : x.isMask = true := hx.1
          have h2 : x'.isMask = true := hx.2
          simp [h1, h2]

omit [FloatOps F] [Libm F] [Kurbo F] in
theorem SameButUnusedMattes.notMask {l l' : List (Layer F)} (h : SameButUnusedMattes l l') :
    List.Forall₂ (fun p p' : Layer F × Nat =>
      p.1 = p'.1 ∨ (p.1.isMask = true ∧ p'.1.isMask = true)) l.zipIdx l'.zipIdx :=
  h.imp fun _ _ h => h.imp id fun h => ⟨h.1, h.2.1⟩

theorem layerOps_unused {c c' : Composition F} (h : SameButUnusedMattesIn c c') :
    ∀ (n : Nat) (ls ls' : List (Layer F)), SameButUnusedMattes ls ls' → ∀ l ∈ ls,
      ∀ ix T a fr, layerOps c n ls l ix T a fr = layerOps c' n ls' l ix T a fr
  | 0, _, _, _, _, _, _, _, _, _ => rfl
  | n + 1, ls, ls', hls, l, hl, ix, T, a, fr => by
    have ih := layerOps_unused h n
    have hz := forall₂_zipIdx hls
    simp only [Nat.zero_add] at hz
    have hT : computeTransform ls l T fr = computeTransform ls' l T fr := by
      unfold computeTransform
      have hlen : ls.length = ls'.length := by
        have := hls.length_eq
        simpa using this
      rw [hlen, chaseParents_congr]
      intro i
      refine (hz i).rec ?_ ?_
      · intro x x' hx
        rcases hx with hx | hx
        · exact .some ⟨by rw [hx], by rw [hx]⟩
        · exact .some ⟨hx.2.2.1, hx.2.2.2.1⟩
      · exact .none
    have hrect : fullRect c = fullRect c' := by unfold fullRect; rw [h.width, h.height]
    have hm : matteOps c (layerOps c n) ls l T a fr = matteOps c' (layerOps c' n) ls' l T a fr := by
      unfold matteOps
      cases hml : l.maskLayer with
      | none => rfl
      | some p =>
        dsimp only
        rw [hrect]
        have hj := hz p.2
        cases h1 : ls[p.2]? with
        | none =>
          rw [h1] at hj
          cases h2 : ls'[p.2]? with
          | none => rfl
          | some _ => rw [h2] at hj; cases hj
        | some m =>
          cases h2 : ls'[p.2]? with
          | none => rw [h1, h2] at hj; cases hj
          | some m' =>
            rw [h1, h2] at hj
            cases hj with
            | some hj =>
              rcases hj with hj | hj
              · change m = m' at hj
                subst hj
                dsimp only
                rw [ih ls ls' hls m (List.mem_of_getElem? h1)]
              · exact absurd hml (hj.2.2.2.2 l (by simp [hl]) p.1)
    have hc : ∀ T a, contentOps c (layerOps c n) l T a fr
        = contentOps c' (layerOps c' n) l T a fr := by
      intro T a
      unfold contentOps
      cases l.content with
      | none => rfl
      | shape s => rfl
      | «instance» name tr =>
        dsimp only
        have ha := h.assets name
        cases h1 : c.asset name with
        | none =>
          rw [h1] at ha
          cases h2 : c'.asset name with
          | none => rfl
          | some _ => rw [h2] at ha; cases ha
        | some als =>
          cases h2 : c'.asset name with
          | none => rw [h1, h2] at ha; cases ha
          | some als' =>
            rw [h1, h2] at ha
            cases ha with
            | some ha =>
              dsimp only
              have hf : als.reverse.filter (fun l => !l.isMask)
                  = als'.reverse.filter (fun l => !l.isMask) := by
                rw [List.filter_reverse, List.filter_reverse, filter_fst als 0, filter_fst als' 0,
                  zipIdx_filter_eq 0 als als' ha.notMask]
              rw [← hf]
              congr 1
              have : ∀ xs : List (Layer F), (∀ x ∈ xs, x ∈ als) → ∀ fr',
                  xs.mapM (fun l' => layerOps c n als l' 0 T a fr')
                    = xs.mapM (fun l' => layerOps c' n als' l' 0 T a fr') := by
                intro xs hxs fr'
                induction xs with
                | nil => rfl
                | cons x xs ihx =>
                  rw [mapM_cons', mapM_cons', ih als als' ha x (hxs x (by simp)),
                    ihx fun y hy => hxs y (by simp [hy])]
              exact this _ (fun x hx => by
                rw [List.mem_filter, List.mem_reverse] at hx; exact hx.1) _
    show layerBody c (layerOps c n) ls l ix T a fr = layerBody c' (layerOps c' n) ls' l ix T a fr
    unfold layerBody
    rw [hT, hm]
    simp only [hc]

end
end Velato
