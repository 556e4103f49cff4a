import Verif.Spec.Elsewhere
import Verif.Proofs.Ended
import Verif.Props.Folding

/-!
# Two documents that differ only in keyframes away from a frame: helper lemmas
-/

namespace Velato
open FloatOps (lit)

/-! ### The two keyframes that are mixed -/

section
variable {F : Type} [FloatOps F]

/-- The entries that are mixed at the frame. -/
def foundPair {T : Type} (es : List (Time F × T)) (fr : F) : Option ((Time F × T) × (Time F × T)) :=
  let ix0 := min (Time.search (es.map (·.1)) fr) (es.length - 1)
  es[ix0]?.bind fun x => es[min (ix0 + 1) (es.length - 1)]?.map fun y => (x, y)

/-- The weight with which they are mixed. -/
def pairWeight (t0 t1 : Time F) (fr : F) : F :=
  clamp ((fr -. t0.frame) /. (t1.frame -. t0.frame)) (lit 0) (lit 1)

theorem found_weight {T α : Type} (es : List (Time F × T)) (fr : F) (k : T → T → F → Easing F → Bool → Option α) :
    (Time.framesAndWeight (es.map (·.1)) fr).bind (fun w => (es.map (·.2))[w.ix0]?.bind fun v0 =>
        (es.map (·.2))[w.ix1]?.bind fun v1 => k v0 v1 w.t w.easing w.hold) =
      (foundPair es fr).bind fun p => k p.1.2 p.2.2 (pairWeight p.1.1 p.2.1 fr) p.1.1.easing p.1.1.hold := by
  by_cases he : es = []
  · subst he; rfl
  have hl : 0 < es.length := List.length_pos_iff.mpr he
  unfold foundPair
  dsimp only
  generalize hi : min (Time.search (es.map (·.1)) fr) (es.length - 1) = i
  generalize hj : min (i + 1) (es.length - 1) = j
  have h0 : i < es.length := by omega
  have h1 : j < es.length := by omega
  rw [framesAndWeight_eq (es.map (·.1)) fr es[i].1 es[j].1
    (by rw [List.length_map, hi, List.getElem?_map, List.getElem?_eq_getElem h0]; rfl)
    (by rw [List.length_map, hi, hj, List.getElem?_map, List.getElem?_eq_getElem h1]; rfl)]
  simp only [List.length_map, hi, hj, Option.bind_some, List.getElem?_map, List.getElem?_eq_getElem h0,
    List.getElem?_eq_getElem h1, Option.map_some]
  rfl

theorem foundPair_split [LawfulCmp F] {T : Type} {xs ys : List (Time F × T)} (hx : xs ≠ []) {fr : F}
    (h1 : ∀ e ∈ xs, (fr <. e.1.frame) = false) (h2 : ∀ e ∈ ys, (fr <. e.1.frame) = true) :
    foundPair (xs ++ ys) fr = xs.getLast?.map fun x => (x, ys.head?.getD x) := by
  have hl : 0 < xs.length := List.length_pos_iff.mpr hx
  have hs : Time.search ((xs ++ ys).map (·.1)) fr = xs.length - 1 := by
    rw [List.map_append, search_split (by simpa using hx)]
    · rw [List.length_map]
    · intro t ht
      obtain ⟨e, he, rfl⟩ := List.mem_map.mp ht
      exact h1 e he
    · intro t ht
      obtain ⟨e, he, rfl⟩ := List.mem_map.mp ht
      exact h2 e he
  unfold foundPair
  dsimp only
  rw [hs, List.length_append]
  have e0 : min (xs.length - 1) (xs.length + ys.length - 1) = xs.length - 1 := by omega
  rw [e0, List.getElem?_append_left (by omega), List.getLast?_eq_getElem?, List.getElem?_eq_getElem (by omega : xs.length - 1 < xs.length)]
  simp only [Option.bind_some, Option.map_some]
  cases ys with
  | nil =>
    have : min (xs.length - 1 + 1) (xs.length + ([] : List (Time F × T)).length - 1) = xs.length - 1 := by
      simp only [List.length_nil]; omega
    rw [this, List.append_nil, List.getElem?_eq_getElem (by omega : xs.length - 1 < xs.length)]
    rfl
  | cons y ys =>
    have : min (xs.length - 1 + 1) (xs.length + (y :: ys).length - 1) = xs.length := by
      simp only [List.length_cons]; omega
    rw [this, List.getElem?_append_right (by omega), Nat.sub_self]
    rfl

theorem foundPair_first [LawfulCmp F] {T : Type} {es : List (Time F × T)} {fr : F}
    (h : ∀ e ∈ es, (fr <. e.1.frame) = true) :
    foundPair es fr = es.head?.map fun x => (x, es[1]?.getD x) := by
  have hs : Time.search (es.map (·.1)) fr = 0 := search_all_gt fun t ht => by
    obtain ⟨e, he, rfl⟩ := List.mem_map.mp ht
    exact h e he
  unfold foundPair
  dsimp only
  rw [hs]
  match es with
  | [] => rfl
  | [x] => rfl
  | x :: y :: es =>
    have e1 : min (min 0 ((x :: y :: es).length - 1) + 1) ((x :: y :: es).length - 1) = 1 := by
      simp only [List.length_cons]; omega
    rw [e1, Nat.zero_min]
    rfl

omit [FloatOps F] in
theorem getLast?_append_ne {α : Type} {xs ys : List α} (h : ys ≠ []) : (xs ++ ys).getLast? = ys.getLast? := by
  rw [List.getLast?_append]
  cases hy : ys.getLast? with
  | none => exact absurd (List.getLast?_eq_none_iff.mp hy) h
  | some y => rfl

omit [FloatOps F] in
theorem head?_append_ne {α : Type} {xs ys : List α} (h : xs ≠ []) : (xs ++ ys).head? = xs.head? := by
  cases xs with
  | nil => exact absurd rfl h
  | cons x xs => rfl

theorem foundPair_agree [LawfulCmp F] {T K : Type} {time : K → F} {fr : F} {ks ks' : List K}
    (h : AgreeAround time fr ks ks') (g : K → List (Time F × T))
    (hg : ∀ k ∈ ks ++ ks', g k ≠ [] ∧ ∀ e ∈ g k, e.1.frame = time k) :
    foundPair (ks'.flatMap g) fr = foundPair (ks.flatMap g) fr := by
  have le : ∀ l : List K, (∀ k ∈ l, k ∈ ks ++ ks') → (∀ k ∈ l, (time k <=. fr) = true) →
      ∀ e ∈ l.flatMap g, (fr <. e.1.frame) = false := by
    intro l hl ht e he
    obtain ⟨k, hk, he⟩ := List.mem_flatMap.mp he
    rw [(hg k (hl k hk)).2 e he]
    exact not_lt_of_le' (ht k hk)
  have gt : ∀ l : List K, (∀ k ∈ l, k ∈ ks ++ ks') → (∀ k ∈ l, (fr <. time k) = true) →
      ∀ e ∈ l.flatMap g, (fr <. e.1.frame) = true := by
    intro l hl ht e he
    obtain ⟨k, hk, he⟩ := List.mem_flatMap.mp he
    rw [(hg k (hl k hk)).2 e he]
    exact ht k hk
  cases h with
  | same => rfl
  | @between pre pre' post post' a b before ha hb after =>
    have key : ∀ p q : List K, (∀ k ∈ p, k ∈ pre ++ pre') → (∀ k ∈ q, k ∈ post ++ post') →
        foundPair ((p ++ a :: b :: q).flatMap g) fr = (g a).getLast?.map fun x => (x, (g b).head?.getD x) := by
      intro p q hp hq
      have hA := hg a (by simp)
      have hB := hg b (by simp)
      have hp' : ∀ k ∈ p, k ∈ (pre ++ a :: b :: post) ++ (pre' ++ a :: b :: post') := fun k hk => by
        have := hp k hk
        simp only [List.mem_append, List.mem_cons] at this ⊢
        tauto
      have hq' : ∀ k ∈ q, k ∈ (pre ++ a :: b :: post) ++ (pre' ++ a :: b :: post') := fun k hk => by
        have := hq k hk
        simp only [List.mem_append, List.mem_cons] at this ⊢
        tauto
      have e : (p ++ a :: b :: q).flatMap g = (p ++ [a]).flatMap g ++ (b :: q).flatMap g := by
        rw [← List.flatMap_append]
        simp
      rw [e, foundPair_split]
      · rw [List.flatMap_append, List.flatMap_singleton, List.flatMap_cons, getLast?_append_ne hA.1, head?_append_ne hB.1]
      · rw [List.flatMap_append, List.flatMap_singleton]
        simp [hA.1]
      · refine le _ (fun k hk => ?_) fun k hk => ?_
        · rcases List.mem_append.mp hk with hk | hk
          · exact hp' k hk
          · rw [List.mem_singleton.mp hk]
            simp
        · rcases List.mem_append.mp hk with hk | hk
          · exact before k (hp k hk)
          · rw [List.mem_singleton.mp hk]
            exact ha
      · refine gt _ (fun k hk => ?_) fun k hk => ?_
        · rcases List.mem_cons.mp hk with rfl | hk
          · simp
          · exact hq' k hk
        · rcases List.mem_cons.mp hk with rfl | hk
          · exact hb
          · exact after k (hq k hk)
    rw [key pre post (fun k hk => by simp [hk]) fun k hk => by simp [hk],
      key pre' post' (fun k hk => by simp [hk]) fun k hk => by simp [hk]]
  | @last pre pre' a before ha =>
    have key : ∀ p : List K, (∀ k ∈ p, k ∈ pre ++ pre') →
        foundPair ((p ++ [a]).flatMap g) fr = (g a).getLast?.map fun x => (x, x) := by
      intro p hp
      have hA := hg a (by simp)
      rw [← List.append_nil ((p ++ [a]).flatMap g), foundPair_split]
      · rw [List.flatMap_append, List.flatMap_singleton, getLast?_append_ne hA.1]
        rfl
      · rw [List.flatMap_append, List.flatMap_singleton]
        simp [hA.1]
      · refine le _ (fun k hk => ?_) fun k hk => ?_
        · rcases List.mem_append.mp hk with hk | hk
          · have := hp k hk
            simp only [List.mem_append] at this ⊢
            tauto
          · rw [List.mem_singleton.mp hk]
            simp
        · rcases List.mem_append.mp hk with hk | hk
          · exact before k (hp k hk)
          · rw [List.mem_singleton.mp hk]
            exact ha
      · simp
    rw [key pre (fun k hk => by simp [hk]), key pre' (fun k hk => by simp [hk])]
  | @first post post' a b ha hb after =>
    have key : ∀ q : List K, (∀ k ∈ q, k ∈ post ++ post') →
        foundPair ((a :: b :: q).flatMap g) fr = (g a).head?.map fun x => (x, (g a ++ g b)[1]?.getD x) := by
      intro q hq
      have hA := hg a (by simp)
      have hB := hg b (by simp)
      rw [foundPair_first]
      · rw [List.flatMap_cons, List.flatMap_cons, head?_append_ne hA.1, ← List.append_assoc,
          List.getElem?_append_left (by
            have := List.length_pos_iff.mpr hA.1
            have := List.length_pos_iff.mpr hB.1
            rw [List.length_append]
            omega)]
      · refine gt _ (fun k hk => ?_) fun k hk => ?_
        · rcases List.mem_cons.mp hk with rfl | hk
          · simp
          · rcases List.mem_cons.mp hk with rfl | hk
            · simp
            · have := hq k hk
              simp only [List.mem_append, List.mem_cons] at this ⊢
              tauto
        · rcases List.mem_cons.mp hk with rfl | hk
          · exact ha
          · rcases List.mem_cons.mp hk with rfl | hk
            · exact hb
            · exact after k (hq k hk)
    rw [key post (fun k hk => by simp [hk]), key post' (fun k hk => by simp [hk])]

theorem AgreeAround.map {K L : Type} {time : K → F} {time' : L → F} {fr : F} {m : K → L} (hm : ∀ k, time' (m k) = time k)
    {ks ks' : List K} (h : AgreeAround time fr ks ks') : AgreeAround time' fr (ks.map m) (ks'.map m) := by
  have tr : ∀ {l l' : List K} {P : F → Prop}, (∀ k ∈ l ++ l', P (time k)) → ∀ j ∈ l.map m ++ l'.map m, P (time' j) := by
    intro l l' P h j hj
    rw [← List.map_append] at hj
    obtain ⟨k, hk, rfl⟩ := List.mem_map.mp hj
    rw [hm]
    exact h k hk
  cases h with
  | same => exact .same _
  | between b1 ha hb a1 =>
    rw [List.map_append, List.map_append, List.map_cons, List.map_cons, List.map_cons, List.map_cons]
    exact .between (tr (P := fun t => (t <=. fr) = true) b1) (by rw [hm]; exact ha) (by rw [hm]; exact hb)
      (tr (P := fun t => (fr <. t) = true) a1)
  | last b1 ha =>
    rw [List.map_append, List.map_append]
    exact .last (tr (P := fun t => (t <=. fr) = true) b1) (by rw [hm]; exact ha)
  | first ha hb a1 =>
    rw [List.map_cons, List.map_cons, List.map_cons, List.map_cons]
    exact .first (by rw [hm]; exact ha) (by rw [hm]; exact hb) (tr (P := fun t => (fr <. t) = true) a1)

/-- Animated values with the same entries around the frame. -/
theorem sameValue_found {T : Type} [Tween F T] {es es' : List (Time F × T)} {fr : F}
    (h : foundPair es' fr = foundPair es fr) :
    SameValue fr fr (.animated ⟨es.map (·.1), es.map (·.2)⟩) (.animated ⟨es'.map (·.1), es'.map (·.2)⟩) := by
  refine .inr ⟨_, _, rfl, rfl, fun d => ?_⟩
  have key : ∀ es : List (Time F × T), Animated.evaluateInner ⟨es.map (·.1), es.map (·.2)⟩ fr =
      (foundPair es fr).bind fun p => some (Tween.tween p.1.2 p.2.2
        (if p.1.1.hold then lit 0 else pairWeight p.1.1 p.2.1 fr) p.1.1.easing) := fun es =>
    found_weight es fr fun v0 v1 t e hold => some (Tween.tween v0 v1 (if hold then lit 0 else t) e)
  unfold Animated.evaluateOr
  rw [key, key, h]

end

/-! ### Two imports that both work -/

/-- If both imports work, the results are related by `R`. -/
def Both {α β : Type} (R : α → β → Prop) (x : Except Fault α) (x' : Except Fault β) : Prop :=
  ∀ v v', x = .ok v → x' = .ok v' → R v v'

theorem Both.ok {α β : Type} {R : α → β → Prop} {v : α} {v' : β} (h : R v v') : Both R (.ok v) (.ok v') :=
  fun _ _ e e' => Except.ok.inj e ▸ Except.ok.inj e' ▸ h

theorem Both.error {α β : Type} {R : α → β → Prop} {x : Fault} {y : Except Fault β} : Both R (.error x : Except Fault α) y :=
  fun _ _ e => nomatch e

theorem Both.same {α : Type} {x : Except Fault α} : Both Eq x x :=
  fun _ _ e e' => Except.ok.inj (e.symm.trans e')

theorem Both.bind {α β α' β' : Type} {R : α → β → Prop} {S : α' → β' → Prop} {x : Except Fault α} {x' : Except Fault β}
    {k : α → Except Fault α'} {k' : β → Except Fault β'} (h : Both R x x')
    (hk : ∀ v v', R v v' → Both S (k v) (k' v')) : Both S (x >>= k) (x' >>= k') := by
  intro w w' e e'
  obtain ⟨v, hv, e⟩ := bind_ok e
  obtain ⟨v', hv', e'⟩ := bind_ok e'
  exact hk v v' (h v v' hv hv') w w' e e'

theorem Both.map {α β α' β' : Type} {R : α → β → Prop} {S : α' → β' → Prop} {x : Except Fault α} {x' : Except Fault β}
    {k : α → α'} {k' : β → β'} (h : Both R x x') (hk : ∀ v v', R v v' → S (k v) (k' v')) :
    Both S (x.map k) (x'.map k') := by
  intro w w' e e'
  obtain ⟨v, hv, rfl⟩ := map_ok e
  obtain ⟨v', hv', rfl⟩ := map_ok e'
  exact hk v v' (h v v' hv hv')

theorem Both.mapM {α β α' β' : Type} {S : α' → β' → Prop} {k : α → Except Fault α'} {k' : β → Except Fault β'}
    {l : List α} {l' : List β} (h : List.Forall₂ (fun x x' => Both S (k x) (k' x')) l l') :
    Both (List.Forall₂ S) (l.mapM k) (l'.mapM k') := by
  induction h with
  | nil => exact Both.ok .nil
  | cons h _ ih =>
    rw [List.mapM_cons, List.mapM_cons]
    exact h.bind fun v v' hv => ih.bind fun w w' hw => Both.ok (.cons hv hw)

/-! ### Properties -/

section
variable {F : Type}

open Import

/-- The entry of a keyframe, if it can be imported. -/
def entryOf {K E : Type} (k : K → Except Fault E) (x : K) : List E :=
  match k x with
  | .ok e => [e]
  | .error _ => []

theorem mapM_entryOf {K E : Type} {k : K → Except Fault E} {l : List K} {es : List E} (h : l.mapM k = .ok es) :
    es = l.flatMap (entryOf k) ∧ ∀ x ∈ l, ∃ e, k x = .ok e := by
  rw [mapM_ok_iff] at h
  induction h with
  | nil => exact ⟨rfl, by simp⟩
  | @cons x e l es h _ ih =>
    refine ⟨?_, ?_⟩
    · rw [List.flatMap_cons, ← ih.1]
      unfold entryOf
      rw [h]
      rfl
    · intro y hy
      rcases List.mem_cons.mp hy with rfl | hy
      · exact ⟨e, h⟩
      · exact ih.2 y hy

theorem convTime_frame {b : Schema.KeyframeBase F} {t : Time F} (h : convTime b = .ok t) : t.frame = b.time :=
  let ⟨_, _, h⟩ := convTime_retimed (f := id) b t h
  h.2.1

variable [FloatOps F] {fr : F}

omit [FloatOps F] in
theorem entryOf_frame {K T : Type} {k : K → Except Fault (Time F × T)} {time : K → F}
    (ht : ∀ x e, k x = .ok e → e.1.frame = time x) {x : K} (h : ∃ e, k x = .ok e) :
    entryOf k x ≠ [] ∧ ∀ e ∈ entryOf k x, e.1.frame = time x := by
  obtain ⟨e, he⟩ := h
  unfold entryOf
  rw [he]
  exact ⟨by simp, fun e' h => by rw [List.mem_singleton.mp h]; exact ht x e he⟩

/-- The time of a keyframe, with a value. -/
def timedEntry {K T : Type} (base : K → Schema.KeyframeBase F) (v : K → T) (k : K) : Except Fault (Time F × T) :=
  (convTime (base k)).map fun t => (t, v k)

omit [FloatOps F] in
theorem timedEntry_frame {K T : Type} {base : K → Schema.KeyframeBase F} {v : K → T} {k : K} {e : Time F × T}
    (h : timedEntry base v k = .ok e) : e.1.frame = (base k).time := by
  obtain ⟨t, ht, rfl⟩ := map_ok h
  exact convTime_frame ht

omit [FloatOps F] in
theorem timed_entries {K T : Type} {base : K → Schema.KeyframeBase F} {v : K → T} {ks : List K} {ts : List (Time F)}
    (h : (ks.mapM fun k => convTime (base k)) = .ok ts) :
    ts = (ks.flatMap (entryOf (timedEntry base v))).map (·.1) ∧
      ks.map v = (ks.flatMap (entryOf (timedEntry base v))).map (·.2) ∧ ∀ k ∈ ks, ∃ e, timedEntry base v k = .ok e := by
  rw [mapM_ok_iff] at h
  induction h with
  | nil => exact ⟨rfl, rfl, by simp⟩
  | @cons k t ks ts h _ ih =>
    have e : timedEntry base v k = .ok (t, v k) := by unfold timedEntry; rw [h]; rfl
    have e' : entryOf (timedEntry base v) k = [(t, v k)] := by unfold entryOf; rw [e]
    refine ⟨?_, ?_, ?_⟩
    · rw [List.flatMap_cons, e', List.map_append, ← ih.1]; rfl
    · rw [List.flatMap_cons, e', List.map_append, ← ih.2.1]; rfl
    · intro j hj
      rcases List.mem_cons.mp hj with rfl | hj
      · exact ⟨_, e⟩
      · exact ih.2.2 j hj

omit [FloatOps F] in
theorem convScalarKeyframe_frame {k : Schema.Keyframe F} {e : Time F × F} (h : convScalarKeyframe k = .ok e) :
    e.1.frame = k.base.time := by
  unfold convScalarKeyframe at h
  split at h
  · cases h
  · obtain ⟨t, ht, h⟩ := bind_ok h
    cases h
    exact convTime_frame ht

variable [LawfulCmp F]

theorem scalar_around [Kurbo F] {p p' : Schema.FloatValue F} (h : p.Agrees (Schema.AnimatedPropertyK.Keyed (AgreeAround (·.base.time) fr)) p') :
    Both (SameValue fr fr) (convScalar p) (convScalar p') := by
  unfold convScalar
  cases h with
  | static h h' =>
    rw [h, h']
    exact Both.ok (.inl ⟨_, rfl, rfl⟩)
  | @animated ks ks' h h' hk =>
    rw [h, h']
    dsimp only
    refine Both.bind (R := fun es es' => foundPair es' fr = foundPair es fr) ?_ fun es es' he => Both.ok (sameValue_found he)
    intro es es' h h'
    obtain ⟨rfl, g⟩ := mapM_entryOf h
    obtain ⟨rfl, g'⟩ := mapM_entryOf h'
    refine foundPair_agree hk _ fun k hm => entryOf_frame (fun x e => convScalarKeyframe_frame) ?_
    rcases List.mem_append.mp hm with hm | hm
    · exact g k hm
    · exact g' k hm

theorem keyframes_agree {T : Type} [Tween F T] {ks ks' : List (Schema.Keyframe F)} (h : List F → T)
    (hk : AgreeAround (·.base.time) fr ks ks') : SameValue fr fr (convKeyframes ks h) (convKeyframes ks' h) := by
  have key : ∀ ks : List (Schema.Keyframe F), convKeyframes ks h =
      .animated ⟨(ks.flatMap fun k => (keyframeTimes k.base).map fun t => (t, h k.value)).map (·.1),
        (ks.flatMap fun k => (keyframeTimes k.base).map fun t => (t, h k.value)).map (·.2)⟩ := by
    intro ks
    unfold convKeyframes
    rw [List.map_flatMap, List.map_flatMap]
    simp only [List.map_map, Function.comp_def, List.map_id']
  rw [key, key]
  refine sameValue_found (foundPair_agree hk _ fun k _ => ?_)
  obtain ⟨-, h1, h2⟩ := keyframeTimes_retimed (f := id) k.base
  refine ⟨by simpa using h1, fun e he => ?_⟩
  obtain ⟨t, ht, rfl⟩ := List.mem_map.mp he
  exact (h2 t ht).1

theorem multi_around {T : Type} [Tween F T] {p p' : Schema.AnimatedProperty F (List F)} (h : List F → T)
    (hp : p.Agrees (Schema.AnimatedPropertyK.Keyed (AgreeAround (·.base.time) fr)) p') : SameValue fr fr (convMulti p h) (convMulti p' h) := by
  unfold convMulti
  cases hp with
  | static h h' =>
    rw [h, h']
    exact .inl ⟨_, rfl, rfl⟩
  | animated h1 h' hk =>
    rw [h1, h']
    exact keyframes_agree h hk

theorem position_around [Kurbo F] {p p' : Schema.Position F} (hp : p.Agrees (Schema.aroundFrame fr) p') :
    SameValue fr fr (convPosPoint p) (convPosPoint p') := by
  unfold convPosPoint
  cases hp with
  | static h h' =>
    rw [h, h']
    exact .inl ⟨_, rfl, rfl⟩
  | animated h h' hk =>
    rw [h, h']
    exact keyframes_agree _ (AgreeAround.map (m := Schema.PositionKeyframe.keyframe) (fun _ => rfl) hk)

theorem gradientColors_around [Kurbo F] {g g' : Schema.GradientColors F} (hg : g.Agrees (Schema.aroundFrame fr) g') :
    Both (fun s s' => s'.isFixed = s.isFixed ∧ (s.isFixed = true → s' = s) ∧ s'.evaluate fr = s.evaluate fr)
      (convGradientColors g) (convGradientColors g') := by
  obtain ⟨hc, hn⟩ := hg
  unfold convGradientColors
  rw [hn]
  cases hc with
  | static h h' =>
    rw [h, h']
    exact Both.ok ⟨rfl, fun _ => rfl, rfl⟩
  | @animated ks ks' h h' hk =>
    rw [h, h']
    dsimp only
    refine Both.bind (R := fun ts ts' => ∃ es es' : List (Time F × List F), foundPair es' fr = foundPair es fr ∧
      ts = es.map (·.1) ∧ (ks.map fun k => (convStops k.value g.count).flatMap RawStop.toList) = es.map (·.2) ∧
      ts' = es'.map (·.1) ∧ (ks'.map fun k => (convStops k.value g.count).flatMap RawStop.toList) = es'.map (·.2)) ?_
      fun ts ts' he => Both.ok ⟨rfl, fun h => (by cases h), ?_⟩
    · intro ts ts' ht ht'
      obtain ⟨a1, a2, a3⟩ := timed_entries (v := fun k => (convStops k.value g.count).flatMap RawStop.toList) ht
      obtain ⟨b1, b2, b3⟩ := timed_entries (v := fun k => (convStops k.value g.count).flatMap RawStop.toList) ht'
      refine ⟨_, _, foundPair_agree hk (entryOf (timedEntry (·.base) _)) fun k hm =>
        entryOf_frame (fun x e => timedEntry_frame) ?_, a1, a2, b1, b2⟩
      rcases List.mem_append.mp hm with hm | hm
      · exact a3 k hm
      · exact b3 k hm
    · obtain ⟨es, es', he, rfl, e1, rfl, e2⟩ := he
      rw [e1, e2]
      have key : ∀ es : List (Time F × List F),
          AnimColorStops.evaluateInner ⟨es.map (·.1), es.map (·.2), g.count⟩ fr =
            (foundPair es fr).bind fun p => (List.range g.count).mapM fun i => AnimColorStops.stop p.1.2 p.2.2
              (pairWeight p.1.1 p.2.1 fr) (if p.1.1.hold then lit 0 else pairWeight p.1.1 p.2.1 fr) p.1.1.easing i := fun es =>
        found_weight es fr fun v0 v1 t e hold => (List.range g.count).mapM fun i =>
          AnimColorStops.stop v0 v1 t (if hold then lit 0 else t) e i
      unfold ColorStops.evaluate
      dsimp only
      rw [key, key, he]

/-! ### Outlines -/

/-- The points of a path keyframe that has a shape of its own. -/
def splineValuesOf (k : Schema.ShapeKeyframe F) : SplineValues F :=
  ⟨match k.start with
    | some (b :: _) => (convSpline b).1
    | _ => [],
   match k.stop with
    | some (e :: _) => some (convSpline e).1
    | _ => none⟩

omit [LawfulCmp F] in
theorem splineLoop_entries (ks : List (Schema.ShapeKeyframe F)) (own : ∀ k ∈ ks, ∃ b bs, k.start = some (b :: bs)) :
    ∀ prev o, splineLoop prev ks = .ok o → ∃ ts, (ks.mapM fun k => convTime k.base) = .ok ts ∧
      o = some (ts, ks.map splineValuesOf, ks.any Schema.ShapeKeyframe.closes) := by
  induction ks with
  | nil =>
    intro prev o h
    unfold splineLoop at h
    cases h
    exact ⟨[], rfl, rfl⟩
  | cons k ks ih =>
    intro prev o h
    obtain ⟨b, bs, hb⟩ := own k (by simp)
    unfold splineLoop at h
    obtain ⟨t, ht, h⟩ := bind_ok h
    have hs : startBezier prev k = .ok (some b) := by unfold startBezier; rw [hb]; rfl
    rw [hs] at h
    replace h : (splineLoop (some k) ks >>= fun x => match x with
        | none => .ok none
        | some (ts, vs, c) => .ok (some (t :: ts, ⟨(convSpline b).1, (match k.stop with
          | some (e :: _) => (some (convSpline e).1, (convSpline e).2)
          | _ => (none, false)).1⟩ :: vs, (convSpline b).2 || (match k.stop with
          | some (e :: _) => (some (convSpline e).1, (convSpline e).2)
          | _ => (none, false)).2 || c))) = .ok o := h
    obtain ⟨x, hx, h⟩ := bind_ok h
    obtain ⟨ts, h1, rfl⟩ := ih (fun j hj => own j (List.mem_cons_of_mem _ hj)) _ _ hx
    cases h
    refine ⟨t :: ts, ?_, ?_⟩
    · rw [List.mapM_cons, ht, h1]
      rfl
    · rw [List.map_cons, List.any_cons]
      unfold splineValuesOf Schema.ShapeKeyframe.closes Schema.closedShape
      rw [hb]
      cases k.stop with
      | none => rfl
      | some es => cases es <;> rfl

variable [Kurbo F] [Libm F]

theorem path_around {p p' : Schema.ShapeProperty F} (hp : p.Agrees (Schema.aroundFrame fr) p') :
    Both (OptRel (SameGeometry fr fr)) (convShapeGeometry p) (convShapeGeometry p') := by
  unfold convShapeGeometry
  cases hp with
  | same h =>
    rw [h]
    intro o o' e e'
    obtain rfl := Except.ok.inj (e.symm.trans e')
    cases o with
    | none => exact .none
    | some g => exact .some rfl
  | @animated ks ks' h h' hk =>
    obtain ⟨hk, own, closed⟩ := hk
    rw [h, h']
    dsimp only
    refine Both.bind (R := fun o o' => ∃ (es es' : List (Time F × SplineValues F)) (c : Bool),
      foundPair es' fr = foundPair es fr ∧ o = some (es.map (·.1), es.map (·.2), c) ∧
      o' = some (es'.map (·.1), es'.map (·.2), c)) ?_ ?_
    · intro o o' h h'
      obtain ⟨ts, ht, rfl⟩ := splineLoop_entries ks (fun k hm => own k (by simp [hm])) _ _ h
      obtain ⟨ts', ht', rfl⟩ := splineLoop_entries ks' (fun k hm => own k (by simp [hm])) _ _ h'
      obtain ⟨a1, a2, a3⟩ := timed_entries (v := splineValuesOf) ht
      obtain ⟨b1, b2, b3⟩ := timed_entries (v := splineValuesOf) ht'
      refine ⟨_, _, ks.any Schema.ShapeKeyframe.closes, foundPair_agree hk (entryOf (timedEntry (·.base) splineValuesOf)) fun k hm =>
        entryOf_frame (fun x e => timedEntry_frame) ?_, ?_, ?_⟩
      · rcases List.mem_append.mp hm with hm | hm
        · exact a3 k hm
        · exact b3 k hm
      · rw [← a1, ← a2]
      · rw [← b1, ← b2, closed]
    · rintro _ _ ⟨es, es', c, he, rfl, rfl⟩
      refine Both.ok (.some ?_)
      show Except.ok _ = Except.ok _
      have key : ∀ es : List (Time F × SplineValues F), AnimSpline.evaluate ⟨c, es.map (·.1), es.map (·.2)⟩ fr =
          ((foundPair es fr).bind fun p => some (splineLerpToPath p.1.2.start (match p.1.2.stop with
            | some e => e
            | none => p.2.2.start) (if p.1.1.hold then lit 0 else pairWeight p.1.1 p.2.1 fr) c)).getD [] := by
        intro es
        rw [← found_weight es fr fun v0 v1 t e hold => some (splineLerpToPath v0.start (match v0.stop with
            | some e => e
            | none => v1.start) (if hold then lit 0 else t) c)]
        unfold AnimSpline.evaluate
        dsimp only
        cases Time.framesAndWeight (es.map (·.1)) fr with
        | none => rfl
        | some w =>
          dsimp only [Option.bind_some]
          cases (es.map (·.2))[w.ix0]? with
          | none => rfl
          | some v0 =>
            cases (es.map (·.2))[w.ix1]? with
            | none => rfl
            | some v1 => rfl
      rw [key, key, he]

end

/-! ### Relations between keyframes that do not matter at a frame -/

open Import

/-- The values are the same at the frame. -/
def EvalsAlike {F T : Type} [FloatOps F] [Tween F T] (fr : F) (v v' : Value F T) : Prop :=
  ∀ d, v'.evaluateOr fr d = v.evaluateOr fr d

theorem EvalsAlike.evaluate {F T : Type} [FloatOps F] [Tween F T] [RDefault T] {fr : F} {v v' : Value F T}
    (h : EvalsAlike fr v v') : v'.evaluate fr = v.evaluate fr := by
  have := h RDefault.dflt
  cases v <;> cases v' <;> exact this

theorem SameValue.alike {F T : Type} [FloatOps F] [Tween F T] {fr : F} {v v' : Value F T} (h : SameValue fr fr v v') :
    EvalsAlike fr v v' := fun d => h.evaluateOr d

theorem EvalsAlike.refl {F T : Type} [FloatOps F] [Tween F T] {fr : F} (v : Value F T) : EvalsAlike fr v v := fun _ => rfl

theorem Both.imp {α β : Type} {R S : α → β → Prop} {x : Except Fault α} {x' : Except Fault β} (h : Both R x x')
    (hi : ∀ v v', R v v' → S v v') : Both S x x' := fun v v' e e' => hi v v' (h v v' e e')

/-- Brushes are drawn with alpha 1, so that it does not matter whether they are folded. -/
theorem brush_unfolded {F : Type} [FloatOps F] [LawfulCmp F] [Kurbo F] [Libm F] (b : AnimBrush F) (fr : F) :
    b.intoModel.evaluate (lit 1) fr = b.evaluate (lit 1) fr := by
  unfold AnimBrush.intoModel
  split_ifs with h
  · show (if ((lit 1 : F) ==. lit 1) = true then _ else _) = _
    rw [if_pos ((LawfulCmp.eq_iff _ _).mpr ⟨_, _, LawfulCmp.val_one, LawfulCmp.val_one, rfl⟩)]
    cases b with
    | solid v =>
      simp only [AnimBrush.evaluate]
      rw [Value.evaluateOr_fixed h _ fr]
    | gradient g => exact AnimGradient.evaluate_fixed h _ _
  · rfl

/-- Properties whose values are related have the same values at the frame. -/
class Schema.KeyframeRelations.Sound {F : Type} [FloatOps F] [Kurbo F] [Libm F] (R : Schema.KeyframeRelations F) (fr : outParam F) :
    Prop where
  numbers : ∀ p p' : Schema.FloatValue F, p.Agrees R.numbers p' → Both (EvalsAlike fr) (convScalar p) (convScalar p')
  vectors : ∀ p p' : Schema.AnimatedProperty F (List F), p.Agrees R.vectors p' → EvalsAlike fr (convMulti p toP2) (convMulti p' toP2)
  colors : ∀ p p' : Schema.ColorValue F, p.Agrees R.colors p' → EvalsAlike fr (convColor p) (convColor p')
  gradients : ∀ g g' : Schema.GradientColors F, g.Agrees R g' →
    Both (fun s s' => s'.evaluate fr = s.evaluate fr) (convGradientColors g) (convGradientColors g')
  positions : ∀ p p' : Schema.Position F, p.Agrees R p' → EvalsAlike fr (convPosPoint p) (convPosPoint p')
  paths : ∀ p p' : Schema.ShapeProperty F, p.Agrees R p' →
    Both (OptRel (SameGeometry fr fr)) (convShapeGeometry p) (convShapeGeometry p')
  splits : ∀ (p : Schema.Position F) (x y : Schema.FloatValue F), R.splits p.value x.value y.value → ∀ vx vy, convScalar x = .ok vx →
    convScalar y = .ok vy → (⟨vx.evaluate fr, vy.evaluate fr⟩ : P2 F) = (convPosPoint p).evaluate fr := by
      exact fun _ _ _ h => False.elim h

instance {F : Type} [FloatOps F] [LawfulCmp F] [Kurbo F] [Libm F] (fr : F) : (Schema.aroundFrame fr).Sound fr where
  numbers _ _ h := (scalar_around h).imp fun _ _ h => h.alike
  vectors _ _ h := (multi_around toP2 h).alike
  colors _ _ h := (multi_around toColor h).alike
  gradients _ _ h := (gradientColors_around h).imp fun _ _ h => h.2.2
  positions _ _ h := (position_around h).alike
  paths _ _ h := path_around h

section
variable {F : Type} [FloatOps F] [Kurbo F] [Libm F] {fr : F} {R : Schema.KeyframeRelations F} [hR : R.Sound fr]
include hR

theorem scalar_agrees {p p' : Schema.FloatValue F} (h : p.Agrees R.numbers p') :
    Both (EvalsAlike fr) (convScalar p) (convScalar p') := hR.numbers p p' h

theorem vector_agrees {p p' : Schema.AnimatedProperty F (List F)} (h : p.Agrees R.vectors p') :
    EvalsAlike fr (convMulti p toP2) (convMulti p' toP2) := hR.vectors p p' h

theorem color_agrees {p p' : Schema.ColorValue F} (h : p.Agrees R.colors p') :
    EvalsAlike fr (convColor p) (convColor p') := hR.colors p p' h

theorem gradientColors_agree {g g' : Schema.GradientColors F} (h : g.Agrees R g') :
    Both (fun s s' => s'.evaluate fr = s.evaluate fr) (convGradientColors g) (convGradientColors g') := hR.gradients g g' h

theorem position_agrees {p p' : Schema.Position F} (h : p.Agrees R p') :
    EvalsAlike fr (convPosPoint p) (convPosPoint p') := hR.positions p p' h

theorem path_agrees {p p' : Schema.ShapeProperty F} (h : p.Agrees R p') :
    Both (OptRel (SameGeometry fr fr)) (convShapeGeometry p) (convShapeGeometry p') := hR.paths p p' h

theorem split_agrees {p : Schema.Position F} {x y : Schema.FloatValue F} (h : R.splits p.value x.value y.value) {vx vy : Value F F}
    (hx : convScalar x = .ok vx) (hy : convScalar y = .ok vy) :
    (⟨vx.evaluate fr, vy.evaluate fr⟩ : P2 F) = (convPosPoint p).evaluate fr := hR.splits p x y h vx vy hx hy

end
end Velato
