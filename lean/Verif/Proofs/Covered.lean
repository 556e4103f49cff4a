import Verif.Spec.Covered
import Verif.Proofs.Sources
import Verif.Proofs.ValuesOnly

/-!
# The geometry that a fill or stroke paints: helper lemmas
-/

namespace Velato
open FloatOps (lit)

section
variable {F : Type} [FloatOps F] [Libm F] [Kurbo F]

/-- All outlines of the layer so far. -/
def Sheet.all (S : Sheet F) : List (Outline F) := S.outer ++ S.outlines

omit [Libm F] [Kurbo F] in
theorem GroupedInto.nil : GroupedInto (F := F) [] [] := ⟨[], rfl, .nil⟩

omit [Libm F] [Kurbo F] in
theorem GroupedInto.snoc {gs : List (Affine F × List (PathEl F))} {os : List (Outline F)} (h : GroupedInto gs os)
    (T : Affine F) (els : List (PathEl F)) : GroupedInto (gs ++ [(T, els)]) (os ++ [⟨T, els⟩]) := by
  obtain ⟨parts, rfl, hp⟩ := h
  refine ⟨parts ++ [[(T, els)]], by simp, List.rel_append hp (.cons ⟨by simp, by simp, ?_⟩ .nil)⟩
  intro g hg
  cases List.mem_singleton.mp hg
  exact Or.inl rfl

omit [Libm F] [Kurbo F] in
theorem GroupedInto.merge {gs : List (Affine F × List (PathEl F))} {os : List (Outline F)} {o : Outline F}
    (h : GroupedInto gs (os ++ [o])) {T : Affine F} {els : List (PathEl F)} (hT : o.transform.beq T = true) :
    GroupedInto (gs ++ [(T, els)]) (os ++ [⟨o.transform, o.path ++ els⟩]) := by
  obtain ⟨parts, rfl, hp⟩ := h
  obtain ⟨parts₁, part, e, h1, h2⟩ : ∃ parts₁ part, parts = parts₁ ++ [part] ∧ List.Forall₂ _ parts₁ os ∧
      List.Forall₂ _ [part] [o] := by
    have h1 := List.forall₂_take_append _ _ _ hp
    have h2 := List.forall₂_drop_append _ _ _ hp
    have h3 := h2
    generalize e : List.drop os.length parts = l at h2
    cases h2 with
    | cons h h' =>
      cases h'
      rw [e] at h3
      exact ⟨_, _, by rw [← e, List.take_append_drop], h1, h3⟩
  subst e
  cases h2 with
  | cons h2 _ =>
    obtain ⟨k1, k2, k3⟩ := h2
    refine ⟨parts₁ ++ [part ++ [(T, els)]], by simp, List.rel_append h1 (.cons ⟨by simp, by simp [k2], ?_⟩ .nil)⟩
    intro g hg
    rcases List.mem_append.mp hg with hg | hg
    · exact k3 g hg
    · cases List.mem_singleton.mp hg
      exact Or.inr hT

/-- Geometry that comes next does not become part of one of the first `n` outlines. -/
structure Sheet.Above (n : Nat) (S : Sheet F) : Prop where
  le : n ≤ S.all.length
  last : S.unpainted = .nothing ∨ n < S.all.length
  kept : S.unpainted ≠ .emptied

omit [Libm F] [Kurbo F] in
theorem Sheet.add_all (S : Sheet F) (T : Affine F) (els : List (PathEl F)) :
    (S.add T els).outer.length = S.outer.length ∧ (S.add T els).unpainted = .geometry ∧
    (S.add T els).paintings = S.paintings ∧
    (S.unpainted ≠ .emptied → (S.add T els).all = S.all ++ [⟨T, els⟩] ∨ ∃ os o, S.unpainted ≠ .nothing ∧ S.all = os ++ [o] ∧
      o.transform.beq T = true ∧ (S.add T els).all = os ++ [⟨o.transform, o.path ++ els⟩]) := by
  unfold Sheet.add
  dsimp only
  split
  · rename_i o ho
    have e : S.outer ++ S.outlines = (S.outer ++ S.outlines).dropLast ++ [o] :=
      (List.dropLast_append_getLast? o ho).symm
    have hlen : (((S.outer ++ S.outlines).dropLast ++ [o]).take S.outer.length).length = S.outer.length := by
      rw [← e]; simp
    split_ifs with hc he
    · refine ⟨?_, rfl, rfl, fun hk => absurd he hk⟩
      simpa using hlen
    · refine ⟨?_, rfl, rfl, fun hk => Or.inr ⟨_, o, hc.1, e, hc.2, List.take_append_drop _ _⟩⟩
      simpa using hlen
    · exact ⟨rfl, rfl, rfl, fun _ => Or.inl (by simp [Sheet.all])⟩
  · exact ⟨rfl, rfl, rfl, fun _ => Or.inl (by simp [Sheet.all])⟩

/-- Without trims, all geometry is collected, and the fills and strokes stay as they are. -/
theorem items_covered {frame : F} {T : Affine F} {alpha : F} {items : List (Schema.AnyShape F)} {S S' : Sheet F}
    (h : ItemsDrawn frame T alpha items S S') (hn : ¬ TrimIn items) :
    S'.outer.length = S.outer.length ∧ S.paintings <+: S'.paintings ∧ ∃ gs, GeometryOf frame T items gs ∧
      ∀ n gs₀, S.Above n → GroupedInto gs₀ (S.all.drop n) → S'.Above n ∧ GroupedInto (gs₀ ++ gs) (S'.all.drop n) := by
  have tail : ∀ {s : Schema.AnyShape F} {rest}, ¬ TrimIn (s :: rest) → ¬ TrimIn rest := by
    intro s rest hn h
    cases h with
    | here h => exact hn (.here (List.mem_cons_of_mem _ h))
    | inner h ht => exact hn (.inner (List.mem_cons_of_mem _ h) ht)
  induction h with
  | nil => exact ⟨rfl, List.prefix_rfl, [], .nil, fun n gs₀ h hg => ⟨h, by simpa using hg⟩⟩
  | @geometry T alpha s els rest S S' h hr ih =>
    obtain ⟨h1, h2, gs, h3, h4⟩ := ih (tail hn)
    obtain ⟨a1, a2, a3, a4⟩ := S.add_all T els
    refine ⟨h1.trans a1, a3 ▸ h2, _, .geometry h h3, fun n gs₀ ha hg => ?_⟩
    have key : (S.add T els).Above n ∧ GroupedInto (gs₀ ++ [(T, els)]) ((S.add T els).all.drop n) := by
      rcases a4 ha.kept with e | ⟨os, o, hu, e, hT, e'⟩
      · refine ⟨⟨?_, Or.inr ?_, by rw [a2]; simp⟩, ?_⟩
        · rw [e]; simp; have := ha.le; omega
        · rw [e]; simp; have := ha.le; omega
        · rw [e, List.drop_append_of_le_length ha.le]
          exact hg.snoc T els
      · have hlt : n < S.all.length := ha.last.resolve_left hu
        rw [e] at hlt hg
        simp at hlt
        have hle : n ≤ os.length := by omega
        refine ⟨⟨?_, Or.inr ?_, by rw [a2]; simp⟩, ?_⟩
        · rw [e']; simp; omega
        · rw [e']; simp; omega
        · rw [e', List.drop_append_of_le_length hle]
          rw [List.drop_append_of_le_length hle] at hg
          exact hg.merge hT
    obtain ⟨k1, k2⟩ := h4 n _ key.1 key.2
    exact ⟨k1, by simpa using k2⟩
  | @group T alpha e nm i items rest M k S E S' ht hi hr ihi ihr =>
    obtain ⟨h1, h2, gs, h3, h4⟩ := ihi (fun h => hn (.inner List.mem_cons_self h))
    obtain ⟨k1, k2, gs', k3, k4⟩ := ihr (tail hn)
    refine ⟨?_, ?_, _, .group ht h3 k3, fun n gs₀ ha hg => ?_⟩
    · rw [k1]
      show (E.outer.take S.outer.length).length = _
      have : E.outer.length = S.outer.length + S.outlines.length := by rw [h1]; simp [Sheet.enter]
      simp [this]
    · exact (List.prefix_append _ _).trans k2
    · have e1 : S.enter.all = S.all := by simp [Sheet.all, Sheet.enter]
      have e2 : (S.leave E).all = E.all := by
        simp [Sheet.all, Sheet.leave, ← List.append_assoc]
      obtain ⟨a1, g1⟩ := h4 n gs₀ ⟨by rw [e1]; exact ha.le, by rw [e1]; exact ha.last, ha.kept⟩ (by rwa [e1])
      rw [← List.append_assoc]
      exact k4 n _ ⟨by rw [e2]; exact a1.le, by rw [e2]; exact a1.last, a1.kept⟩ (by rwa [e2])
  | @paint T alpha s p rest S S' hp hr ih =>
    obtain ⟨h1, h2, gs, h3, h4⟩ := ih (tail hn)
    refine ⟨h1, (List.prefix_append _ _).trans h2, gs, .paint (isPaint_of hp) h3, fun n gs₀ ha hg => ?_⟩
    exact h4 n gs₀ ⟨ha.le, Or.inl rfl, by simp [Sheet.draw]⟩ hg
  | trim ht hr ih => exact absurd (.here List.mem_cons_self) hn
  | ignored h hr ih =>
    obtain ⟨h1, h2, gs, h3, h4⟩ := ih (tail hn)
    exact ⟨h1, h2, gs, .ignored h h3, h4⟩

theorem items_opens {frame : F} {T : Affine F} {alpha : F} {items : List (Schema.AnyShape F)} {S S' : Sheet F}
    (h : ItemsDrawn frame T alpha items S S') : ∀ {b b'}, Opens items b b' → (b = false → S.unpainted = .nothing) →
      b' = false → S'.unpainted = .nothing := by
  induction h with
  | nil => intro b b' ho hb hb'; cases ho; exact hb hb'
  | @geometry T alpha s els rest S S' h hr ih =>
    intro b b' ho hb
    have hg := isGeometry_of h
    cases ho with
    | geometry _ ho => exact ih ho (fun h => by cases h)
    | paint h' ho => cases s <;> first | exact h'.elim | exact hg.elim
    | group => exact hg.elim
    | ignored h' ho => cases s <;> first | exact h'.elim | exact hg.elim | exact absurd h' hg
  | @group T alpha e nm i items rest M k S E S' ht hi hr ihi ihr =>
    intro b b' ho hb
    cases ho with
    | geometry h => exact h.elim
    | paint h => exact h.elim
    | group h1 h2 => exact ihr h2 (fun hc => ihi h1 hb hc)
    | ignored h => exact h.elim
  | @paint T alpha s p rest S S' hp hr ih =>
    intro b b' ho hb
    have hg := isPaint_of hp
    cases ho with
    | paint _ ho => exact ih ho (fun _ => rfl)
    | geometry h' ho => cases s <;> first | exact h'.elim | exact hg.elim
    | group => exact hg.elim
    | ignored h' ho => cases s <;> first | exact h'.elim | exact hg.elim
  | @trim T alpha s t rest S S' ht hr ih =>
    intro b b' ho hb
    cases ho with
    | geometry h => exact h.elim
    | paint h => exact h.elim
    | ignored h => exact h.elim
  | @ignored T alpha s rest S S' h hr ih =>
    intro b b' ho hb
    cases ho with
    | ignored _ ho => exact ih ho hb
    | geometry h' ho => cases s <;> first | exact h'.elim | exact h.elim | exact absurd h h'
    | paint h' ho => cases s <;> first | exact h'.elim | exact h.elim
    | group => exact h.elim

theorem items_append {fr : F} {T : Affine F} {al : F} {xs ys : List (Schema.AnyShape F)} {S S' : Sheet F} :
    ItemsDrawn fr T al (xs ++ ys) S S' → ∃ S₁, ItemsDrawn fr T al xs S S₁ ∧ ItemsDrawn fr T al ys S₁ S' := by
  induction xs generalizing S with
  | nil => exact fun h => ⟨S, .nil, h⟩
  | cons x xs ih =>
    intro h
    obtain ⟨S₁, h1, h2⟩ := items_cons.mp h
    obtain ⟨S₂, h3, h4⟩ := ih h2
    exact ⟨S₂, items_cons.mpr ⟨S₁, h1, h3⟩, h4⟩

omit [FloatOps F] [Libm F] [Kurbo F] in
theorem TrimIn.mono {ss ss' : List (Schema.AnyShape F)} (h : TrimIn ss) (hs : ∀ s ∈ ss, s ∈ ss') : TrimIn ss' := by
  cases h with
  | here h => exact .here (hs _ h)
  | inner h ht => exact .inner (hs _ h) ht

/-- A fill or stroke in a group that begins where everything has been painted. -/
theorem clear_paints {frame : F} {ss xs : List (Schema.AnyShape F)} (hx : ClearTo ss xs) :
    ∀ {T : Affine F} {alpha : F} {S S' : Sheet F}, ItemsDrawn frame T alpha ss S S' → ¬ TrimIn ss →
      S.unpainted = .nothing → S.outlines = [] → ∃ T' al', GroupsTo frame ss T alpha xs T' al' ∧
      ∀ pre s post, xs = pre ++ s :: post → s.IsPaint → ∃ p os gs, PaintOf al' frame p s ∧ GeometryOf frame T' pre gs ∧
        GroupedInto gs os ∧ ⟨p, os⟩ ∈ S'.paintings := by
  induction hx with
  | @here ss =>
    intro T alpha S S' h hn hu ho
    refine ⟨T, alpha, .here, fun pre s post e hs => ?_⟩
    subst e
    obtain ⟨S₁, h1, h2⟩ := items_append h
    obtain ⟨k1, k2, gs, k3, k4⟩ := items_covered h1 fun h => hn (h.mono fun _ hx => List.mem_append_left _ hx)
    have hall : S.all.length = S.outer.length := by simp [Sheet.all, ho]
    obtain ⟨-, hg⟩ := k4 S.outer.length [] ⟨hall.ge, Or.inl hu, by simp [hu]⟩
      (by simp [Sheet.all, ho]; exact .nil)
    obtain ⟨S₂, h3, h4⟩ := items_cons.mp h2
    obtain ⟨p, hp, rfl⟩ := (one_paint hs).mp h3
    obtain ⟨-, m2, -⟩ := items_covered h4 fun h => hn (h.mono fun _ hx =>
      List.mem_append_right _ (List.mem_cons_of_mem _ hx))
    refine ⟨p, S₁.outlines, gs, hp, k3, ?_, m2.subset (by simp [Sheet.draw])⟩
    rw [← k1] at hg
    simpa [Sheet.all] using hg
  | @group pre e n items i post xs hp hx ih =>
    intro T alpha S S' h hn hu ho
    obtain ⟨S₁, h1, h2⟩ := items_append h
    have hu₁ := items_opens h1 hp (fun _ => hu) rfl
    obtain ⟨S₂, h3, h4⟩ := items_cons.mp h2
    obtain ⟨M, k, E, hM, hi, rfl⟩ := one_group.mp h3
    obtain ⟨T', al', hx', hall⟩ := ih hi (fun h => hn (.inner (List.mem_append_right _ List.mem_cons_self) h)) hu₁ rfl
    obtain ⟨-, m2, -⟩ := items_covered h4 fun h => hn (h.mono fun _ hx =>
      List.mem_append_right _ (List.mem_cons_of_mem _ hx))
    refine ⟨T', al', .group (List.mem_append_right _ List.mem_cons_self) hM hx', fun pre s post e hs => ?_⟩
    obtain ⟨p, os, gs, j1, j2, j3, j4⟩ := hall pre s post e hs
    exact ⟨p, os, gs, j1, j2, j3, m2.subset (List.mem_append_right _ j4)⟩

/-! ## Layers -/

theorem list_layer {a : Schema.Animation F} {src ls : List (Schema.AnyLayer F)} {l : Schema.AnyLayer F} (hm : ¬ l.Matte) :
    ∀ {T : Affine F} {al fr : F} {number : Nat → Nat} {i : Nat} {per : List (List (Op F))}, l ∈ ls →
      LayerListDrawn a src T al fr number i ls per →
      ∃ ix j ops, ops ∈ per ∧ LayerDrawn a src T al fr ix j l ops := by
  induction ls with
  | nil => intro T al fr number i per h; cases h
  | cons x ls ih =>
    intro T al fr number i per h hd
    cases hd with
    | matte hx hs =>
      rcases List.mem_cons.mp h with rfl | h
      · exact absurd hx hm
      · obtain ⟨ix, j, ops, h1, h2⟩ := ih h hs
        exact ⟨ix, j, ops, List.mem_cons_of_mem _ h1, h2⟩
    | layer hx hl hs =>
      rcases List.mem_cons.mp h with rfl | h
      · exact ⟨_, _, _, List.mem_cons_self, hl⟩
      · obtain ⟨ix, j, ops, h1, h2⟩ := ih h hs
        exact ⟨ix, j, ops, List.mem_cons_of_mem _ h1, h2⟩

theorem layer_content {a : Schema.Animation F} {src : List (Schema.AnyLayer F)} {l : Schema.AnyLayer F} {T : Affine F}
    {al fr : F} {ix i : Nat} {ops : List (Op F)} (h : LayerDrawn a src T al fr ix i l ops) (hd : l.During fr) :
    ∃ P M o co, PlacedAt src fr l P ∧ LayerAt fr l M o ∧ ContentDrawn a (T.mul P) (al *. o /. lit 100) fr l co ∧
      co <:+: ops := by
  cases h with
  | absent h => exact absurd hd h
  | @plain _ _ _ _ _ _ _ P M o ms co h hm hP hk hms hco =>
    refine ⟨P, M, o, co, hP, hk, hco, [.beginGroup (l.visual.layer.visualObject.name.getD "") ix] ++ ms,
      List.replicate ms.length .pop ++ [.endGroup], ?_⟩
    simp [announced]
  | @matted _ _ _ _ _ _ _ P M o ms co b j m mo h hm hj hmo hP hk hms hco =>
    refine ⟨P, M, o, co, hP, hk, hco, [.beginGroup (l.visual.layer.visualObject.name.getD "") ix] ++
      [.pushLayer (.ofMix .normal) (lit 1) T a.area] ++ mo ++ [.pushLayer b (lit 1) T a.area] ++ ms,
      List.replicate ms.length .pop ++ [.pop, .pop] ++ [.endGroup], ?_⟩
    simp [announced, composed]

omit [FloatOps F] [Libm F] [Kurbo F] in
theorem infix_flatten {α : Type*} {x : List α} {xs : List (List α)} (h : x ∈ xs) : x <:+: xs.reverse.flatten := by
  obtain ⟨u, v, e⟩ := List.append_of_mem (List.mem_reverse.mpr h)
  exact ⟨u.flatten, v.flatten, by rw [e]; simp⟩

theorem shown_drawn {a : Schema.Animation F} {src : List (Schema.AnyLayer F)} {fr fr' : F} {q : Schema.ShapeLayer F}
    (h : ShownLayer a src fr q fr') : ∀ {T : Affine F} {al : F} {number : Nat → Nat} {i : Nat}
      {per : List (List (Op F))}, LayerListDrawn a src T al fr number i src per →
      ∃ T' al' S, Reaches a src fr T al q fr' T' al' ∧ ItemsDrawn fr' T' al' q.shapes .empty S ∧
        S.calls <:+: per.reverse.flatten := by
  induction h with
  | here h hm hd hv =>
    intro T al number i per hl
    obtain ⟨ix, j, ops, h1, h2⟩ := list_layer hm h hl
    obtain ⟨P, M, o, co, k1, k2, k3, k4⟩ := layer_content h2 hd
    cases k3 with
    | hidden h => exact absurd h hv
    | nothing hs => exact absurd rfl (hs _)
    | shape _ hss => exact ⟨_, _, _, .here h hd hv k1 k2, hss, k4.trans (infix_flatten h1)⟩
  | @«instance» ls frame x p q frame' i₀ h hm hd hv hp hid hlast hq ih =>
    intro T al number i per hl
    obtain ⟨ix, j, ops, h1, h2⟩ := list_layer hm h hl
    obtain ⟨P, M, o, co, k1, k2, k3, k4⟩ := layer_content h2 hd
    cases k3 with
    | hidden h => exact absurd h hv
    | nothing _ hs => exact absurd rfl (hs _)
    | missing hn => exact absurd hid (hn p (List.mem_of_getElem? hp))
    | @precomposition _ _ _ _ p' per' i' _ hp' hid' hlast' hls =>
      have e : i' = i₀ := by
        rcases Nat.lt_trichotomy i' i₀ with hlt | e | hlt
        · exact absurd hid (hlast' _ _ hlt hp)
        · exact e
        · exact absurd hid' (hlast _ _ hlt hp')
      subst e
      rw [hp] at hp'
      cases hp'
      obtain ⟨T', al', S, m1, m2, m3⟩ := ih hls
      exact ⟨T', al', S, .instance h hd hv k1 k2 (List.mem_of_getElem? hp) hid m1, m2,
        (m3.trans k4).trans (infix_flatten h1)⟩

end
end Velato
