import Verif.Spec.Sources

/-!
# The fill or stroke and the geometry that a call comes from: helper lemmas
-/

namespace Velato
open FloatOps (lit)

section
variable {F : Type} [FloatOps F] [Libm F] [Kurbo F]

theorem GroupsTo.mono {frame : F} {ss ss' xs : List (Schema.AnyShape F)} {T T' : Affine F} {al al' : F}
    (h : GroupsTo frame ss T al xs T' al') (hs : ∀ s ∈ ss, s ∈ ss') :
    ∃ ys, GroupsTo frame ss' T al ys T' al' ∧ ∀ x ∈ xs, x ∈ ys := by
  cases h with
  | here => exact ⟨ss', .here, hs⟩
  | group h hM hx => exact ⟨xs, .group (hs _ h) hM hx, fun _ h => h⟩

theorem Supplies.mono {frame : F} {ss ss' : List (Schema.AnyShape F)} {T T' : Affine F} {els : List (PathEl F)}
    (h : Supplies frame ss T T' els) (hs : ∀ s ∈ ss, s ∈ ss') : Supplies frame ss' T T' els := by
  obtain ⟨al, xs, al', g, h1, h2, h3⟩ := h
  obtain ⟨ys, h4, h5⟩ := h1.mono hs
  exact ⟨al, ys, al', g, h4, h5 g h2, h3⟩

theorem GroupsTo.retint {frame : F} {ss xs : List (Schema.AnyShape F)} {T T' : Affine F} {al al' : F}
    (h : GroupsTo frame ss T al xs T' al') : ∀ b, ∃ b', GroupsTo frame ss T b xs T' b' := by
  induction h with
  | here => exact fun b => ⟨b, .here⟩
  | group h hM _ ih =>
    intro b
    obtain ⟨b', hb⟩ := ih _
    exact ⟨b', .group h hM hb⟩

/-- The outline consists of parts that `A` allows, with the matrix that places them; but if `tr`, it may be anything
that is placed so. -/
def Made (tr : Prop) (A : Affine F → List (PathEl F) → Prop) (o : Outline F) : Prop :=
  ∃ parts : List (List (PathEl F)), parts ≠ [] ∧
    (∀ part ∈ parts, ∃ T, A T part ∧ (o.transform = T ∨ o.transform.beq T = true)) ∧ (¬ tr → o.path = parts.flatten)

omit [Libm F] [Kurbo F] in
theorem Made.mono {tr : Prop} {A B : Affine F → List (PathEl F) → Prop} {o : Outline F} (h : Made tr A o)
    (hAB : ∀ T els, A T els → B T els) : Made tr B o := by
  obtain ⟨parts, h1, h2, h3⟩ := h
  refine ⟨parts, h1, fun part hp => ?_, h3⟩
  obtain ⟨T, hT, e⟩ := h2 part hp
  exact ⟨T, hAB _ _ hT, e⟩

omit [Libm F] [Kurbo F] in
theorem Made.single {tr : Prop} {A : Affine F → List (PathEl F) → Prop} {T : Affine F} {els : List (PathEl F)}
    (h : A T els) : Made tr A ⟨T, els⟩ := by
  refine ⟨[els], by simp, fun part hp => ?_, fun _ => by simp⟩
  cases List.mem_singleton.mp hp
  exact ⟨T, h, Or.inl rfl⟩

omit [Libm F] [Kurbo F] in
theorem Made.more {tr : Prop} {A : Affine F → List (PathEl F) → Prop} {o : Outline F} (h : Made tr A o) {T : Affine F}
    {els before : List (PathEl F)} (hA : A T els) (hT : o.transform.beq T = true) (hb : ¬ tr → before = o.path) :
    Made tr A ⟨o.transform, before ++ els⟩ := by
  obtain ⟨parts, h1, h2, h3⟩ := h
  refine ⟨parts ++ [els], by simp, fun part hp => ?_, fun ht => ?_⟩
  · rcases List.mem_append.mp hp with hp | hp
    · exact h2 part hp
    · cases List.mem_singleton.mp hp
      exact ⟨T, hA, Or.inr hT⟩
  · simp [hb ht, h3 ht]

omit [Libm F] in
theorem Made.cut {tr : Prop} {A : Affine F → List (PathEl F) → Prop} {o : Outline F} (h : Made tr A o) (htr : tr)
    (t : FixedTrim F) : Made tr A (t.cut o) := by
  obtain ⟨parts, h1, h2, h3⟩ := h
  have e : (t.cut o).transform = o.transform := by
    unfold FixedTrim.cut
    split
    · rfl
    · split_ifs <;> rfl
  exact ⟨parts, h1, by rw [e]; exact h2, fun h => absurd htr h⟩

/-- The painting comes from a fill or stroke in shapes for which `W` holds, and from geometry before it. -/
def Sourced (tr : Prop) (frame : F) (W : List (Schema.AnyShape F) → Affine F → F → Prop) (p : Painting F) : Prop :=
  ∃ xs T al pre s post, W xs T al ∧ xs = pre ++ s :: post ∧ PaintOf al frame p.paint s ∧
    ∀ o ∈ p.outlines, Made tr (Supplies frame pre T) o

/-- What is known of a sheet: the outlines before the group are made of what `As` allow, those in the group of
geometry among `done`. -/
structure Sheet.From (tr : Prop) (frame : F) (W : List (Schema.AnyShape F) → Affine F → F → Prop)
    (As : List (Affine F → List (PathEl F) → Prop)) (done : List (Schema.AnyShape F)) (T : Affine F) (S : Sheet F) :
    Prop where
  outer : List.Forall₂ (Made tr) As S.outer
  outlines : ∀ o ∈ S.outlines, Made tr (Supplies frame done T) o
  paintings : ∀ p ∈ S.paintings, Sourced tr frame W p
  unpainted : ¬ tr → S.unpainted ≠ .emptied

omit [FloatOps F] [Libm F] [Kurbo F] in
theorem forall₂_replicate {α β : Type*} {R : α → β → Prop} {a : α} {l : List β} (h : ∀ b ∈ l, R a b) :
    List.Forall₂ R (List.replicate l.length a) l := by
  induction l with
  | nil => exact .nil
  | cons b l ih => exact .cons (h b List.mem_cons_self) (ih fun b hb => h b (List.mem_cons_of_mem _ hb))

omit [FloatOps F] [Libm F] [Kurbo F] in
theorem of_forall₂_replicate {α β : Type*} {R : α → β → Prop} {a : α} {n : Nat} {l : List β}
    (h : List.Forall₂ R (List.replicate n a) l) : ∀ b ∈ l, R a b := by
  induction l generalizing n with
  | nil => exact fun _ h => absurd h List.not_mem_nil
  | cons b l ih =>
    cases n with
    | zero => cases h
    | succ n =>
      cases h with
      | cons h1 h2 =>
        intro x hx
        rcases List.mem_cons.mp hx with rfl | hx
        · exact h1
        · exact ih h2 x hx

omit [FloatOps F] [Libm F] [Kurbo F] in
theorem forall₂_last {α β : Type*} {R : α → β → Prop} {o o' : β} {l : List β} {as : List α}
    (h : List.Forall₂ R as (l ++ [o])) (hR : ∀ a ∈ as, R a o → R a o') : List.Forall₂ R as (l ++ [o']) := by
  induction l generalizing as with
  | nil =>
    cases h with
    | cons h1 h2 => exact .cons (hR _ List.mem_cons_self h1) h2
  | cons b l ih =>
    cases h with
    | cons h1 h2 => exact .cons h1 (ih h2 fun a ha => hR a (List.mem_cons_of_mem _ ha))

theorem Sheet.From.add {tr : Prop} {frame : F} {W : List (Schema.AnyShape F) → Affine F → F → Prop}
    {As : List (Affine F → List (PathEl F) → Prop)} {done : List (Schema.AnyShape F)} {T : Affine F} {S : Sheet F}
    (h : S.From tr frame W As done T) {s : Schema.AnyShape F} {els : List (PathEl F)} (hs : OutlineAt frame s els)
    (hA : ∀ A ∈ As, A T els) : (S.add T els).From tr frame W As (done ++ [s]) T := by
  have new : Supplies frame (done ++ [s]) T T els := ⟨lit 1, _, _, s, .here, by simp, hs⟩
  have old : ∀ o ∈ S.outlines, Made tr (Supplies frame (done ++ [s]) T) o := fun o ho =>
    (h.outlines o ho).mono fun _ _ h => h.mono fun x hx => List.mem_append_left _ hx
  have app : ∀ o ∈ S.outlines ++ [⟨T, els⟩], Made tr (Supplies frame (done ++ [s]) T) o := by
    intro o ho
    rcases List.mem_append.mp ho with ho | ho
    · exact old o ho
    · cases List.mem_singleton.mp ho
      exact Made.single new
  unfold Sheet.add
  dsimp only
  split
  · rename_i o ho
    have merged : ∀ before, (¬ tr → before = o.path) → o.transform.beq T = true →
        let all := (S.outer ++ S.outlines).dropLast ++ [⟨o.transform, before ++ els⟩]
        List.Forall₂ (Made tr) As (all.take S.outer.length) ∧
          ∀ x ∈ all.drop S.outer.length, Made tr (Supplies frame (done ++ [s]) T) x := by
      intro before hb hT all
      set B := Supplies frame (done ++ [s]) T with hB
      have hall : List.Forall₂ (Made tr) (As ++ List.replicate S.outlines.length B) (S.outer ++ S.outlines) :=
        List.rel_append h.outer (forall₂_replicate old)
      have hmem : ∀ A ∈ As ++ List.replicate S.outlines.length B, A T els := by
        intro A hA'
        rcases List.mem_append.mp hA' with hA' | hA'
        · exact hA A hA'
        · cases (List.mem_replicate.mp hA').2
          exact new
      have key : List.Forall₂ (Made tr) (As ++ List.replicate S.outlines.length B) all := by
        have e : S.outer ++ S.outlines = (S.outer ++ S.outlines).dropLast ++ [o] :=
          (List.dropLast_append_getLast? o ho).symm
        rw [e] at hall
        exact forall₂_last hall fun A hA' ho' => ho'.more (hmem A hA') hT hb
      have hlen : S.outer.length = As.length := h.outer.length_eq.symm
      refine ⟨?_, of_forall₂_replicate (n := S.outlines.length) (a := B) ?_⟩
      · have := List.forall₂_take S.outer.length key
        rw [hlen, List.take_left] at this
        rwa [hlen]
      · have := List.forall₂_drop S.outer.length key
        rw [hlen, List.drop_left] at this
        rwa [hlen]
    split_ifs with hc he
    · obtain ⟨m1, m2⟩ := merged S.elements (fun ht => absurd he (h.unpainted ht)) hc.2
      exact ⟨m1, m2, h.paintings, by simp⟩
    · obtain ⟨m1, m2⟩ := merged o.path (fun _ => rfl) hc.2
      exact ⟨m1, m2, h.paintings, by simp⟩
    · exact ⟨h.outer, app, h.paintings, by simp⟩
  · exact ⟨h.outer, app, h.paintings, by simp⟩

theorem items_sources {tr : Prop} {frame : F} {W : List (Schema.AnyShape F) → Affine F → F → Prop}
    (hW : ∀ {xs T al e n i items M k}, W xs T al → Schema.AnyShape.group e n items i ∈ xs →
      GroupAt frame (groupTransform items) M k → W items (T.mul M) (al *. k))
    (htr : ∀ {xs T al t}, W xs T al → Schema.AnyShape.trim t ∈ xs → tr)
    {T : Affine F} {alpha : F} {items : List (Schema.AnyShape F)} {S S' : Sheet F}
    (h : ItemsDrawn frame T alpha items S S') :
    ∀ (done : List (Schema.AnyShape F)) (As : List (Affine F → List (PathEl F) → Prop)), W (done ++ items) T alpha →
      (∀ A ∈ As, ∀ T' els, Supplies frame (done ++ items) T T' els → A T' els) → S.From tr frame W As done T →
      S'.From tr frame W As (done ++ items) T := by
  have grow : ∀ {As : List (Affine F → List (PathEl F) → Prop)} {done : List (Schema.AnyShape F)} {T : Affine F}
      {S : Sheet F} (s : Schema.AnyShape F), S.From tr frame W As done T → S.From tr frame W As (done ++ [s]) T := by
    intro As done T S s h
    exact ⟨h.outer, fun o ho => (h.outlines o ho).mono fun _ _ h => h.mono fun x hx => List.mem_append_left _ hx,
      h.paintings, h.unpainted⟩
  have assoc : ∀ (done : List (Schema.AnyShape F)) s rest, done ++ [s] ++ rest = done ++ s :: rest := by
    intros; simp
  induction h with
  | nil => intro done As _ _ hS; simpa using hS
  | @geometry T alpha s els rest S S' h hr ih =>
    intro done As hw hA hS
    have := ih (done ++ [s]) As (by rwa [assoc]) (by rwa [assoc])
      (hS.add h fun A hA' => hA A hA' _ _ ⟨lit 1, _, _, s, .here, by simp, h⟩)
    rwa [assoc] at this
  | @group T alpha e nm i items rest M k S E S' ht hi hr ihi ihr =>
    intro done As hw hA hS
    have hg : Schema.AnyShape.group e nm items i ∈ done ++ .group e nm items i :: rest := by simp
    have inner : ∀ {T' els}, Supplies frame items (T.mul M) T' els →
        ∀ {ys}, Schema.AnyShape.group e nm items i ∈ ys → Supplies frame ys T T' els := by
      rintro T' els ⟨al, xs, al', g, h1, h2, h3⟩ ys hy
      obtain ⟨b, hb⟩ := h1.retint (lit 1 *. k)
      exact ⟨lit 1, xs, b, g, .group hy ht hb, h2, h3⟩
    set G := Schema.AnyShape.group e nm items i with hG
    set B := Supplies frame (done ++ [G]) T with hB
    have hE := ihi [] (As ++ List.replicate S.outlines.length B) (hW hw hg ht)
      (by
        intro A hA' T' els hs
        rcases List.mem_append.mp hA' with hA' | hA'
        · exact hA A hA' T' els (inner hs hg)
        · cases (List.mem_replicate.mp hA').2
          exact inner hs (by simp [hG]))
      ⟨List.rel_append hS.outer (forall₂_replicate (grow G hS).outlines), fun _ h => absurd h List.not_mem_nil,
        fun _ h => absurd h List.not_mem_nil, hS.unpainted⟩
    have hlen : S.outer.length = As.length := hS.outer.length_eq.symm
    have := ihr (done ++ [G]) As (by rwa [assoc]) (by rwa [assoc]) (by
      refine ⟨?_, ?_, ?_, hE.unpainted⟩
      · have := List.forall₂_take S.outer.length hE.outer
        rw [hlen, List.take_left] at this
        show List.Forall₂ _ _ (E.outer.take S.outer.length)
        rwa [hlen]
      · intro o ho
        rcases List.mem_append.mp ho with ho | ho
        · have := List.forall₂_drop S.outer.length hE.outer
          rw [hlen, List.drop_left] at this
          rw [hlen] at ho
          exact of_forall₂_replicate this o ho
        · exact (hE.outlines o ho).mono fun T' els hs => inner hs (by simp [hG])
      · exact fun p hp => (List.mem_append.mp hp).elim (hS.paintings p) (hE.paintings p))
    rwa [assoc] at this
  | @paint T alpha s p rest S S' hp hr ih =>
    intro done As hw hA hS
    have := ih (done ++ [s]) As (by rwa [assoc]) (by rwa [assoc])
      ⟨hS.outer, (grow s hS).outlines, fun q hq => by
        rcases List.mem_append.mp hq with hq | hq
        · exact hS.paintings q hq
        · cases List.mem_singleton.mp hq
          exact ⟨_, _, _, done, s, rest, hw, rfl, hp, hS.outlines⟩, by simp [Sheet.draw]⟩
    rwa [assoc] at this
  | @trim T alpha s t rest S S' ht hr ih =>
    intro done As hw hA hS
    have htr' : tr := htr hw (t := s) (by simp)
    have h1 : ∀ o ∈ S.outlines.map t.cut, Made tr (Supplies frame (done ++ [.trim s]) T) o := by
      intro o ho
      obtain ⟨o', ho', rfl⟩ := List.mem_map.mp ho
      exact ((grow _ hS).outlines o' ho').cut htr' t
    have h2 : ∀ p ∈ S.paintings.map fun p => (⟨p.paint, p.outlines.map t.cut⟩ : Painting F),
        Sourced tr frame W p := by
      intro p hp
      obtain ⟨p', hp', rfl⟩ := List.mem_map.mp hp
      obtain ⟨xs, T, al, pre, s, post, h1, h2, h3, h4⟩ := hS.paintings p' hp'
      refine ⟨xs, T, al, pre, s, post, h1, h2, h3, fun o ho => ?_⟩
      obtain ⟨o', ho', rfl⟩ := List.mem_map.mp ho
      exact (h4 o' ho').cut htr' t
    have := ih (done ++ [.trim s]) As (by rwa [assoc]) (by rwa [assoc]) (by
      unfold Sheet.trim
      dsimp only
      split_ifs <;> exact ⟨hS.outer, h1, h2, fun h => absurd htr' h⟩)
    rwa [assoc] at this
  | @ignored T alpha s rest S S' h hr ih =>
    intro done As hw hA hS
    have := ih (done ++ [s]) As (by rwa [assoc]) (by rwa [assoc]) (grow s hS)
    rwa [assoc] at this

/-- If the call draws, it is as `G` allows. -/
def Op.Drawn (G : Option (KStroke F) → Affine F → Brush F → List (PathEl F) → Prop) (op : Op F) : Prop :=
  ∀ st T b path, op = .draw st T b path → G st T b path

/-- The calls that come from the shape layer `q`. -/
def FromLayer (q : Schema.ShapeLayer F) (frame : F) (T : Affine F) (al : F) (st : Option (KStroke F)) (T' : Affine F)
    (b : Brush F) (path : List (PathEl F)) : Prop :=
  ∃ xs T₂ al₂ pre s post p parts, GroupsTo frame q.shapes T al xs T₂ al₂ ∧ xs = pre ++ s :: post ∧
    PaintOf al₂ frame p s ∧ st = p.stroke ∧ b = p.finalBrush ∧ parts ≠ [] ∧
    (∀ part ∈ parts, ∃ T'', Supplies frame pre T₂ T'' part ∧ (T' = T'' ∨ T'.beq T'' = true)) ∧
    (¬ TrimIn q.shapes → path = parts.flatten)

theorem GroupsTo.trans {frame : F} {ss xs ys : List (Schema.AnyShape F)} {T T' T'' : Affine F} {al al' al'' : F}
    (h : GroupsTo frame ss T al xs T' al') (h' : GroupsTo frame xs T' al' ys T'' al'') :
    GroupsTo frame ss T al ys T'' al'' := by
  induction h with
  | here => exact h'
  | group h hM _ ih => exact .group h hM (ih h')

theorem GroupsTo.trimIn {frame : F} {ss xs : List (Schema.AnyShape F)} {T T' : Affine F} {al al' : F}
    (h : GroupsTo frame ss T al xs T' al') (ht : TrimIn xs) : TrimIn ss := by
  induction h with
  | here => exact ht
  | group h _ _ ih => exact .inner h (ih ht)

theorem calls_sources {q : Schema.ShapeLayer F} {frame : F} {T : Affine F} {al : F} {S : Sheet F}
    (h : ItemsDrawn frame T al q.shapes .empty S) : ∀ op ∈ S.calls, op.Drawn (FromLayer q frame T al) := by
  have key := items_sources (tr := TrimIn q.shapes) (W := fun xs T' al' => GroupsTo frame q.shapes T al xs T' al')
    (fun h hm hM => h.trans (.group hm hM .here)) (fun h hm => h.trimIn (.here hm)) h [] [] .here
    (fun _ h => absurd h List.not_mem_nil)
    ⟨.nil, fun _ h => absurd h List.not_mem_nil, fun _ h => absurd h List.not_mem_nil, fun _ => by simp [Sheet.empty]⟩
  intro op hop
  obtain ⟨p, hp, hop⟩ := List.mem_flatMap.mp hop
  obtain ⟨o, ho, rfl⟩ := List.mem_map.mp hop
  intro st T' b path e
  cases e
  obtain ⟨xs, T₂, al₂, pre, s, post, h1, h2, h3, h4⟩ := key.paintings p (List.mem_reverse.mp hp)
  obtain ⟨parts, m1, m2, m3⟩ := h4 o ho
  exact ⟨xs, T₂, al₂, pre, s, post, _, parts, h1, h2, h3, rfl, rfl, m1, m2, m3⟩

section
variable {G : Option (KStroke F) → Affine F → Brush F → List (PathEl F) → Prop}

theorem masks_sources {frame : F} {T : Affine F} {ms : List (Schema.Mask F)}
    {ops : List (Op F)} (h : MasksDrawn frame T ms ops) : ∀ op ∈ ops, op.Drawn G := by
  induction h with
  | nil => exact fun _ h => absurd h List.not_mem_nil
  | keep _ _ _ _ ih =>
    intro op hop
    rcases List.mem_cons.mp hop with rfl | hop
    · intro st T b path e; cases e
    · exact ih op hop
  | drop _ _ ih => exact ih

omit [FloatOps F] [Libm F] [Kurbo F] in
theorem announced_sources {l : Schema.AnyLayer F} {ix : Nat} {ops : List (Op F)}
    (h : ∀ op ∈ ops, op.Drawn G) : ∀ op ∈ announced l ix ops, op.Drawn G := by
  intro op hop
  unfold announced at hop
  simp only [List.mem_append, List.mem_singleton] at hop
  rcases hop with (rfl | hop) | rfl
  · intro st T b path e; cases e
  · exact h op hop
  · intro st T b path e; cases e

omit [FloatOps F] [Libm F] [Kurbo F] in
theorem body_sources {ms co : List (Op F)} (h1 : ∀ op ∈ ms, op.Drawn G)
    (h2 : ∀ op ∈ co, op.Drawn G) : ∀ op ∈ ms ++ co ++ List.replicate ms.length .pop, op.Drawn G := by
  intro op hop
  simp only [List.mem_append, List.mem_replicate] at hop
  rcases hop with (hop | hop) | ⟨-, rfl⟩
  · exact h1 op hop
  · exact h2 op hop
  · intro st T b path e; cases e

theorem layers_sources {a : Schema.Animation F}
    {src ls : List (Schema.AnyLayer F)} {T : Affine F} {al fr : F} {number : Nat → Nat} {i : Nat}
    {per : List (List (Op F))} (hd : LayerListDrawn a src T al fr number i ls per) :
    (∀ q fr' T' al', Reaches a src fr T al q fr' T' al' → ∀ st T'' b path, FromLayer q fr' T' al' st T'' b path →
        G st T'' b path) →
      (∀ l ∈ ls, l ∈ src) → ∀ ops ∈ per, ∀ op ∈ ops, op.Drawn G := by
  have own : ∀ {ls : List (Schema.AnyLayer F)} {T P M : Affine F} {alpha frame o : F} {l : Schema.AnyLayer F}
      {ms co : List (Op F)}, l.During frame → PlacedAt ls frame l P → LayerAt frame l M o →
      MasksDrawn frame (T.mul P) (l.visual.masksProperties.getD []) ms →
      ((∀ q, l = .shape q → ¬ l.Hidden → ∀ st T'' b path,
          FromLayer q frame (T.mul P) (alpha *. o /. lit 100) st T'' b path → G st T'' b path) →
        (∀ x, l = .precomposition x → ¬ l.Hidden → ∀ p, .precomposition p ∈ a.assetList → p.asset.id = x.refId →
          ∀ q fr' T' al', Reaches a p.layers (x.time frame) (T.mul P) (alpha *. o /. lit 100) q fr' T' al' →
            ∀ st T'' b path, FromLayer q fr' T' al' st T'' b path → G st T'' b path) → ∀ op ∈ co, op.Drawn G) →
      (∀ q fr' T' al', Reaches a ls frame T alpha q fr' T' al' → ∀ st T'' b path,
          FromLayer q fr' T' al' st T'' b path → G st T'' b path) →
        l ∈ ls → ∀ op ∈ ms ++ co ++ List.replicate ms.length .pop, op.Drawn G := by
    intro ls T P M alpha frame o l ms co hdur hP hk hms hco hG hm
    refine body_sources (masks_sources hms) (hco ?_ ?_)
    · rintro q rfl hv st T'' b path h
      exact hG _ _ _ _ (.here hm hdur hv hP hk) _ _ _ _ h
    · rintro x rfl hv p hp hid q fr' T' al' hq st T'' b path h
      exact hG _ _ _ _ (.instance hm hdur hv hP hk hp hid hq) _ _ _ _ h
  refine LayerListDrawn.rec
    (motive_1 := fun src T al fr ix i l ops _ =>
      (∀ q fr' T' al', Reaches a src fr T al q fr' T' al' → ∀ st T'' b path, FromLayer q fr' T' al' st T'' b path →
        G st T'' b path) → l ∈ src → ∀ op ∈ ops, op.Drawn G)
    (motive_2 := fun T al fr l co _ =>
      (∀ q, l = .shape q → ¬ l.Hidden → ∀ st T'' b path, FromLayer q fr T al st T'' b path → G st T'' b path) →
      (∀ x, l = .precomposition x → ¬ l.Hidden → ∀ p, .precomposition p ∈ a.assetList → p.asset.id = x.refId →
          ∀ q fr' T' al', Reaches a p.layers (x.time fr) T al q fr' T' al' →
            ∀ st T'' b path, FromLayer q fr' T' al' st T'' b path → G st T'' b path) → ∀ op ∈ co, op.Drawn G)
    (motive_3 := fun src T al fr number i ls per _ =>
      (∀ q fr' T' al', Reaches a src fr T al q fr' T' al' → ∀ st T'' b path, FromLayer q fr' T' al' st T'' b path →
        G st T'' b path) → (∀ l ∈ ls, l ∈ src) → ∀ ops ∈ per, ∀ op ∈ ops, op.Drawn G)
    ?_ ?_ ?_ ?_ ?_ ?_ ?_ ?_ ?_ ?_ ?_ hd
  · intros
    rename_i h
    cases h
  · intro ls T alpha frame ix i l P M o ms co h hm hP hk hms _ ih hG hmem
    exact announced_sources (own h hP hk hms ih hG hmem)
  · intro ls T alpha frame ix i l P M o ms co bl j m mo h hm hj _ hP hk hms _ ihm ih hG hmem
    refine announced_sources fun op hop => ?_
    unfold composed at hop
    simp only [List.mem_append, List.mem_cons, List.not_mem_nil, or_false] at hop
    rcases hop with (((rfl | hop) | rfl) | hop) | rfl | rfl
    · intro st T b path e; cases e
    · exact ihm hG (List.mem_of_getElem? hj) op hop
    · intro st T b path e; cases e
    · refine own h hP hk hms ih hG hmem op ?_
      simpa only [List.mem_append] using hop
    · intro st T b path e; cases e
    · intro st T b path e; cases e
  · intros
    rename_i h
    cases h
  · intros
    rename_i h
    cases h
  · intro T alpha frame q S hv hss hG _ op hop st T'' b path e
    exact hG q rfl hv _ _ _ _ (calls_sources hss op hop _ _ _ _ e)
  · intros
    rename_i h
    cases h
  · intro T alpha frame x p per i hv hp hid hlast _ ih _ hG op hop
    obtain ⟨ops, hops, hop⟩ := List.mem_flatten.mp hop
    exact ih (hG x rfl hv p (List.mem_of_getElem? hp) hid) (fun _ h => h) ops (List.mem_reverse.mp hops) op hop
  · intros
    rename_i h _ _
    cases h
  · intro ls T alpha frame number i l ls' per h _ ih hG hsub ops hops
    rcases List.mem_cons.mp hops with rfl | hops
    · exact fun _ h => absurd h List.not_mem_nil
    · exact ih hG (fun l hl' => hsub l (List.mem_cons_of_mem _ hl')) ops hops
  · intro ls T alpha frame number i l ops ls' per h _ _ ih1 ih2 hG hsub os hos
    rcases List.mem_cons.mp hos with rfl | hos
    · exact ih1 hG (hsub l List.mem_cons_self)
    · exact ih2 hG (fun l hl' => hsub l (List.mem_cons_of_mem _ hl')) os hos

end

end
end Velato
