import Mathlib.Data.List.Forall2
import Verif.Proofs.RenderLayer

/-!
# Case analysis of layer executions
-/

namespace Velato
open FloatOps (lit)

section
variable {F : Type} [FloatOps F] [Libm F] [Kurbo F]

/-- What `l` draws between its masks, given what the layers it refers to draw. -/
inductive ContentCalls (c : Composition F) (l : Layer F) (T : Affine F) (a fr : F) :
    List (Op F) → Prop where
  | none (h : l.content = .none) : ContentCalls c l T a fr []
  | missing (name tr) (h : l.content = .instance name tr) (hn : c.asset name = .none) :
      ContentCalls c l T a fr []
  | asset (name tr als per) (h : l.content = .instance name tr) (hn : c.asset name = .some als)
      (hper : List.Forall₂ (fun l' ops => LayerCalls c als l' 0 T a
          (fr /. l.stretch +. FloatOps.neg l.startFrame /. l.stretch) ops)
        (als.reverse.filter (fun l => !l.isMask)) per) :
      ContentCalls c l T a fr per.flatten
  | shape (shapes b ops) (h : l.content = .shape shapes)
      (hb : renderShapes shapes T a fr Batch.empty = .ok b) (hops : b.render = .ok ops) :
      ContentCalls c l T a fr ops

/-- The calls for the matte of `l`. -/
inductive MatteCalls (c : Composition F) (ls : List (Layer F)) (l : Layer F) (T : Affine F)
    (a fr : F) : List (Op F) → Prop where
  | none (h : l.maskLayer = .none) : MatteCalls c ls l T a fr []
  | dangling (mode j) (h : l.maskLayer = .some (mode, j)) (hj : ls[j]? = .none) :
      MatteCalls c ls l T a fr [Op.pushLayer (BlendMode.ofMix .normal) (lit 1) T (fullRect c),
        Op.pushLayer mode (lit 1) T (fullRect c)]
  | matte (mode j m ops) (h : l.maskLayer = .some (mode, j)) (hj : ls[j]? = .some m)
      (hops : LayerCalls c ls m 0 T a fr ops) :
      MatteCalls c ls l T a fr
        ([Op.pushLayer (BlendMode.ofMix .normal) (lit 1) T (fullRect c)] ++ ops
          ++ [Op.pushLayer mode (lit 1) T (fullRect c)])

theorem map_ok {α β : Type} {x : Except Fault α} {f : α → β} {b : β} (h : x.map f = .ok b) :
    ∃ a, x = .ok a ∧ f a = b := by
  cases x with
  | error e => cases h
  | ok a => exact ⟨a, rfl, Except.ok.inj h⟩

theorem forall₂_left {α β : Type} {R : α → β → Prop} {l : List α} {l' : List β}
    (h : List.Forall₂ R l l') {x : α} (hx : x ∈ l) : ∃ y, R x y := by
  induction h with
  | nil => cases hx
  | cons h _ ih =>
    rcases List.mem_cons.mp hx with rfl | hx
    · exact ⟨_, h⟩
    · exact ih hx

/-- Layer executions with enough fuel for each can be given the same fuel. -/
theorem exists_fuel (c : Composition F) {α : Type} (g : α → List (Layer F) × Layer F × Nat ×
    Affine F × F × F) {xs : List α} {per : List (List (Op F))}
    (h : List.Forall₂ (fun x ops => LayerCalls c (g x).1 (g x).2.1 (g x).2.2.1 (g x).2.2.2.1
      (g x).2.2.2.2.1 (g x).2.2.2.2.2 ops) xs per) :
    ∃ n, List.Forall₂ (fun x ops => layerOps c n (g x).1 (g x).2.1 (g x).2.2.1 (g x).2.2.2.1
      (g x).2.2.2.2.1 (g x).2.2.2.2.2 = .ok ops) xs per := by
  induction h with
  | nil => exact ⟨0, .nil⟩
  | cons hx _ ih =>
    obtain ⟨n, hn⟩ := ih
    obtain ⟨m, hm⟩ := layerCalls_iff.mp hx
    refine ⟨max n m, .cons ((layerOps_mono c (Nat.le_max_right n m) _ _ _ _ _ _).ok hm) ?_⟩
    exact hn.imp fun x ops h => (layerOps_mono c (Nat.le_max_left n m) _ _ _ _ _ _).ok h

/-- The executions of `render_layer`. -/
theorem layerCalls_cases {c : Composition F} {ls l ix T a fr ops} :
    LayerCalls c ls l ix T a fr ops ↔
      (l.frames.contains fr = false ∧ ops = []) ∨
      (l.frames.contains fr = true ∧ ∃ mo ms co, MatteCalls c ls l T a fr mo ∧
        List.Forall₂ (fun m op => maskOp (computeTransform ls l T fr) fr m = .ok op) l.masks ms ∧
        ContentCalls c l (computeTransform ls l T fr) (a *. l.opacity.evaluate fr /. lit 100) fr co
        ∧ ops = layerOut l ix mo ms co) := by
  constructor
  · intro h
    obtain ⟨n, h⟩ := layerCalls_iff.mp h
    cases n with
    | zero => cases h
    | succ n =>
      change layerBody c (layerOps c n) ls l ix T a fr = _ at h
      unfold layerBody at h
      split at h
      · rename_i hc
        exact .inl ⟨by simpa using hc, (Except.ok.inj h).symm⟩
      · rename_i hc
        refine .inr ⟨by simpa using hc, ?_⟩
        obtain ⟨mo, hmo, h⟩ := bind_ok h
        obtain ⟨ms, hms, h⟩ := bind_ok h
        obtain ⟨co, hco, h⟩ := bind_ok h
        refine ⟨mo, ms, co, ?_, mapM_ok_iff.mp hms, ?_, (Except.ok.inj h).symm⟩
        · unfold matteOps at hmo
          cases hm : l.maskLayer with
          | none => rw [hm] at hmo; cases hmo; exact .none hm
          | some p =>
            rw [hm] at hmo
            obtain ⟨o, ho, rfl⟩ := map_ok hmo
            cases hj : ls[p.2]? with
            | none => rw [hj] at ho; cases ho; exact .dangling p.1 p.2 hm hj
            | some m =>
              rw [hj] at ho
              exact .matte p.1 p.2 m o hm hj (layerCalls_iff.mpr ⟨n, ho⟩)
        · unfold contentOps at hco
          cases hl : l.content with
          | none => rw [hl] at hco; cases hco; exact .none hl
          | «instance» name tr =>
            rw [hl] at hco
            dsimp only at hco
            cases hn : c.asset name with
            | none => rw [hn] at hco; cases hco; exact .missing name tr hl hn
            | some als =>
              rw [hn] at hco
              obtain ⟨per, hper, rfl⟩ := map_ok hco
              exact .asset name tr als per hl hn
                ((mapM_ok_iff.mp hper).imp fun _ _ h => layerCalls_iff.mpr ⟨n, h⟩)
          | shape shapes =>
            rw [hl] at hco
            obtain ⟨b, hb, hops⟩ := bind_ok hco
            exact .shape shapes b co hl hb hops
  · rintro (⟨hc, rfl⟩ | ⟨hc, mo, ms, co, hmo, hms, hco, rfl⟩)
    · refine layerCalls_iff.mpr ⟨1, ?_⟩
      change layerBody c (layerOps c 0) ls l ix T a fr = _
      unfold layerBody
      rw [if_pos (by rw [hc]; rfl)]
    · have h1 : ∃ n, matteOps c (layerOps c n) ls l T a fr = .ok mo := by
        cases hmo with
        | none h => exact ⟨0, by unfold matteOps; rw [h]⟩
        | dangling mode j h hj => exact ⟨0, by unfold matteOps; rw [h]; dsimp only; rw [hj]; rfl⟩
        | matte mode j m ops h hj hops =>
          obtain ⟨n, hn⟩ := layerCalls_iff.mp hops
          exact ⟨n, by unfold matteOps; rw [h]; dsimp only; rw [hj]; dsimp only; rw [hn]; rfl⟩
      have h2 : ∃ n, contentOps c (layerOps c n) l (computeTransform ls l T fr)
          (a *. l.opacity.evaluate fr /. lit 100) fr = .ok co := by
        cases hco with
        | none h => exact ⟨0, by unfold contentOps; rw [h]⟩
        | missing name tr h hn => exact ⟨0, by unfold contentOps; rw [h]; dsimp only; rw [hn]⟩
        | asset name tr als per h hn hper =>
          obtain ⟨n, hn'⟩ := exists_fuel c (fun l' => (als, l', 0, computeTransform ls l T fr,
            a *. l.opacity.evaluate fr /. lit 100,
            fr /. l.stretch +. FloatOps.neg l.startFrame /. l.stretch)) hper
          exact ⟨n, by unfold contentOps; rw [h]; dsimp only; rw [hn]; dsimp only;
                       rw [mapM_ok_iff.mpr hn']; rfl⟩
        | shape shapes b ops h hb hops =>
          exact ⟨0, by unfold contentOps; rw [h]; dsimp only; rw [hb]; exact hops⟩
      obtain ⟨n1, h1⟩ := h1
      obtain ⟨n2, h2⟩ := h2
      refine layerCalls_iff.mpr ⟨max n1 n2 + 1, ?_⟩
      have e1 : matteOps c (layerOps c (max n1 n2)) ls l T a fr = .ok mo := by
        have : FuelLe (matteOps c (layerOps c n1) ls l T a fr)
            (matteOps c (layerOps c (max n1 n2)) ls l T a fr) := by
          unfold matteOps
          split
          · exact FuelLe.refl _
          · apply FuelLe.map
            split
            · exact layerOps_mono c (Nat.le_max_left _ _) _ _ _ _ _ _
            · exact FuelLe.refl _
        exact this.ok h1
      have e2 : contentOps c (layerOps c (max n1 n2)) l (computeTransform ls l T fr)
          (a *. l.opacity.evaluate fr /. lit 100) fr = .ok co := by
        have : FuelLe (contentOps c (layerOps c n2) l (computeTransform ls l T fr)
            (a *. l.opacity.evaluate fr /. lit 100) fr)
            (contentOps c (layerOps c (max n1 n2)) l (computeTransform ls l T fr)
              (a *. l.opacity.evaluate fr /. lit 100) fr) := by
          unfold contentOps
          split
          · exact FuelLe.refl _
          · split
            · exact FuelLe.refl _
            · exact FuelLe.map (FuelLe.mapM
                (fun l' => layerOps_mono c (Nat.le_max_right _ _) _ _ _ _ _ _) _) _
          · exact FuelLe.refl _
        exact this.ok h2
      change layerBody c (layerOps c (max n1 n2)) ls l ix T a fr = _
      unfold layerBody
      rw [if_neg (by rw [hc]; decide), e1]
      show (l.masks.mapM (maskOp (computeTransform ls l T fr) fr) >>= _) = _
      rw [mapM_ok_iff.mpr hms]
      show (contentOps c (layerOps c (max n1 n2)) l (computeTransform ls l T fr)
        (a *. l.opacity.evaluate fr /. lit 100) fr >>= _) = _
      rw [e2]
      rfl

/-- The executions of `append` on a renderer without leftover mask elements. -/
theorem appendCalls_iff {r : Renderer F} (hr : r.maskElements = []) {c : Composition F}
    {fr : F} {T : Affine F} {a : F} {r' : Renderer F} {ops : List (Op F)} :
    AppendCalls r c fr T a r' ops ↔ r' = Renderer.new ∧ ∃ per,
      List.Forall₂ (fun (p : Layer F × Nat) os => LayerCalls c c.layers p.1 p.2 T a fr os)
        (c.layers.zipIdx.reverse.filter (fun p => !p.1.isMask)) per ∧
      ops = [Op.pushClip T (fullRect c)] ++ per.flatten ++ [Op.pop] := by
  unfold AppendCalls
  constructor
  · rintro ⟨n, h⟩
    rw [append_idle n r hr] at h
    obtain ⟨ops', h, he⟩ := map_ok h
    cases he
    obtain ⟨per, hper, rfl⟩ := map_ok h
    exact ⟨rfl, per, (mapM_ok_iff.mp hper).imp fun _ _ h => layerCalls_iff.mpr ⟨n, h⟩, rfl⟩
  · rintro ⟨rfl, per, hper, rfl⟩
    obtain ⟨n, hn⟩ := exists_fuel c (fun p : Layer F × Nat => (c.layers, p.1, p.2, T, a, fr)) hper
    refine ⟨n, ?_⟩
    rw [append_idle n r hr]
    unfold appendOps
    rw [mapM_ok_iff.mpr hn]
    rfl

/-- Induction over layer executions. -/
theorem LayerCalls.induct {c : Composition F}
    {P : List (Layer F) → Layer F → Nat → Affine F → F → F → List (Op F) → Prop}
    (hout : ∀ ls l ix T a fr, l.frames.contains fr = false → P ls l ix T a fr [])
    (hin : ∀ ls l ix T a fr mo ms co, l.frames.contains fr = true →
      MatteCalls c ls l T a fr mo →
      (∀ mode j m ops, l.maskLayer = some (mode, j) → ls[j]? = some m →
        LayerCalls c ls m 0 T a fr ops → P ls m 0 T a fr ops) →
      List.Forall₂ (fun m op => maskOp (computeTransform ls l T fr) fr m = .ok op) l.masks ms →
      ContentCalls c l (computeTransform ls l T fr) (a *. l.opacity.evaluate fr /. lit 100) fr co →
      (∀ name tr als l' ops, l.content = .instance name tr → c.asset name = some als → l' ∈ als →
        l'.isMask = false →
        LayerCalls c als l' 0 (computeTransform ls l T fr) (a *. l.opacity.evaluate fr /. lit 100)
          (fr /. l.stretch +. FloatOps.neg l.startFrame /. l.stretch) ops →
        P als l' 0 (computeTransform ls l T fr) (a *. l.opacity.evaluate fr /. lit 100)
          (fr /. l.stretch +. FloatOps.neg l.startFrame /. l.stretch) ops) →
      P ls l ix T a fr (layerOut l ix mo ms co))
    {ls l ix T a fr ops} (h : LayerCalls c ls l ix T a fr ops) : P ls l ix T a fr ops := by
  obtain ⟨n, h⟩ := layerCalls_iff.mp h
  induction n generalizing ls l ix T a fr ops with
  | zero => cases h
  | succ n ih =>
    rcases layerCalls_cases.mp (layerCalls_iff.mpr ⟨n + 1, h⟩) with
      ⟨hc, rfl⟩ | ⟨hc, mo, ms, co, hmo, hms, hco, rfl⟩
    · exact hout _ _ _ _ _ _ hc
    · change layerBody c (layerOps c n) ls l ix T a fr = _ at h
      unfold layerBody at h
      rw [if_neg (by rw [hc]; decide)] at h
      obtain ⟨mo', hmo', h⟩ := bind_ok h
      obtain ⟨ms', hms', h⟩ := bind_ok h
      obtain ⟨co', hco', h⟩ := bind_ok h
      refine hin ls l ix T a fr mo ms co hc hmo ?_ hms hco ?_
      · intro mode j m ops hm hj hops
        unfold matteOps at hmo'
        rw [hm] at hmo'
        obtain ⟨o, ho, -⟩ := map_ok hmo'
        rw [hj] at ho
        obtain rfl : ops = o := hops.unique (layerCalls_iff.mpr ⟨n, ho⟩)
        exact ih (layerCalls_iff.mpr ⟨n, ho⟩) ho
      · intro name tr als l' ops hl hn hmem hmask hops
        unfold contentOps at hco'
        rw [hl] at hco'
        dsimp only at hco'
        rw [hn] at hco'
        obtain ⟨per, hper, -⟩ := map_ok hco'
        have hmem' : l' ∈ als.reverse.filter (fun l => !l.isMask) := by
          simp [hmem, hmask]
        obtain ⟨o, ho⟩ := forall₂_left (mapM_ok_iff.mp hper) hmem'
        obtain rfl : ops = o := hops.unique (layerCalls_iff.mpr ⟨n, ho⟩)
        exact ih (layerCalls_iff.mpr ⟨n, ho⟩) ho

end
end Velato
