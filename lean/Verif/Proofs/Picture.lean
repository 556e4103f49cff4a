import Verif.Spec.Picture
import Verif.Proofs.Nest

/-!
# Pictures: helper lemmas
-/

namespace Velato
open FloatOps (lit)

theorem Pixel.ext {p q : Pixel} (hr : p.r = q.r) (hg : p.g = q.g) (hb : p.b = q.b)
    (ha : p.a = q.a) : p = q := by
  cases p; cases q; simp_all

theorem Pixel.over_clear (p : Pixel) : p.over .clear = p := by
  apply Pixel.ext <;> simp [Pixel.over, Pixel.clear]

theorem Pixel.clear_over (p : Pixel) : Pixel.clear.over p = p := by
  apply Pixel.ext <;> simp [Pixel.over, Pixel.clear]

theorem Pixel.over_assoc (p q r : Pixel) : (p.over q).over r = p.over (q.over r) := by
  apply Pixel.ext <;> simp only [Pixel.over] <;> ring

theorem Pixel.scale_one (p : Pixel) : p.scale 1 = p := by
  apply Pixel.ext <;> simp [Pixel.scale]

theorem Pixel.scale_zero (p : Pixel) : p.scale 0 = .clear := by
  apply Pixel.ext <;> simp [Pixel.scale, Pixel.clear]

theorem Pixel.scale_clear (k : ℝ) : Pixel.clear.scale k = .clear := by
  apply Pixel.ext <;> simp [Pixel.scale, Pixel.clear]

theorem Pixel.scale_scale (k l : ℝ) (p : Pixel) : (p.scale l).scale k = p.scale (k * l) := by
  apply Pixel.ext <;> simp [Pixel.scale, mul_assoc]

theorem Rasteriser.compose_over (R : Rasteriser) (s d : Pixel) :
    R.compose (BlendMode.ofMix .normal) s d = s.over d := by
  simp [Rasteriser.compose, BlendMode.ofMix]

theorem Rasteriser.run_append (R : Rasteriser) (xs ys : List (Op ℝ)) (s : Pixel × List OpenLayer) :
    R.run (xs ++ ys) s = R.run ys (R.run xs s) := by
  simp [Rasteriser.run]

/-- The calls put the pixel `q` onto whatever is there. -/
def Paints (R : Rasteriser) (ops : List (Op ℝ)) (q : Pixel) : Prop :=
  ∀ p st, R.run ops (p, st) = (q.over p, st)

variable {R : Rasteriser}

theorem Paints.picture {ops q} (h : Paints R ops q) (d : Pixel) : R.picture ops d = q.over d := by
  unfold Rasteriser.picture
  rw [h]

theorem Paints.clear {ops q} (h : Paints R ops q) : R.picture ops .clear = q := by
  rw [h.picture, Pixel.over_clear]

theorem Paints.nil : Paints R [] .clear := fun p st => by
  rw [Pixel.clear_over]; rfl

theorem Paints.append {xs ys q q'} (h : Paints R xs q) (h' : Paints R ys q') :
    Paints R (xs ++ ys) (q'.over q) := fun p st => by
  rw [Rasteriser.run_append, h, h', Pixel.over_assoc]

theorem Paints.begin {ops q} (n : String) (i : Nat) (h : Paints R ops q) :
    Paints R ([Op.beginGroup n i] ++ ops ++ [Op.endGroup]) q := fun p st => by
  rw [Rasteriser.run_append, Rasteriser.run_append]
  show R.run [Op.endGroup] (R.run ops (p, st)) = _
  rw [h]
  rfl

theorem Paints.clip {ops q} (T : Affine ℝ) (s : ClipShape ℝ) (h : Paints R ops q) :
    Paints R ([Op.pushClip T s] ++ ops ++ [Op.pop]) (q.scale (R.clip T s)) := fun p st => by
  rw [Rasteriser.run_append, Rasteriser.run_append]
  show R.run [Op.pop] (R.run ops (.clear, _ :: st)) = _
  rw [h, Pixel.over_clear]
  show (R.compose (BlendMode.ofMix .normal) _ p, st) = _
  rw [Rasteriser.compose_over]

theorem Paints.draw (s : Option (KStroke ℝ)) (T : Affine ℝ) (b : Brush ℝ) (p : List (PathEl ℝ)) :
    Paints R [Op.draw s T b p] ((Pixel.ofColor (R.colour b T)).scale (R.cover s T p)) :=
  fun _ _ => rfl

theorem Paints.exists_draws {ops : List (Op ℝ)} (h : ∀ op ∈ ops, ∃ s t br p, op = .draw s t br p) :
    ∃ q, Paints R ops q := by
  induction ops with
  | nil => exact ⟨_, .nil⟩
  | cons o ops ih =>
    obtain ⟨s, t, br, p, rfl⟩ := h o (by simp)
    obtain ⟨q, hq⟩ := ih fun x hx => h x (by simp [hx])
    exact ⟨_, (Paints.draw s t br p).append hq⟩

/-- The pictures of lists of calls, painted one after the other. -/
theorem Paints.flatten {per : List (List (Op ℝ))} {qs : List Pixel}
    (h : List.Forall₂ (Paints R) per qs) :
    Paints R per.flatten (qs.foldl (fun under q => q.over under) .clear) := by
  have key : ∀ (per : List (List (Op ℝ))) (qs : List Pixel), List.Forall₂ (Paints R) per qs →
      ∀ d st, R.run per.flatten (d, st) = (qs.foldl (fun under q => q.over under) d, st) := by
    intro per qs h
    induction h with
    | nil => intro d st; rfl
    | cons hx _ ih =>
      intro d st
      rw [List.flatten_cons, Rasteriser.run_append, hx, ih]
      rfl
  have hf : ∀ (qs : List Pixel) (d p : Pixel), qs.foldl (fun under q => q.over under) (d.over p)
      = (qs.foldl (fun under q => q.over under) d).over p := by
    intro qs
    induction qs with
    | nil => intros; rfl
    | cons q qs ih =>
      intro d p
      rw [List.foldl_cons, List.foldl_cons, ← ih, Pixel.over_assoc]
  intro p st
  rw [key per qs h, ← hf, Pixel.clear_over]

/-- Masks around calls multiply what they show. -/
theorem Paints.masks {T : Affine ℝ} (paths : List (List (PathEl ℝ))) {ops q} (h : Paints R ops q) :
    Paints R (paths.map (fun p => Op.pushClip T (.path p)) ++ ops
        ++ List.replicate paths.length Op.pop)
      (q.scale (paths.map fun p => R.clip T (.path p)).prod) := by
  induction paths with
  | nil => simpa [Pixel.scale_one] using h
  | cons p ps ih =>
    have := ih.clip T (.path p)
    rw [Pixel.scale_scale] at this
    simpa [List.replicate_succ'] using this

/-- A picture `inner` put onto a picture `matte` of its own. -/
theorem Paints.matte {T : Affine ℝ} {s : ClipShape ℝ} {mode : BlendMode} {matte inner qm qi}
    (hm : Paints R matte qm) (hi : Paints R inner qi) :
    Paints R ([Op.pushLayer (BlendMode.ofMix .normal) (lit 1) T s] ++ matte
        ++ [Op.pushLayer mode (lit 1) T s] ++ inner ++ [Op.pop, Op.pop])
      ((R.compose mode (qi.scale (R.clip T s)) qm).scale (R.clip T s)) := fun p st => by
  simp only [Rasteriser.run_append]
  show R.run [Op.pop, Op.pop] (R.run inner (R.run _ (R.run matte (.clear, _ :: st)))) = _
  rw [hm, Pixel.over_clear]
  show R.run [Op.pop, Op.pop] (R.run inner (.clear, _ :: _ :: st)) = _
  rw [hi, Pixel.over_clear]
  show (R.compose (BlendMode.ofMix .normal) (Pixel.scale (R.clip T s * lit 1)
    (R.compose mode (Pixel.scale (R.clip T s * lit 1) qi) qm)) p, st) = _
  rw [Rasteriser.compose_over]
  simp

variable [Kurbo ℝ]

/-- The calls of a layer put a picture onto what is there. -/
theorem LayerCalls.paints {c : Composition ℝ} {ls : List (Layer ℝ)} {l : Layer ℝ} {ix : Nat}
    {T : Affine ℝ} {a fr : ℝ} {ops : List (Op ℝ)} (h : LayerCalls c ls l ix T a fr ops)
    (R : Rasteriser) : Paints R ops (R.picture ops .clear) := by
  suffices hs : ∃ q, Paints R ops q by
    obtain ⟨q, hq⟩ := hs
    rw [hq.clear]
    exact hq
  refine LayerCalls.induct (P := fun _ _ _ _ _ _ ops => ∃ q, Paints R ops q)
    (fun _ _ _ _ _ _ _ => ⟨_, .nil⟩) ?_ h
  intro ls l ix T a fr mo ms co _ hmo hm hms hco hc
  obtain ⟨qc, hqc⟩ : ∃ q, Paints R co q := by
    cases hco with
    | none => exact ⟨_, .nil⟩
    | missing => exact ⟨_, .nil⟩
    | asset name tr als per h hn hp =>
      have : ∃ qs, List.Forall₂ (Paints R) per qs := by
        clear hms
        have hmem : ∀ l' ∈ als.reverse.filter (fun l => !l.isMask), l' ∈ als ∧ l'.isMask = false := by
          intro l' hl'
          simpa using hl'
        revert hmem
        generalize als.reverse.filter (fun l => !l.isMask) = xs at hp
        intro hmem
        induction hp with
        | nil => exact ⟨[], .nil⟩
        | @cons x _ xs _ hx _ ih =>
          obtain ⟨qs, hqs⟩ := ih fun l' h' => hmem l' (List.mem_cons_of_mem _ h')
          obtain ⟨h1, h2⟩ := hmem x List.mem_cons_self
          obtain ⟨q, hq⟩ := hc _ _ _ _ _ h hn h1 h2 hx
          exact ⟨q :: qs, .cons hq hqs⟩
      obtain ⟨qs, hqs⟩ := this
      exact ⟨_, Paints.flatten hqs⟩
    | shape shapes b ops h hb hops => exact Paints.exists_draws (render_draws hops)
  have hpaths : ∃ paths : List (List (PathEl ℝ)), paths.length = l.masks.length ∧
      ms = paths.map (fun p => Op.pushClip (computeTransform ls l T fr) (.path p)) := by
    generalize l.masks = masks at hms
    induction hms with
    | nil => exact ⟨[], rfl, rfl⟩
    | cons hx _ ih =>
      obtain ⟨paths, hl, rfl⟩ := ih
      obtain ⟨els, _, rfl⟩ := map_ok hx
      exact ⟨els :: paths, by simp [hl], rfl⟩
  obtain ⟨paths, hlen, rfl⟩ := hpaths
  have hinner := hqc.masks (T := computeTransform ls l T fr) paths
  rw [hlen] at hinner
  unfold layerOut
  cases hmo with
  | none h' =>
    rw [h']
    obtain ⟨q, hq⟩ : ∃ q, Paints R _ q := ⟨_, hinner.begin l.name ix⟩
    exact ⟨q, by simpa [List.append_assoc] using hq⟩
  | dangling mode j h' hj =>
    rw [h']
    obtain ⟨q, hq⟩ : ∃ q, Paints R _ q := ⟨_, (Paints.matte (T := T) (s := fullRect c) (mode := mode) Paints.nil hinner).begin l.name ix⟩
    exact ⟨q, by simpa [List.append_assoc, ← List.replicate_append_replicate] using hq⟩
  | matte mode j m ops h' hj ho =>
    rw [h']
    obtain ⟨qm, hqm⟩ := hm mode j m ops h' hj ho
    obtain ⟨q, hq⟩ : ∃ q, Paints R _ q := ⟨_, (Paints.matte (T := T) (s := fullRect c) (mode := mode) hqm hinner).begin l.name ix⟩
    exact ⟨q, by simpa [List.append_assoc, ← List.replicate_append_replicate] using hq⟩

end Velato
