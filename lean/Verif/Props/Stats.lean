import Verif.Proofs.Stats
import Verif.Num.KernelDecide
import Verif.Num.F64

/-!
# C93, C94 — statistics of frame times
-/

namespace Velato
open FloatOps (lit)

/-! ## C93 -/

/-- **C93.** As long as no frame takes more than 2^57 microseconds (4000 years), the statistics never panic and
are those of the last hundred frames: their times, number and sum; the minimum and maximum are those of
all frames since they were cleared. -/
theorem C93_window (evs : List StatsEvent) (h : ∀ n ∈ frameTimes evs, n ≤ 2 ^ 57) :
    ∃ s, Stats.after evs = .ok s ∧ s.samples = lastN 100 (frameTimes evs) ∧
      s.count = s.samples.length ∧ s.sum = s.samples.sum ∧
      s.min = (timesSinceClear evs).foldl Nat.min (2 ^ 64 - 1) ∧
      s.max = (timesSinceClear evs).foldl Nat.max 0 := by
  induction evs using List.reverseRecOn with
  | nil => exact ⟨Stats.new, rfl, rfl, rfl, rfl, rfl, rfl⟩
  | append_singleton evs ev ih =>
    rw [frameTimes_append] at h
    obtain ⟨s, h1, h2, h3, h4, h5, h6⟩ := ih fun n hn => h n (by simp [hn])
    have e : Stats.after (evs ++ [ev]) = Stats.step s ev := by
      unfold Stats.after at h1 ⊢
      rw [List.foldlM_append, h1]
      show (Stats.step s ev).bind _ = _
      cases Stats.step s ev <;> rfl
    rw [e]
    cases ev with
    | clear =>
      refine ⟨_, rfl, ?_, h3, h4, ?_, ?_⟩
      · rw [frameTimes_append]; exact h2.trans (by simp [frameTimes])
      · rw [timesSinceClear_clear]; rfl
      · rw [timesSinceClear_clear]; rfl
    | frame n =>
      have hn : n ≤ 2 ^ 57 := h n (by simp [frameTimes])
      have hs : s.sum ≤ 100 * 2 ^ 57 := by
        rw [h4]
        refine (sum_le_of_le _ (2 ^ 57) fun x hx => h x ?_).trans ?_
        · rw [h2] at hx
          exact List.mem_append_left _ (List.mem_of_mem_drop hx)
        · have := lastN_length 100 (frameTimes evs)
          rw [← h2] at this
          exact Nat.mul_le_mul_right _ (by omega)
      have hov : ¬ u64Max < s.sum + n := by unfold u64Max; omega
      have hl := lastN_length 100 (frameTimes evs)
      rw [← h2, ← h3] at hl
      have hmin : Nat.min s.min n = (timesSinceClear (evs ++ [.frame n])).foldl Nat.min (2 ^ 64 - 1) := by
        rw [timesSinceClear_frame, List.foldl_append, ← h5]; rfl
      have hmax : Nat.max s.max n = (timesSinceClear (evs ++ [.frame n])).foldl Nat.max 0 := by
        rw [timesSinceClear_frame, List.foldl_append, ← h6]; rfl
      have hf : frameTimes [StatsEvent.frame n] = [n] := rfl
      show ∃ s', s.addSample n = .ok s' ∧ _
      unfold Stats.addSample
      rw [frameTimes_append, hf]
      by_cases hc : s.count < slidingWindow
      · rw [if_pos hc]
        dsimp only
        rw [if_neg hov]
        have hlt : (frameTimes evs).length < 100 := by unfold slidingWindow at hc; omega
        refine ⟨_, rfl, ?_, ?_, ?_, hmin, hmax⟩
        · rw [lastN_append _ _ _ hlt, h2]
        · simp [h3]
        · simp [h4]
      · rw [if_neg hc]
        have hge : 100 ≤ (frameTimes evs).length := by unfold slidingWindow at hc; omega
        obtain ⟨o, rest, hs'⟩ : ∃ o rest, s.samples = o :: rest := by
          cases hh : s.samples with
          | nil => rw [hh] at h3; simp at h3; unfold slidingWindow at hc; omega
          | cons o rest => exact ⟨o, rest, rfl⟩
        have hsum : s.sum = o + rest.sum := by rw [h4, hs', List.sum_cons]
        dsimp only
        rw [if_neg hov, hs']
        dsimp only [List.head?_cons, List.tail_cons]
        rw [if_neg (by omega)]
        refine ⟨_, rfl, ?_, ?_, ?_, hmin, hmax⟩
        · rw [lastN_append' _ _ _ hge (by omega), ← h2, hs']; rfl
        · simp [h3, hs']
        · simp [hsum]; omega

/-- **C93.** The average displayed is that of the samples (in milliseconds), and the frame rate its
reciprocal. -/
theorem C93_average {s : Stats} (hc : s.count = s.samples.length) (hs : s.sum = s.samples.sum)
    (h0 : 0 < s.samples.sum) :
    (s.snapshot (F := ℝ)).frameTimeMs * s.samples.length = (s.samples.sum : ℝ) / 1000 ∧
      (s.snapshot (F := ℝ)).fps * (s.snapshot (F := ℝ)).frameTimeMs = 1000 := by
  have hl : (0 : ℝ) < s.samples.length := by
    have : s.samples ≠ [] := by rintro h; rw [h] at h0; simp at h0
    exact_mod_cast List.length_pos_iff.mpr this
  have h0' : (0 : ℝ) < s.samples.sum := by exact_mod_cast h0
  unfold Stats.snapshot
  simp only [real_mul, real_div, real_lit, real_ofUsize, hc, hs]
  generalize s.samples.sum = a at *
  push_cast
  constructor <;> field_simp

/-- **C93.** The minimum and the maximum displayed are those of the statistics, in milliseconds. -/
theorem C93_extremes (s : Stats) :
    (s.snapshot (F := ℝ)).frameTimeMinMs = (s.min : ℝ) / 1000 ∧
      (s.snapshot (F := ℝ)).frameTimeMaxMs = (s.max : ℝ) / 1000 := by
  unfold Stats.snapshot
  simp only [real_mul, real_lit, real_ofUsize]
  push_cast
  constructor <;> ring

/-- Two hundred frames, the last of them longer, the extremes cleared after the first hundred. -/
example : (Stats.after (List.replicate 100 (.frame 5) ++ [.clear] ++ List.replicate 99 (.frame 16000)
      ++ [.frame 20000])).map (fun s => (s.count, s.sum, s.min, s.max)) =
    .ok (100, 1604000, 16000, 20000) := by decide +kernel

/-! ## C94 -/

/-- **C94.** Rounding up: `m` is the next multiple of `f` at or above `n`; it panics exactly if `n` is zero
or that multiple is no `u64`. -/
theorem C94_round_up {n f m : Nat} (hf : 0 < f) :
    roundUp n f = .ok m ↔ 0 < n ∧ n ≤ m ∧ m < n + f ∧ f ∣ m ∧ m < 2 ^ 64 := by
  constructor
  · intro h
    obtain ⟨h1, h2, h3, h4⟩ := roundUp_ok hf h
    refine ⟨h4, h1, h2, h3, ?_⟩
    unfold roundUp at h
    split_ifs at h with h5 h6
    cases h
    unfold u64Max at h6
    omega
  · rintro ⟨h0, h1, h2, ⟨k, rfl⟩, h4⟩
    have h3 := Nat.mod_lt (n - 1) hf
    have hm : n - 1 - (n - 1) % f + f = f * k := by
      obtain ⟨j, hj⟩ : f ∣ n - 1 - (n - 1) % f := Nat.dvd_sub_mod (n - 1)
      have h5 := Nat.mod_le (n - 1) f
      rw [hj]
      have h6 : f * j < f * k := by omega
      have h7 : f * k < f * (j + 2) := by rw [Nat.mul_add]; omega
      have h8 := Nat.lt_of_mul_lt_mul_left h6
      have h9 := Nat.lt_of_mul_lt_mul_left h7
      rw [show k = j + 1 by omega, Nat.mul_add, Nat.mul_one]
    unfold roundUp
    rw [hm, if_neg (by omega), if_neg (by unfold u64Max; omega)]

example : roundUp 21 5 = .ok 25 := by decide

/-- **C94 (partial).** The statistics are drawn without a panic, unless the maximum is more than three times
the average and the average is less than three quarters of a millisecond (`1.33334 * average < 1`).
What is missing: the panic in that case (`C94_counterexample`). -/
theorem C94_no_panic_partial {s : Snapshot ℝ} (h0 : 0 ≤ s.frameTimeMs) (h1 : s.frameTimeMs < 2 ^ 60)
    (vw vh : ℝ) (samples : List Nat) (labels : Nat) :
    (∃ ops, s.drawLayer vw vh samples labels = .ok ops) ↔
      ¬ (3 * s.frameTimeMs < s.frameTimeMaxMs ∧ 133334 / 100000 * s.frameTimeMs < 1) := by
  have key : (∃ d, s.displayMax = .ok d) ↔
      ¬ (3 * s.frameTimeMs < s.frameTimeMaxMs ∧ 133334 / 100000 * s.frameTimeMs < 1) := by
    unfold Snapshot.displayMax
    simp only [real_lt, real_mul, real_lit, decide_eq_true_eq]
    push_cast
    by_cases h3 : 3 * s.frameTimeMs < s.frameTimeMaxMs
    · rw [if_pos h3]
      have e : FloatOps.toUsize ((133334 / 100000 : ℝ) * s.frameTimeMs)
          = ⌊(133334 / 100000 : ℝ) * s.frameTimeMs⌋₊ := by
        have hlt : ⌊(133334 / 100000 : ℝ) * s.frameTimeMs⌋₊ < 2 ^ 61 := by
          rw [Nat.floor_lt (by positivity)]
          push_cast
          nlinarith
        show min (⌊(133334 / 100000 : ℝ) * s.frameTimeMs⌋.toNat) (2 ^ 64 - 1) = _
        rw [Int.floor_toNat]
        omega
      have hlt : ⌊(133334 / 100000 : ℝ) * s.frameTimeMs⌋₊ < 2 ^ 61 := by
        rw [Nat.floor_lt (by positivity)]
        push_cast
        nlinarith
      rw [e]
      generalize hn : ⌊(133334 / 100000 : ℝ) * s.frameTimeMs⌋₊ = n at hlt ⊢
      have hz : n = 0 ↔ (133334 / 100000 : ℝ) * s.frameTimeMs < 1 := by rw [← hn, Nat.floor_eq_zero]
      rw [← hz]
      unfold roundUp
      by_cases h4 : n = 0
      · rw [if_pos h4]
        constructor
        · rintro ⟨d, hd⟩; cases hd
        · exact fun h => absurd ⟨h3, h4⟩ h
      · rw [if_neg h4, if_neg (by unfold u64Max; omega)]
        exact ⟨fun _ h => h4 h.2, fun _ => ⟨_, rfl⟩⟩
    · rw [if_neg h3]
      exact ⟨fun _ h => h3 h.1, fun _ => ⟨_, rfl⟩⟩
  rw [← key]
  exact ⟨fun ⟨_, h⟩ => drawLayer_displayMax h, fun ⟨_, h⟩ => drawLayer_ok h vw vh samples labels⟩

/-- **C94 is false of the code**: nine frames of 0.1 ms and one of 1 ms, and the statistics cannot be drawn. -/
theorem C94_counterexample :
    (Stats.after (List.replicate 9 (.frame 100) ++ [.frame 1000])).toOption.map (fun s =>
      ((s.snapshot (F := F64)).drawLayer (lit 800) (lit 600) s.samples 6).toOption) = some none := by
  decide +kernel

/-- **C94 is false of the code**: when the extremes have been cleared (key C), the height of every bar is not a
number until the next frame time is added. -/
theorem C94_cleared_counterexample :
    ((Stats.after [.frame 16000, .clear]).toOption.bind fun s =>
      ((s.snapshot (F := F64)).drawLayer (lit 800) (lit 600) s.samples 6).toOption).map (fun ops =>
        ops.filterMap fun | .bar t _ _ => some (isNaN t.d) | _ => none) = some [true] := by
  decide +kernel

/-- **C94.** The scale of the graph is the maximum, unless that is more than three times the average: then it is
the smallest multiple of five that is not less than 1.33334 times the average (without its fraction). -/
theorem C94_scale {s : Snapshot ℝ} {d : ℝ} (h : s.displayMax = .ok d) (h0 : 0 ≤ s.frameTimeMs)
    (h1 : s.frameTimeMs < 2 ^ 60) :
    (s.frameTimeMaxMs ≤ 3 * s.frameTimeMs ∧ d = s.frameTimeMaxMs) ∨
    (3 * s.frameTimeMs < s.frameTimeMaxMs ∧ ∃ m : Nat, d = (5 * m : ℕ) ∧
      ⌊(133334 / 100000 : ℝ) * s.frameTimeMs⌋₊ ≤ 5 * m ∧
      ∀ k, ⌊(133334 / 100000 : ℝ) * s.frameTimeMs⌋₊ ≤ 5 * k → m ≤ k) := by
  unfold Snapshot.displayMax at h
  simp only [real_lt, real_mul, real_lit, decide_eq_true_eq] at h
  push_cast at h
  split_ifs at h with h3
  · right
    have hlt : ⌊(133334 / 100000 : ℝ) * s.frameTimeMs⌋₊ < 2 ^ 61 := by
      rw [Nat.floor_lt (by positivity)]
      push_cast
      nlinarith
    have e : FloatOps.toUsize ((133334 / 100000 : ℝ) * s.frameTimeMs)
        = ⌊(133334 / 100000 : ℝ) * s.frameTimeMs⌋₊ := by
      show min (⌊(133334 / 100000 : ℝ) * s.frameTimeMs⌋.toNat) (2 ^ 64 - 1) = _
      rw [Int.floor_toNat]
      omega
    rw [e] at h
    generalize ⌊(133334 / 100000 : ℝ) * s.frameTimeMs⌋₊ = n at h ⊢
    cases hr : roundUp n 5 with
    | error e => rw [hr] at h; cases h
    | ok m =>
      rw [hr] at h
      cases h
      obtain ⟨h4, h5, ⟨k, rfl⟩, h6⟩ := roundUp_ok (by omega) hr
      refine ⟨h3, k, by rw [real_ofUsize], h4, fun j hj => by omega⟩
  · cases h; exact .inl ⟨not_lt.mp h3, rfl⟩

/-- **C94.** The background is a rectangle in the lower right corner of the window. -/
theorem C94_background {s : Snapshot ℝ} {vw vh : ℝ} {samples : List Nat} {labels : Nat}
    {ops : List (PanelOp ℝ)} (h : s.drawLayer vw vh samples labels = .ok ops) :
    ops.filterMap PanelOp.background? = [(⟨vw - panelWidth vw, vh - 2 * graphHeight vw⟩, ⟨vw, vh⟩)] := by
  obtain ⟨d, hd⟩ := drawLayer_displayMax h
  unfold Snapshot.drawLayer at h
  rw [hd] at h
  cases h
  simp only [panelWidth_eq, graphHeight]
  generalize panelWidth vw = w
  rw [List.filterMap_append, List.filterMap_append,
    filterMap_map_none (List.zipIdx _) fun _ => rfl, filterMap_map_none (List.filter _ _) fun _ => rfl]
  simp only [List.filterMap_cons, List.filterMap_nil, PanelOp.background?, List.append_nil]
  simp only [Affine.apply, Affine.translate, real_mul, real_add, real_sub, real_lit]
  push_cast
  simp only [List.cons.injEq, Prod.mk.injEq, P2.mk.injEq, and_true]
  refine ⟨⟨?_, ?_⟩, ?_, ?_⟩ <;> ring

/-- **C94.** Every frame time is drawn as a bar standing on the lower edge of the window: the bars are in the
order of the frames, each has its hundredth of the graph, and their heights are in the proportions of the
frame times, where a time that is not less than the scale `d` fills the height of the graph. -/
theorem C94_bars {s : Snapshot ℝ} {vw vh d : ℝ} {samples : List Nat} {labels : Nat}
    {ops : List (PanelOp ℝ)} (h : s.drawLayer vw vh samples labels = .ok ops)
    (hd : s.displayMax = .ok d) :
    ops.filterMap PanelOp.bar? = samples.zipIdx.map fun (n, i) =>
      let x : ℝ := vw - panelWidth vw * (94 / 100) + i * (panelWidth vw * (93 / 100) / 100)
      let b : ℝ := panelWidth vw * (93 / 100) / 100 * (4 / 10)
      let y : ℝ := vh - graphHeight vw * (min ((n : ℝ) / 1000) d / d)
      (if n ≤ 16667 then (100, 143, 255) else if n ≤ 33334 then (255, 176, 0) else (220, 38, 127),
        [⟨x, y⟩, ⟨x, vh⟩, ⟨x + b, vh⟩, ⟨x + b, y⟩]) := by
  unfold Snapshot.drawLayer at h
  rw [hd] at h
  cases h
  have hL : ((1 + labels : ℕ) : ℝ) ≠ 0 := by positivity
  simp only [panelWidth_eq, graphHeight]
  generalize panelWidth vw = w
  rw [List.filterMap_append, List.filterMap_append,
    filterMap_map_none (List.filter _ _) fun _ => rfl, List.filterMap_map]
  simp only [List.filterMap_cons, List.filterMap_nil, PanelOp.bar?, List.append_nil, List.nil_append]
  rw [← List.filterMap_eq_map]
  refine List.filterMap_congr fun ⟨n, i⟩ _ => ?_
  simp only [Function.comp, linePoints, List.map_cons, List.map_nil, PanelOp.bar?, barColor]
  simp only [Affine.apply, Affine.mul, Affine.translate, Affine.scaleNonUniform, barHeight, real_fmin,
    real_mul, real_div, real_add, real_sub, real_neg, real_lit, real_ofUsize, slidingWindow]
  generalize hr : min ((n : ℝ) * ((1 / 1000 : ℚ) : ℝ)) d / d = r
  have hr' : min ((n : ℝ) / 1000) d / d = r := by
    rw [← hr]; push_cast; rw [mul_one_div]
  rw [hr']
  push_cast at hL ⊢
  simp only [List.cons.injEq, P2.mk.injEq, and_true, Option.some.injEq, Prod.mk.injEq, true_and]
  refine ⟨⟨?_, ?_⟩, ⟨?_, ?_⟩, ⟨?_, ?_⟩, ?_, ?_⟩ <;> field_simp <;> ring

/-- **C94.** The lines are as thick as a hundredth of the height of the graph. -/
theorem C94_line_width {s : Snapshot ℝ} {vw vh : ℝ} {samples : List Nat} {labels : Nat}
    {ops : List (PanelOp ℝ)} (h : s.drawLayer vw vh samples labels = .ok ops) :
    ∀ w ∈ ops.filterMap PanelOp.lineWidth?, w = graphHeight vw / 100 := by
  obtain ⟨d, hd⟩ := drawLayer_displayMax h
  unfold Snapshot.drawLayer at h
  rw [hd] at h
  cases h
  simp only [panelWidth_eq, graphHeight]
  generalize panelWidth vw = w
  rw [List.filterMap_append, List.filterMap_append,
    filterMap_map_none (List.zipIdx _) fun _ => rfl, List.filterMap_map]
  intro x hx
  simp only [List.filterMap_cons, List.filterMap_nil, List.nil_append, PanelOp.lineWidth?] at hx
  obtain ⟨t, -, ht⟩ := List.mem_filterMap.mp hx
  simp only [Function.comp, PanelOp.lineWidth?, Option.some.injEq, real_mul, real_lit] at ht
  rw [← ht]
  push_cast
  ring

/-- **C94.** Lines mark those of the times 8.33, 16.66 and 33.33 ms that are less than the scale, at the height
of a bar for that time. -/
theorem C94_lines {s : Snapshot ℝ} {vw vh d : ℝ} {samples : List Nat} {labels : Nat}
    {ops : List (PanelOp ℝ)} (h : s.drawLayer vw vh samples labels = .ok ops)
    (hd : s.displayMax = .ok d) :
    ops.filterMap PanelOp.line? =
      ([833 / 100, 1666 / 100, 3333 / 100].filter fun t => decide (t < d)).map fun t =>
        let y := vh - graphHeight vw * (t / d)
        [⟨vw - panelWidth vw * (94 / 100), y⟩, ⟨vw - panelWidth vw * (1 / 100), y⟩] := by
  unfold Snapshot.drawLayer at h
  rw [hd] at h
  cases h
  simp only [panelWidth_eq, graphHeight]
  generalize panelWidth vw = w
  rw [List.filterMap_append, List.filterMap_append,
    filterMap_map_none (List.zipIdx _) fun _ => rfl, List.filterMap_map]
  have ht : ([lit (833 / 100), lit (1666 / 100), lit (3333 / 100)] : List ℝ)
      = [833 / 100, 1666 / 100, 3333 / 100] := by simp only [real_lit]; push_cast; rfl
  rw [ht]
  simp only [List.filterMap_cons, List.filterMap_nil, List.nil_append, real_lt, PanelOp.line?]
  rw [← List.filterMap_eq_map]
  refine List.filterMap_congr fun t _ => ?_
  simp only [Function.comp, linePoints, List.map_cons, List.map_nil, PanelOp.line?]
  simp only [Affine.apply, Affine.mul, Affine.translate,
    real_mul, real_div, real_add, real_sub, real_lit, Option.some.injEq]
  simp only [List.cons.injEq, P2.mk.injEq, and_true]
  push_cast
  refine ⟨⟨?_, ?_⟩, ?_, ?_⟩ <;> ring

/-- **C94.** Bars and lines stay in the lower half of the panel, and bars do not overlap. -/
theorem C94_inside {s : Snapshot ℝ} {vw vh : ℝ} {samples : List Nat} {labels : Nat}
    {ops : List (PanelOp ℝ)} (h : s.drawLayer vw vh samples labels = .ok ops)
    (h0 : 0 < s.frameTimeMaxMs) (h100 : samples.length ≤ 100) :
    (∀ q ∈ ((ops.filterMap PanelOp.bar?).map Prod.snd ++ ops.filterMap PanelOp.line?).flatten,
      vw - panelWidth vw ≤ q.x ∧ q.x ≤ vw ∧ vh - graphHeight vw ≤ q.y ∧ q.y ≤ vh) ∧
    (ops.filterMap PanelOp.bar?).Pairwise fun a b => ∀ p ∈ a.2, ∀ q ∈ b.2, p.x < q.x := by
  obtain ⟨d, hd⟩ := drawLayer_displayMax h
  rw [C94_bars h hd, C94_lines h hd]
  have hd0 := displayMax_pos hd h0
  have hw := panelWidth_pos vw
  unfold graphHeight
  generalize panelWidth vw = w at hw ⊢
  constructor
  · intro q hq
    obtain ⟨l, hl, hq⟩ := List.mem_flatten.mp hq
    rcases List.mem_append.mp hl with hl | hl
    · obtain ⟨x, hx, rfl⟩ := List.mem_map.mp hl
      obtain ⟨⟨n, i⟩, hy, rfl⟩ := List.mem_map.mp hx
      obtain ⟨hi, -⟩ := List.mem_zipIdx' hy
      have hi' : (i : ℝ) ≤ 99 := by exact_mod_cast (by omega : i ≤ 99)
      have hi0 : (0 : ℝ) ≤ i := by positivity
      have hr0 : 0 ≤ min ((n : ℝ) / 1000) d / d := div_nonneg (le_min (by positivity) hd0.le) hd0.le
      have hr1 : min ((n : ℝ) / 1000) d / d ≤ 1 := (div_le_one hd0).mpr (min_le_right _ _)
      simp only [List.mem_cons, List.not_mem_nil, or_false] at hq
      generalize min ((n : ℝ) / 1000) d / d = r at hr0 hr1 hq
      have hwr : w * r ≤ w := by nlinarith
      have hwr0 : 0 ≤ w * r := by positivity
      have hiw : i * w ≤ 99 * w := by nlinarith
      have hiw0 : 0 ≤ i * w := by positivity
      rcases hq with rfl | rfl | rfl | rfl <;>
        refine ⟨?_, ?_, ?_, ?_⟩ <;> dsimp only <;> nlinarith
    · obtain ⟨t, ht, rfl⟩ := List.mem_map.mp hl
      obtain ⟨ht, htd⟩ := List.mem_filter.mp ht
      rw [decide_eq_true_eq] at htd
      have ht0 : 0 ≤ t := by
        simp only [List.mem_cons, List.not_mem_nil, or_false] at ht
        rcases ht with rfl | rfl | rfl <;> norm_num
      have hr0 : 0 ≤ t / d := div_nonneg ht0 hd0.le
      have hr1 : t / d ≤ 1 := (div_le_one hd0).mpr htd.le
      simp only [List.mem_cons, List.not_mem_nil, or_false] at hq
      generalize t / d = r at hr0 hr1 hq
      have hwr : w * r ≤ w := by nlinarith
      have hwr0 : 0 ≤ w * r := by positivity
      rcases hq with rfl | rfl <;>
        refine ⟨?_, ?_, ?_, ?_⟩ <;> dsimp only <;> nlinarith
  · rw [List.pairwise_map, List.pairwise_iff_getElem]
    intro i j hi hj hij p hp q hq
    rw [List.getElem_zipIdx] at hp hq
    have hij' : (i : ℝ) + 1 ≤ j := by exact_mod_cast hij
    have : (i : ℝ) * w + w ≤ j * w := by nlinarith
    simp only [List.mem_cons, List.not_mem_nil, or_false, zero_add] at hp hq
    rcases hp with rfl | rfl | rfl | rfl <;> rcases hq with rfl | rfl | rfl | rfl <;> dsimp only <;>
      nlinarith


/-- **C94 (partial).** If the last hundred frames took at least three quarters of a millisecond each, the
statistics drawn after a frame are inside their panel, with one bar for each of these frames.
What is missing: shorter frames (`C94_counterexample`) and drawing after clearing the extremes, before the
next frame (`C94_cleared_counterexample`). -/
theorem C94_frames_partial (evs : List StatsEvent) (n : Nat)
    (hmax : ∀ m ∈ frameTimes (evs ++ [.frame n]), m ≤ 2 ^ 57)
    (hmin : ∀ m ∈ lastN 100 (frameTimes (evs ++ [.frame n])), 750 ≤ m) (vw vh : ℝ) (labels : Nat) :
    ∃ s ops, Stats.after (evs ++ [.frame n]) = .ok s ∧
      (s.snapshot (F := ℝ)).drawLayer vw vh s.samples labels = .ok ops ∧
      (ops.filterMap PanelOp.bar?).length = min (frameTimes (evs ++ [.frame n])).length 100 ∧
      ∀ q ∈ ((ops.filterMap PanelOp.bar?).map Prod.snd ++ ops.filterMap PanelOp.line?).flatten,
        vw - panelWidth vw ≤ q.x ∧ q.x ≤ vw ∧ vh - graphHeight vw ≤ q.y ∧ q.y ≤ vh := by
  obtain ⟨s, h1, h2, h3, h4, h5, h6⟩ := C93_window _ hmax
  have hlen := lastN_length 100 (frameTimes (evs ++ [.frame n]))
  rw [← h2] at hlen hmin
  have hpos : 0 < s.samples.length := by
    rw [frameTimes_append] at hlen; simp [frameTimes] at hlen; omega
  have hn : 750 ≤ n := by
    refine hmin n ?_
    rw [h2, frameTimes_append]
    have hf : frameTimes [StatsEvent.frame n] = [n] := rfl
    rw [hf]
    by_cases hc : (frameTimes evs).length < 100
    · rw [lastN_append _ _ _ hc]; simp
    · rw [lastN_append' _ _ _ (by omega) (by omega)]; simp
  have hs1 : s.samples.length * 750 ≤ s.samples.sum := le_sum_of_le _ _ hmin
  have hs2 : s.samples.sum ≤ s.samples.length * 2 ^ 57 := by
    refine sum_le_of_le _ _ fun m hm => hmax m ?_
    rw [h2] at hm
    exact List.mem_of_mem_drop hm
  have hm : n ≤ s.max := by
    rw [h6, timesSinceClear_frame, List.foldl_append]
    exact Nat.le_max_right _ _
  have hl : (0 : ℝ) < s.samples.length := by exact_mod_cast hpos
  have hs1' : (s.samples.length : ℝ) * 750 ≤ s.samples.sum := by exact_mod_cast hs1
  have hs2' : (s.samples.sum : ℝ) ≤ s.samples.length * 2 ^ 57 := by exact_mod_cast hs2
  have hn' : (750 : ℝ) ≤ n := by exact_mod_cast hn
  have hm' : (n : ℝ) ≤ s.max := by exact_mod_cast hm
  have e1 : (s.snapshot (F := ℝ)).frameTimeMs = (s.samples.sum : ℝ) / s.samples.length * (1 / 1000) := by
    show _ *. _ = _
    simp only [real_mul, real_div, real_lit, real_ofUsize, h3, h4]
    norm_num
  have e2 : (s.snapshot (F := ℝ)).frameTimeMaxMs = (s.max : ℝ) * (1 / 1000) := by
    show _ *. _ = _
    simp only [real_mul, real_lit, real_ofUsize]
    norm_num
  have ha : 750 ≤ (s.samples.sum : ℝ) / s.samples.length := by rw [le_div_iff₀ hl]; linarith
  have hb : (s.samples.sum : ℝ) / s.samples.length ≤ 2 ^ 57 := by rw [div_le_iff₀ hl]; linarith
  obtain ⟨ops, hops⟩ := (C94_no_panic_partial (s := s.snapshot (F := ℝ)) (by rw [e1]; linarith)
    (by rw [e1]; norm_num at hb ⊢; linarith) vw vh s.samples labels).mpr
    (by rw [e1]; intro h; linarith [h.2])
  refine ⟨s, ops, h1, hops, ?_, (C94_inside hops (by rw [e2]; linarith) (by omega)).1⟩
  obtain ⟨d, hd⟩ := drawLayer_displayMax hops
  rw [C94_bars hops hd, List.length_map, List.length_zipIdx, hlen]

/-- Three frames of about 16 ms, one of 40 ms: four bars, three lines. -/
example : ((Stats.after [.frame 16000, .frame 17000, .frame 16000, .frame 40000]).toOption.bind fun s =>
    ((s.snapshot (F := F64)).drawLayer (lit 800) (lit 600) s.samples 6).toOption).map (fun ops =>
      ((ops.filterMap PanelOp.bar?).map Prod.fst, (ops.filterMap PanelOp.line?).length)) =
    some ([(100, 143, 255), (255, 176, 0), (100, 143, 255), (220, 38, 127)], 3) := by
  decide +kernel

/-- A frame ten times as long as the others: the scale is one and a third of the average, as a multiple of
5 ms. -/
example : ((Stats.after (List.replicate 99 (.frame 9000) ++ [.frame 90000])).toOption.bind fun s =>
    (s.snapshot (F := F64)).displayMax.toOption) = some (lit 15) := by
  decide +kernel

end Velato
