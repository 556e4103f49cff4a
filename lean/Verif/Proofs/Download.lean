import Verif.Spec.Download
import Mathlib.Data.List.Count
import Mathlib.Data.List.Basic
import Mathlib.Data.List.Infix
import Mathlib.Data.List.Nodup
import Mathlib.Data.List.TakeWhile

/-!
# Lemmas about downloading
-/

namespace Velato

/-! ## Text -/

theorem range_rfind_some {p : Nat → Bool} {n i : Nat} (h : (List.range n).reverse.find? p = some i) :
    i < n ∧ p i = true ∧ ∀ j, i < j → j < n → p j = false := by
  induction n with
  | zero => cases h
  | succ n ih =>
    rw [List.range_succ, List.reverse_append, List.reverse_singleton, List.singleton_append,
      List.find?_cons] at h
    cases hp : p n with
    | true =>
      rw [hp] at h
      cases h
      exact ⟨by omega, hp, fun j h1 h2 => by omega⟩
    | false =>
      rw [hp] at h
      obtain ⟨h1, h2, h3⟩ := ih h
      refine ⟨by omega, h2, fun j h4 h5 => ?_⟩
      rcases Nat.lt_succ_iff_lt_or_eq.mp h5 with h6 | rfl
      · exact h3 j h4 h6
      · exact hp

theorem range_rfind_none {p : Nat → Bool} {n : Nat} (h : (List.range n).reverse.find? p = none) (j : Nat)
    (hj : j < n) : p j = false := by
  rw [List.find?_eq_none] at h
  simpa using h j (by simpa using hj)

theorem Text.rfind_some {s pat : Text} {i : Nat} (h : s.rfind pat = some i) :
    i ≤ s.length ∧ pat <+: s.drop i ∧ ∀ j, i < j → j ≤ s.length → ¬ pat <+: s.drop j := by
  obtain ⟨h1, h2, h3⟩ := range_rfind_some h
  refine ⟨by omega, List.isPrefixOf_iff_prefix.mp h2, fun j h4 h5 h6 => ?_⟩
  have := h3 j h4 (by omega)
  rw [List.isPrefixOf_iff_prefix.mpr h6] at this
  cases this

theorem infix_drop {α : Type} {l s : List α} (h : l <:+: s) : ∃ j, j ≤ s.length ∧ l <+: s.drop j := by
  obtain ⟨a, b, rfl⟩ := h
  refine ⟨a.length, by simp, b, ?_⟩
  rw [List.append_assoc, List.drop_left]

theorem Text.rfind_none {s pat : Text} (h : s.rfind pat = none) : ¬ pat <:+: s := by
  intro hi
  obtain ⟨j, hj, hp⟩ := infix_drop hi
  have := range_rfind_none h j (by omega)
  rw [List.isPrefixOf_iff_prefix.mpr hp] at this
  cases this

theorem Text.rfind_char_some {s : Text} {c : Char} {i : Nat} (h : s.rfind [c] = some i) :
    s = s.take i ++ c :: s.drop (i + 1) ∧ c ∉ s.drop (i + 1) ∧ i < s.length := by
  obtain ⟨h1, ⟨t, h2⟩, h3⟩ := Text.rfind_some h
  have hi : i < s.length := by
    rcases Nat.lt_or_ge i s.length with h | h
    · exact h
    · rw [List.drop_of_length_le h] at h2; cases h2
  have h4 : s.drop i = c :: s.drop (i + 1) := by
    rw [List.drop_eq_getElem_cons hi] at h2 ⊢
    injection h2 with h2 h2'
    rw [h2]
  refine ⟨by rw [← h4, List.take_append_drop], fun hc => ?_, hi⟩
  obtain ⟨j, hj, hp⟩ := infix_drop (List.singleton_infix_iff c _ |>.mpr hc)
  rw [List.drop_drop] at hp
  rw [List.length_drop] at hj
  exact h3 _ (by omega) (by omega) hp

theorem Text.rfind_char_none {s : Text} {c : Char} (h : s.rfind [c] = none) : c ∉ s := fun hc =>
  Text.rfind_none h (List.singleton_infix_iff c _ |>.mpr hc)

/-! ## Paths -/

theorem splitSlash_of_notMem {s : Text} (h : '/' ∉ s) : s.splitSlash = [s] := by
  induction s with
  | nil => rfl
  | cons c cs ih =>
    rw [List.mem_cons, not_or] at h
    unfold Text.splitSlash
    rw [if_neg (Ne.symm h.1), ih h.2]

theorem components_of_notMem {s : Text} (h : '/' ∉ s) (h0 : s ≠ []) (h1 : s ≠ ['.']) :
    s.components = [s] := by
  unfold Text.components
  rw [splitSlash_of_notMem h]
  simp [h0, h1]

theorem withJson_concat {dir : PathParts} {file : Text} (h : file ≠ ['.', '.']) :
    withJson (dir ++ [file]) = dir ++ [fileStem file ++ ".json".toList] := by
  unfold withJson
  rw [List.getLast?_concat]
  dsimp only
  rw [if_neg h, List.dropLast_concat]

theorem filePath_of_notMem {d : DownloadItem} (dir : PathParts) (h : '/' ∉ d.name) (h0 : d.name ≠ [])
    (h1 : d.name ≠ ['.']) (h2 : d.name ≠ ['.', '.']) :
    d.filePath dir = dir ++ [fileStem d.name ++ ".json".toList] := by
  unfold DownloadItem.filePath joinPath
  rw [if_neg (fun hh : d.name.head? = some '/' => h (List.mem_of_mem_head? hh)), components_of_notMem h h0 h1, withJson_concat h2]

theorem fileStem_cases (file : Text) :
    (fileStem file = file ∧ '.' ∉ file.tail) ∨
    ∃ ext, file = fileStem file ++ '.' :: ext ∧ '.' ∉ ext ∧ fileStem file ≠ [] := by
  unfold fileStem
  cases h : file.rfind ['.'] with
  | none => exact Or.inl ⟨rfl, fun hh => Text.rfind_char_none h (List.mem_of_mem_tail hh)⟩
  | some i =>
    obtain ⟨h1, h2, h3⟩ := Text.rfind_char_some h
    cases i with
    | zero => exact Or.inl ⟨rfl, by simpa [List.drop_one] using h2⟩
    | succ i =>
      refine Or.inr ⟨file.drop (i + 2), h1, h2, ?_⟩
      intro h4
      have := congrArg List.length h4
      simp only [List.length_take, List.length_nil] at this
      omega

/-! ## Fetching -/

theorem Files.write_self (fs : Files) (p : PathParts) (b : List UInt8) :
    (fs.write p b).content p = some b := if_pos rfl

theorem Files.write_of_ne (fs : Files) {p q : PathParts} (b : List UInt8) (h : q ≠ p) :
    (fs.write p b).content q = fs.content q := if_neg h

/-- The ways a fetch can end. -/
theorem fetch_cases (d : DownloadItem) (net : Network) (fs : Files) (dir : PathParts) (limit : Nat) :
    d.fetch net fs dir limit = (fs, false) ∨
    (fs.content (d.filePath dir) = none ∧ fs.creatable (d.filePath dir) = true ∧
      ((net.get d.url = none ∧ d.fetch net fs dir limit = (fs.write (d.filePath dir) [], false)) ∨
      ∃ reply, net.get d.url = some reply ∧ ∃ b, d.fetch net fs dir limit =
        (fs.write (d.filePath dir) (reply.bytes.take (d.builtin.getD limit)), b) ∧
        (b = true ↔ reply.bytes.length ≤ d.builtin.getD limit ∧
          (reply.broken = true → d.builtin.getD limit ≤ reply.bytes.length) ∧
          (d.builtin.isSome = true → reply.bytes.length = d.builtin.getD limit)))) := by
  unfold DownloadItem.fetch
  by_cases h0 : 2 ^ 64 ≤ limit
  · rw [if_pos h0]; exact Or.inl rfl
  rw [if_neg h0]
  dsimp only
  split
  · exact Or.inl rfl
  split
  · exact Or.inl rfl
  rename_i h2
  rw [Bool.or_eq_true, not_or] at h2
  refine Or.inr ⟨by simpa using h2.1, by simpa using h2.2, ?_⟩
  cases net.get d.url with
  | none => exact Or.inl ⟨rfl, rfl⟩
  | some reply =>
    refine Or.inr ⟨reply, rfl, ?_⟩
    dsimp only
    generalize d.builtin.getD limit = n
    split
    · rename_i h
      simp only [Bool.and_eq_true, decide_eq_true_eq] at h
      refine ⟨false, rfl, ⟨fun h => (by cases h), fun h' => ?_⟩⟩
      have := h'.2.1 h.1
      omega
    rename_i hb
    split
    · rename_i h
      exact ⟨false, rfl, ⟨fun h => (by cases h), fun h' => absurd h'.1 (by omega)⟩⟩
    rename_i hn
    split
    · rename_i h
      simp only [Bool.and_eq_true, bne_iff_ne, List.length_take] at h
      refine ⟨false, rfl, ⟨fun h => (by cases h), fun h' => ?_⟩⟩
      have := h'.2.2 h.1
      omega
    · rename_i h
      refine ⟨true, rfl, ⟨fun _ => ⟨by omega, fun hbr => ?_, fun hs => ?_⟩, fun _ => rfl⟩⟩
      · by_contra hc
        exact hb (by simp only [hbr, Bool.true_and, decide_eq_true_eq]; omega)
      · by_contra hc
        refine h ?_
        simp only [hs, Bool.true_and, bne_iff_ne, List.length_take]
        omega

theorem fetch_creatable (d : DownloadItem) (net : Network) (fs : Files) (dir : PathParts) (limit : Nat) :
    (d.fetch net fs dir limit).1.creatable = fs.creatable := by
  rcases fetch_cases d net fs dir limit with h | ⟨-, -, ⟨-, h⟩ | ⟨r, -, b, h, -⟩⟩ <;> rw [h] <;> rfl

theorem fetch_other (d : DownloadItem) (net : Network) (fs : Files) (dir : PathParts) (limit : Nat)
    {q : PathParts} (hq : q ≠ d.filePath dir) :
    (d.fetch net fs dir limit).1.content q = fs.content q := by
  rcases fetch_cases d net fs dir limit with h | ⟨-, -, ⟨-, h⟩ | ⟨r, -, b, h, -⟩⟩ <;> rw [h]
  · exact Files.write_of_ne _ _ hq
  · exact Files.write_of_ne _ _ hq

theorem fetch_keeps (d : DownloadItem) (net : Network) (fs : Files) (dir : PathParts) (limit : Nat)
    {q : PathParts} {b : List UInt8} (h : fs.content q = some b) :
    (d.fetch net fs dir limit).1.content q = some b := by
  by_cases hq : q = d.filePath dir
  · rcases fetch_cases d net fs dir limit with h' | ⟨h', -⟩
    · rw [h']; exact h
    · rw [← hq, h] at h'; cases h'
  · rw [fetch_other _ _ _ _ _ hq]; exact h

/-- A fetch succeeds if the server has the right file and there is room for it. -/
theorem fetch_succeeds {d : DownloadItem} {net : Network} {fs : Files} {dir : PathParts} {limit n : Nat}
    (hl : limit < 2 ^ 64) (hb : d.builtin = some n)
    (hh : net.head d.url = some none ∨ net.head d.url = some (some n))
    (hc : fs.content (d.filePath dir) = none) (hcr : fs.creatable (d.filePath dir) = true)
    {reply : Reply} (hg : net.get d.url = some reply) (hlen : reply.bytes.length = n) :
    d.fetch net fs dir limit = (fs.write (d.filePath dir) reply.bytes, true) := by
  have ht : reply.bytes.take n = reply.bytes := by rw [← hlen, List.take_length]
  unfold DownloadItem.fetch
  rw [if_neg (by omega)]
  have hd : d.headOk net = true := by
    unfold DownloadItem.headOk
    rw [hb]
    rcases hh with h | h <;> rw [h]
    simp
  rw [hd, hb]
  dsimp only [Option.getD_some, Option.isSome_some]
  rw [hc, hcr, hg]
  simp only [Bool.not_true, Bool.false_eq_true, if_false, Option.isSome_none, Bool.or_self,
    ht, hlen, Nat.lt_irrefl, decide_false, Bool.and_false, bne_self_eq_false]

theorem sum_filter_le (l : List DownloadItem) (p : DownloadItem → Bool) (g : DownloadItem → Nat) :
    ((l.filter p).map g).sum ≤ (l.map g).sum := by
  induction l with
  | nil => simp
  | cons d l ih =>
    rw [List.filter_cons]
    split
    · simpa using ih
    · rw [List.map_cons, List.sum_cons]; omega

/-! ## The table of default downloads -/

/-- A number for a text, for the kernel to compare. -/
def textCode (s : Text) : Nat := s.foldl (fun n c => n * 2097152 + c.toNat) 0

/-- No number occurs twice. -/
def nodupNat : List Nat → Bool
  | [] => true
  | x :: xs => !(xs.any (Nat.beq x)) && nodupNat xs

theorem nodup_of_nodupNat {l : List Nat} (h : nodupNat l = true) : l.Nodup := by
  induction l with
  | nil => exact List.nodup_nil
  | cons x xs ih =>
    unfold nodupNat at h
    rw [Bool.and_eq_true] at h
    refine List.nodup_cons.mpr ⟨fun hx => ?_, ih h.2⟩
    have h1 := h.1
    rw [Bool.not_eq_true', List.any_eq_false] at h1
    exact h1 x hx (by simp)

theorem nodup_of_codes {l : List DownloadItem} (g : DownloadItem → Text)
    (h : nodupNat (l.map fun d => textCode (g d)) = true) : (l.map g).Nodup := by
  refine List.Nodup.of_map textCode ?_
  rw [List.map_map]
  exact nodup_of_nodupNat h

theorem defaultDownloads_names :
    (defaultDownloads.map (·.name)).Nodup ∧
    defaultDownloads.all (fun d => !d.name.contains '/' && !d.name.isEmpty && !d.name.contains '.'
      && d.builtin.isSome) = true ∧
    (defaultDownloads.map fun d => d.builtin.getD 0).sum < 2 ^ 64 := by
  refine ⟨nodup_of_codes _ ?_, ?_, ?_⟩ <;> decide +kernel

theorem defaultDownloads_urls : (defaultDownloads.map (·.url)).Nodup :=
  nodup_of_codes _ (by decide +kernel)

/-! ## The loop -/

/-- What the loop does: it attempts some of the downloads one after the other. -/
theorem loop_spec {net : Network} {args : DownloadArgs} {again : Nat → Option Bool} {total : Nat}
    {l : List DownloadItem} {i c f : Nat} {fs : Files} (ht : total = l.length + (c + f)) :
    ∃ r, downloadLoop net args again total l i c f fs = .ok r ∧
      ∃ done rest outcomes, l = done ++ rest ∧
        Attempts net args.directory args.sizeLimit done fs outcomes r.files ∧
        (∀ x, r.counts = some x →
          x = (c + outcomes.count true, f + outcomes.count false, rest.length)) ∧
        (r.ok = true → rest = [] ∧ r.counts.isSome = true ∧
          ∀ k : Nat, outcomes[k]? = some false → args.auto = false ∧ again (i + k) = some true) ∧
        (r.ok = false → ∃ os, outcomes = os ++ [false] ∧
          (args.auto = false → again (i + os.length) ≠ some true) ∧
          (r.counts = none ↔ args.auto = false ∧ again (i + os.length) = none) ∧
          ∀ k : Nat, os[k]? = some false → args.auto = false ∧ again (i + k) = some true) := by
  induction l generalizing i c f fs with
  | nil =>
    refine ⟨⟨fs, some (c, f, 0), true⟩, ?_, [], [], [], rfl, .nil fs, ?_, ?_, ?_⟩
    · unfold downloadLoop
      rw [if_pos (by simpa using ht.symm)]
    · rintro x h; cases h; simp
    · rintro -; exact ⟨rfl, rfl, fun k h => by simp at h⟩
    · rintro h; cases h
  | cons d l ih =>
    rw [List.length_cons] at ht
    unfold downloadLoop
    rcases hf : d.fetch net fs args.directory args.sizeLimit with ⟨fs', b⟩
    cases b with
    | true =>
      dsimp only
      obtain ⟨r, h1, done, rest, os, rfl, h3, h4, h5, h6⟩ :=
        ih (i := i + 1) (c := c + 1) (f := f) (fs := fs') (by omega)
      refine ⟨r, h1, d :: done, rest, true :: os, rfl, .cons hf h3, ?_, ?_, ?_⟩
      · intro x hx
        rw [h4 x hx, List.count_cons_self, List.count_cons_of_ne (by decide)]
        congr 1; omega
      · intro hr
        obtain ⟨g1, g2, g3⟩ := h5 hr
        refine ⟨g1, g2, fun k hk => ?_⟩
        cases k with
        | zero => cases hk
        | succ k => rw [show i + (k + 1) = i + 1 + k by omega]; exact g3 k (by simpa using hk)
      · intro hr
        obtain ⟨os', rfl, g1, g2, g3⟩ := h6 hr
        have e : i + (true :: os').length = i + 1 + os'.length := by rw [List.length_cons]; omega
        refine ⟨true :: os', rfl, by rw [e]; exact g1, by rw [e]; exact g2, fun k hk => ?_⟩
        cases k with
        | zero => cases hk
        | succ k => rw [show i + (k + 1) = i + 1 + k by omega]; exact g3 k (by simpa using hk)
    | false =>
      dsimp only
      rcases ha : (if args.auto then some false else again i) with _ | b
      · dsimp only
        have hau : args.auto = false := by
          cases h : args.auto with
          | false => rfl
          | true => rw [h] at ha; cases ha
        rw [hau] at ha
        replace ha : again i = none := ha
        refine ⟨_, rfl, [d], l, [false], rfl, .cons hf (.nil _), (by rintro x h; cases h),
          (by rintro h; cases h), fun _ => ⟨[], rfl, ?_, ?_, fun k h => by simp at h⟩⟩
        · intro _; rw [List.length_nil, Nat.add_zero, ha]; simp
        · simp [hau, ha]
      · cases b with
        | true =>
          dsimp only
          have hau : args.auto = false := by
            cases h : args.auto with
            | false => rfl
            | true => rw [h] at ha; cases ha
          rw [hau] at ha
          replace ha : again i = some true := ha
          obtain ⟨r, h1, done, rest, os, rfl, h3, h4, h5, h6⟩ :=
            ih (i := i + 1) (c := c) (f := f + 1) (fs := fs') (by omega)
          refine ⟨r, h1, d :: done, rest, false :: os, rfl, .cons hf h3, ?_, ?_, ?_⟩
          · intro x hx
            rw [h4 x hx, List.count_cons_self, List.count_cons_of_ne (by decide)]
            congr 2; omega
          · intro hr
            obtain ⟨g1, g2, g3⟩ := h5 hr
            refine ⟨g1, g2, fun k hk => ?_⟩
            cases k with
            | zero => exact ⟨hau, ha⟩
            | succ k => rw [show i + (k + 1) = i + 1 + k by omega]; exact g3 k (by simpa using hk)
          · intro hr
            obtain ⟨os', rfl, g1, g2, g3⟩ := h6 hr
            have e : i + (false :: os').length = i + 1 + os'.length := by rw [List.length_cons]; omega
            refine ⟨false :: os', rfl, by rw [e]; exact g1, by rw [e]; exact g2, fun k hk => ?_⟩
            cases k with
            | zero => exact ⟨hau, ha⟩
            | succ k => rw [show i + (k + 1) = i + 1 + k by omega]; exact g3 k (by simpa using hk)
        | false =>
          dsimp only
          rw [if_neg (by omega)]
          have hna : args.auto = false → again (i + 0) = some false := by
            intro h
            rw [h] at ha
            exact ha
          refine ⟨_, rfl, [d], l, [false], rfl, .cons hf (.nil _), ?_,
            (by rintro h; cases h), fun _ => ⟨[], rfl, ?_, ?_, fun k h => by simp at h⟩⟩
          · rintro x h
            cases h
            simp
            omega
          · intro h; rw [List.length_nil, hna h]; simp
          · constructor
            · intro h; cases h
            · rintro ⟨h, h'⟩; rw [List.length_nil, hna h] at h'; cases h'

theorem attempts_keeps {net : Network} {dir : PathParts} {limit : Nat} {l : List DownloadItem}
    {fs fs' : Files} {os : List Bool} (h : Attempts net dir limit l fs os fs') {q : PathParts}
    {b : List UInt8} (hq : fs.content q = some b) : fs'.content q = some b := by
  induction h with
  | nil => exact hq
  | @cons d l fs fs1 fs2 b os hf _ ih =>
    have := fetch_keeps d net _ dir limit hq
    rw [hf] at this
    exact ih this

theorem attempts_other {net : Network} {dir : PathParts} {limit : Nat} {l : List DownloadItem}
    {fs fs' : Files} {os : List Bool} (h : Attempts net dir limit l fs os fs') {q : PathParts}
    (hq : ∀ d ∈ l, q ≠ d.filePath dir) : fs'.content q = fs.content q := by
  induction h with
  | nil => rfl
  | @cons d l fs fs1 fs2 b os hf _ ih =>
    rw [ih fun d hd => hq d (by simp [hd])]
    have := fetch_other d net fs dir limit (hq d (by simp))
    rw [hf] at this
    exact this

theorem attempts_length {net : Network} {dir : PathParts} {limit : Nat} {l : List DownloadItem}
    {fs fs' : Files} {os : List Bool} (h : Attempts net dir limit l fs os fs') : os.length = l.length := by
  induction h with
  | nil => rfl
  | cons _ _ ih => rw [List.length_cons, List.length_cons, ih]

/-- A file whose download was reported complete has the content that the server sent. -/
theorem attempts_complete {net : Network} {dir : PathParts} {limit : Nat} {l : List DownloadItem}
    {fs fs' : Files} {os : List Bool} (h : Attempts net dir limit l fs os fs') {k : Nat} {d : DownloadItem}
    (hd : l[k]? = some d) (ho : os[k]? = some true) :
    ∃ reply, net.get d.url = some reply ∧ fs.content (d.filePath dir) = none ∧
      fs'.content (d.filePath dir) = some reply.bytes ∧
      reply.bytes.length ≤ d.builtin.getD limit ∧
      (reply.broken = true → reply.bytes.length = d.builtin.getD limit) ∧
      (∀ n, d.builtin = some n → reply.bytes.length = n) := by
  induction h generalizing k with
  | nil => cases hd
  | @cons d' l fs fs1 fs2 b os hf hrest ih =>
    cases k with
    | zero =>
      cases hd
      cases ho
      rcases fetch_cases d net fs dir limit with h | ⟨h1, -, ⟨-, h⟩ | ⟨r, h2, b, h, h3⟩⟩
      · rw [h] at hf; cases hf
      · rw [h] at hf; cases hf
      · rw [h] at hf
        cases hf
        obtain ⟨g1, g2, g3⟩ := h3.mp rfl
        refine ⟨r, h2, h1, attempts_keeps hrest ?_, g1, fun hb => le_antisymm g1 (g2 hb), ?_⟩
        · rw [Files.write_self, List.take_of_length_le g1]
        · intro n hn
          have := g3 (by rw [hn]; rfl)
          rw [this, hn]; rfl
    | succ k =>
      obtain ⟨r, h1, h2, h3⟩ := ih (by simpa using hd) (by simpa using ho)
      refine ⟨r, h1, ?_, h3⟩
      cases hc : fs.content (d.filePath dir) with
      | none => rfl
      | some b' =>
        have := fetch_keeps d' net fs dir limit hc
        rw [hf] at this
        dsimp only at this
        rw [this] at h2
        cases h2

/-- Distinct files that the server has are all fetched. -/
theorem attempts_all {net : Network} {dir : PathParts} {limit : Nat} (hl : limit < 2 ^ 64)
    {l : List DownloadItem} {fs fs' : Files} {os : List Bool}
    (h : Attempts net dir limit l fs os fs')
    (hd : (l.map fun d => d.filePath dir).Nodup)
    (hs : ∀ d ∈ l, ∃ n reply, d.builtin = some n ∧
      (net.head d.url = some none ∨ net.head d.url = some (some n)) ∧
      net.get d.url = some reply ∧ reply.bytes.length = n)
    (hc : ∀ d ∈ l, fs.content (d.filePath dir) = none ∧ fs.creatable (d.filePath dir) = true) :
    ∀ o ∈ os, o = true := by
  induction h with
  | nil => simp
  | @cons d l fs fs1 fs2 b os hf _ ih =>
    rw [List.map_cons, List.nodup_cons] at hd
    obtain ⟨n, reply, h1, h2, h3, h4⟩ := hs d (by simp)
    obtain ⟨h5, h6⟩ := hc d (by simp)
    have := fetch_succeeds hl h1 h2 h5 h6 h3 h4
    rw [hf] at this
    cases this
    have := ih hd.2 (fun d hd => hs d (by simp [hd])) (fun d' hd' => by
      refine ⟨?_, (hc d' (by simp [hd'])).2⟩
      rw [Files.write_of_ne]
      · exact (hc d' (by simp [hd'])).1
      · intro he
        exact hd.1 (he ▸ List.mem_map_of_mem (f := fun d => d.filePath dir) hd'))
    simpa using this

end Velato
