import Verif.Proofs.Download

/-!
# Downloading example files (C102 – C107)
-/

namespace Velato

/-! ## C102 -/

/-- **C102.** `name@url` is downloaded from the URL after the first `@` under the name before it. -/
theorem C102_named (name url : Text) (h : '@' ∉ name) :
    parseDownload (name ++ '@' :: url) = ⟨name, url, none⟩ := by
  have : (name ++ '@' :: url).span (fun c => c != '@') = (name, '@' :: url) := by
    rw [List.span_eq_takeWhile_dropWhile]
    have ha : ∀ c ∈ name, (c != '@') = true := fun c hc => by
      rw [bne_iff_ne]; rintro rfl; exact h hc
    rw [List.takeWhile_append_of_pos ha, List.dropWhile_append_of_pos ha]
    simp
  unfold parseDownload
  rw [this]

/-- **C102 (partial).** A URL alone, if there is no `@` in it, is downloaded from this URL; the name is what
stands between the last slash before, and the beginning of, the last `.json` (or the end, if there is no
`.json`).  What is missing: URLs that contain an `@` (`C102_counterexample`). -/
theorem C102_plain_partial (url : Text) (h : '@' ∉ url) :
    (parseDownload url).url = url ∧ (parseDownload url).builtin = none ∧
    ∃ before after, url = before ++ (parseDownload url).name ++ after ∧
      (before = [] ∨ before.getLast? = some '/') ∧ '/' ∉ (parseDownload url).name ∧
      ((after = [] ∧ ¬ ".json".toList <:+: url) ∨
        (".json".toList <+: after ∧ ¬ ".json".toList <:+: after.tail)) := by
  have hs : url.span (fun c => c != '@') = (url, []) := by
    rw [List.span_eq_takeWhile_dropWhile]
    have ha : ∀ c ∈ url, (c != '@') = true := fun c hc => by
      rw [bne_iff_ne]; rintro rfl; exact h hc
    rw [List.takeWhile_eq_self_iff.mpr ha, List.dropWhile_eq_nil_iff.mpr ha]
  have hend : (url.drop ((url.rfind ".json".toList).getD url.length) = [] ∧ ¬ ".json".toList <:+: url) ∨
      (".json".toList <+: url.drop ((url.rfind ".json".toList).getD url.length) ∧
        ¬ ".json".toList <:+: (url.drop ((url.rfind ".json".toList).getD url.length)).tail) := by
    cases hr : url.rfind ".json".toList with
    | none => exact Or.inl ⟨by simp, Text.rfind_none hr⟩
    | some i =>
      obtain ⟨h1, h2, h3⟩ := Text.rfind_some hr
      refine Or.inr ⟨h2, fun hi => ?_⟩
      obtain ⟨j, hj, hp⟩ := infix_drop hi
      rw [Option.getD_some, List.tail_drop, List.drop_drop] at hp
      rw [Option.getD_some, List.tail_drop, List.length_drop] at hj
      have hlen : i + 1 ≤ url.length := by
        have := h2.length_le
        rw [List.length_drop] at this
        have : (".json".toList).length = 5 := rfl
        omega
      exact h3 _ (by omega) (by omega) hp
  unfold parseDownload
  rw [hs]
  dsimp only
  refine ⟨rfl, rfl, ?_⟩
  generalize (url.rfind ".json".toList).getD url.length = e at hend
  cases hr : Text.rfind (url.take e) ['/'] with
  | none =>
    dsimp only
    exact ⟨[], url.drop e, by rw [List.nil_append, List.take_append_drop], Or.inl rfl,
      Text.rfind_char_none hr, hend⟩
  | some v =>
    dsimp only
    obtain ⟨h1, h2, h3⟩ := Text.rfind_char_some hr
    refine ⟨(url.take e).take v ++ ['/'], url.drop e, ?_, Or.inr (by simp), h2, hend⟩
    conv_lhs => rw [← List.take_append_drop e url, h1]
    simp

/-- **C102.** The claim is false: of a URL with a user name the part before the `@` is taken for the name of
the file and the rest for the URL. -/
theorem C102_counterexample : parseDownload "https://me@example.org/a.json".toList
    = ⟨"https://me".toList, "example.org/a.json".toList, none⟩ := by decide +kernel

example : parseDownload "https://example.org/json/a.json".toList
    = ⟨"a".toList, "https://example.org/json/a.json".toList, none⟩ := by decide +kernel

example : parseDownload "cat@https://example.org/a.json".toList
    = ⟨"cat".toList, "https://example.org/a.json".toList, none⟩ := by decide +kernel

/-! ## C103 -/

/-- **C103 (partial).** A download whose name has no dot and no slash is stored under its name, with the
extension `json`, in the directory.  What is missing: names with dots or slashes and the empty name
(`C103_counterexample`, `C103_outside_counterexample`). -/
theorem C103_partial (d : DownloadItem) (dir : PathParts) (h : '/' ∉ d.name) (h0 : d.name ≠ [])
    (h1 : '.' ∉ d.name) : d.filePath dir = dir ++ [d.name ++ ".json".toList] := by
  rw [filePath_of_notMem dir h h0 (by rintro h'; rw [h'] at h1; simp at h1)
    (by rintro h'; rw [h'] at h1; simp at h1)]
  rcases fileStem_cases d.name with ⟨h2, -⟩ | ⟨ext, h2, -⟩
  · rw [h2]
  · exact absurd (by rw [h2]; simp) h1

/-- **C103.** With dots in it, the name loses the part from the last dot on (unless nothing would be left). -/
theorem C103_stem (d : DownloadItem) (dir : PathParts) (h : '/' ∉ d.name) (h0 : d.name ≠ [])
    (h1 : d.name ≠ ['.']) (h2 : d.name ≠ ['.', '.']) :
    ∃ stem, d.filePath dir = dir ++ [stem ++ ".json".toList] ∧
      ((stem = d.name ∧ '.' ∉ d.name.tail) ∨
        ∃ ext, d.name = stem ++ '.' :: ext ∧ '.' ∉ ext ∧ stem ≠ []) := by
  refine ⟨fileStem d.name, filePath_of_notMem dir h h0 h1 h2, ?_⟩
  rcases fileStem_cases d.name with h | ⟨ext, h3, h4⟩
  · exact Or.inl h
  · exact Or.inr ⟨ext, h3, h4⟩

/-- **C103.** Different names without dots and slashes are different files. -/
theorem C103_distinct (d d' : DownloadItem) (dir : PathParts) (h : '/' ∉ d.name ∧ d.name ≠ [] ∧ '.' ∉ d.name)
    (h' : '/' ∉ d'.name ∧ d'.name ≠ [] ∧ '.' ∉ d'.name) (hp : d.filePath dir = d'.filePath dir) :
    d.name = d'.name := by
  rw [C103_partial d dir h.1 h.2.1 h.2.2, C103_partial d' dir h'.1 h'.2.1 h'.2.2] at hp
  have := (List.append_cancel_left hp)
  injection this with this
  exact List.append_cancel_right this

/-- **C103.** The claim is false for names with dots: version 1.2 and version 1.3 are the same file. -/
theorem C103_counterexample (dir : PathParts) :
    (parseDownload "v1.2@x".toList).filePath dir = dir ++ ["v1.json".toList] ∧
    (parseDownload "v1.3@x".toList).filePath dir = dir ++ ["v1.json".toList] := by
  have h2 : parseDownload "v1.2@x".toList = ⟨"v1.2".toList, "x".toList, none⟩ := by decide +kernel
  have h3 : parseDownload "v1.3@x".toList = ⟨"v1.3".toList, "x".toList, none⟩ := by decide +kernel
  have e2 : fileStem "v1.2".toList ++ ".json".toList = "v1.json".toList := by decide +kernel
  have e3 : fileStem "v1.3".toList ++ ".json".toList = "v1.json".toList := by decide +kernel
  rw [h2, h3]
  constructor
  · rw [filePath_of_notMem dir (by decide) (by decide) (by decide) (by decide)]
    dsimp only
    rw [e2]
  · rw [filePath_of_notMem dir (by decide) (by decide) (by decide) (by decide)]
    dsimp only
    rw [e3]

/-- **C103.** The claim is false for a URL that ends with a slash: the file is put beside the directory. -/
theorem C103_outside_counterexample :
    (parseDownload "https://example.org/".toList).filePath ["assets".toList, "downloads".toList]
      = ["assets".toList, "downloads.json".toList] := by decide +kernel

/-! ## C104 -/

/-- **C104.** A download that is reported complete has created its file, with exactly the bytes that the server
sent; they are no more than the limit, and exactly as many as expected if the size is known.  (The
connection may have broken only if the limit was reached exactly.) -/
theorem C104_complete {d : DownloadItem} {net : Network} {fs fs' : Files} {dir : PathParts} {limit : Nat}
    (h : d.fetch net fs dir limit = (fs', true)) :
    ∃ reply, net.get d.url = some reply ∧ fs.content (d.filePath dir) = none ∧
      fs'.content (d.filePath dir) = some reply.bytes ∧
      reply.bytes.length ≤ d.builtin.getD limit ∧
      (reply.broken = true → reply.bytes.length = d.builtin.getD limit) ∧
      (∀ n, d.builtin = some n → reply.bytes.length = n) :=
  attempts_complete (.cons h (.nil fs')) (k := 0) rfl rfl

/-- **C104.** Whatever happens, no file is overwritten and no other file is created. -/
theorem C104_keeps (d : DownloadItem) (net : Network) (fs : Files) (dir : PathParts) (limit : Nat)
    (q : PathParts) :
    (∀ b, fs.content q = some b → (d.fetch net fs dir limit).1.content q = some b) ∧
    (q ≠ d.filePath dir → (d.fetch net fs dir limit).1.content q = fs.content q) :=
  ⟨fun _ h => fetch_keeps d net fs dir limit h, fun h => fetch_other d net fs dir limit h⟩

/-- **C104.** A file that the server has is downloaded. -/
theorem C104_fetches {d : DownloadItem} {net : Network} {fs : Files} {dir : PathParts} {limit n : Nat}
    (hl : limit < 2 ^ 64) (hb : d.builtin = some n)
    (hh : net.head d.url = some none ∨ net.head d.url = some (some n))
    (hc : fs.content (d.filePath dir) = none) (hcr : fs.creatable (d.filePath dir) = true)
    {reply : Reply} (hg : net.get d.url = some reply) (hlen : reply.bytes.length = n) :
    (d.fetch net fs dir limit).2 = true := by
  rw [fetch_succeeds hl hb hh hc hcr hg hlen]

/-- **C104.** If the server reports another size than expected nothing is requested and no file is created. -/
theorem C104_wrong_size {d : DownloadItem} {net : Network} {fs : Files} {dir : PathParts} {limit n m : Nat}
    (hb : d.builtin = some n) (hh : net.head d.url = some (some m)) (hne : m ≠ n) :
    d.fetch net fs dir limit = (fs, false) := by
  unfold DownloadItem.fetch
  split
  · rfl
  have : d.headOk net = false := by
    unfold DownloadItem.headOk
    rw [hb, hh]
    simpa using hne
  rw [this]
  rfl

/-- A network with one file. -/
def exNet : Network := ⟨fun _ => some none, fun _ => some ⟨[1, 2, 3], false⟩⟩
/-- No files, but room for them. -/
def exFiles : Files := ⟨fun _ => none, fun _ => true⟩

/-- The hypotheses of C104 are met: a file of three bytes, with a limit of three bytes. -/
example : ((parseDownload "a@x".toList).fetch exNet exFiles ["d".toList] 3).2 = true := by decide +kernel

/-- With a limit of two bytes it is refused. -/
example : ((parseDownload "a@x".toList).fetch exNet exFiles ["d".toList] 2).2 = false := by decide +kernel

/-! ## C105 -/

/-- **C105 (partial).** After a failure there is either no new file, or a new file with a part of what the
server sent.  What is missing: that the file is removed (`C105_counterexample`). -/
theorem C105_failure_partial {d : DownloadItem} {net : Network} {fs fs' : Files} {dir : PathParts}
    {limit : Nat} (h : d.fetch net fs dir limit = (fs', false)) :
    fs' = fs ∨ (fs.content (d.filePath dir) = none ∧ ∃ part, fs'.content (d.filePath dir) = some part ∧
      (net.get d.url = none ∧ part = [] ∨ ∃ reply, net.get d.url = some reply ∧ part <+: reply.bytes)) := by
  rcases fetch_cases d net fs dir limit with h' | ⟨h1, -, ⟨h2, h'⟩ | ⟨r, h2, b, h', -⟩⟩ <;>
    rw [h] at h' <;> cases h'
  · exact Or.inl rfl
  · exact Or.inr ⟨h1, [], Files.write_self _ _ _, Or.inl ⟨h2, rfl⟩⟩
  · exact Or.inr ⟨h1, _, Files.write_self _ _ _, Or.inr ⟨r, h2, List.take_prefix _ _⟩⟩

/-- **C105.** The claim is false: if the connection fails after the file has been created, an empty file is
left over; the next run finds nothing to do and reports success, and the file stays empty. -/
theorem C105_counterexample :
    let d : DownloadItem := ⟨"a".toList, "u".toList, some 3⟩
    let args : DownloadArgs := ⟨["d".toList], none, true, 10⟩
    let down : Network := ⟨fun _ => some none, fun _ => none⟩
    ∃ r1 r2, downloadAction down args [d] ⟨none, fun _ => none⟩ exFiles = .ok r1 ∧ r1.ok = false ∧
      downloadAction exNet args [d] ⟨none, fun _ => none⟩ r1.files = .ok r2 ∧ r2.ok = true ∧
      r2.counts = some (0, 0, 0) ∧ r2.files.content (d.filePath args.directory) = some [] ∧
      exNet.get d.url = some ⟨[1, 2, 3], false⟩ :=
  ⟨⟨exFiles.write ["d".toList, "a.json".toList] [], some (0, 1, 0), false⟩,
    ⟨exFiles.write ["d".toList, "a.json".toList] [], some (0, 0, 0), true⟩, by rfl, rfl, by rfl, rfl, rfl,
    by rfl, rfl⟩

/-! ## C106 -/

/-- The files of the downloads that are asked for: those on the command line, or the default ones that are
not there yet, if they are wanted. -/
def wantedDownloads (args : DownloadArgs) (defaults : List DownloadItem) (answers : Answers) (fs : Files) :
    List DownloadItem :=
  match args.downloads with
  | some l => l.map parseDownload
  | none =>
    if args.auto = true ∨ answers.accept = some true then
      defaults.filter fun d => (fs.content (d.filePath args.directory)).isNone
    else []

/-- **C106.** The command does not panic, attempts the wanted downloads in order, and counts right: the
complete ones, the failed ones and the skipped ones.  It goes on after a failure exactly if the answer is
yes, and reports success exactly if nothing is skipped. -/
theorem C106_report (net : Network) (args : DownloadArgs) (defaults : List DownloadItem) (answers : Answers)
    (fs : Files) (hs : ∀ d ∈ defaults, d.builtin.isSome = true)
    (hsum : (defaults.map fun d => d.builtin.getD 0).sum < 2 ^ 64)
    (hp : args.downloads = none → args.auto = false → answers.accept.isSome = true) :
    ∃ r, downloadAction net args defaults answers fs = .ok r ∧
      ∃ done rest outcomes, wantedDownloads args defaults answers fs = done ++ rest ∧
        Attempts net args.directory args.sizeLimit done fs outcomes r.files ∧
        (∀ x, r.counts = some x → x = (outcomes.count true, outcomes.count false, rest.length)) ∧
        (r.ok = true → rest = [] ∧ r.counts.isSome = true ∧
          ∀ k : Nat, outcomes[k]? = some false → args.auto = false ∧ answers.again k = some true) ∧
        (r.ok = false → ∃ os, outcomes = os ++ [false] ∧
          (args.auto = false → answers.again os.length ≠ some true) ∧
          (r.counts = none ↔ args.auto = false ∧ answers.again os.length = none) ∧
          ∀ k : Nat, os[k]? = some false → args.auto = false ∧ answers.again k = some true) := by
  have key : ∀ todo : List DownloadItem, _ := fun todo =>
    loop_spec (net := net) (args := args) (again := answers.again) (total := todo.length) (l := todo)
      (i := 0) (c := 0) (f := 0) (fs := fs) (by omega)
  simp only [Nat.zero_add] at key
  have hbytes : ∀ l : List DownloadItem, (∀ d ∈ l, d.builtin.isSome = true) → ∀ n,
      n + (l.map fun d => d.builtin.getD 0).sum < 2 ^ 64 → ∃ m, totalBytes l n = .ok m := by
    intro l
    induction l with
    | nil => exact fun _ n _ => ⟨n, rfl⟩
    | cons d l ih =>
      intro h n hn
      obtain ⟨size, hsz⟩ := Option.isSome_iff_exists.mp (h d (by simp))
      rw [List.map_cons, List.sum_cons, hsz, Option.getD_some] at hn
      unfold totalBytes
      rw [hsz]
      dsimp only
      rw [if_neg (by omega)]
      exact ih (fun d hd => h d (by simp [hd])) _ (by omega)
  unfold downloadAction wantedDownloads
  cases hd : args.downloads with
  | some l => exact key _
  | none =>
    dsimp only
    cases ha : args.auto with
    | true =>
      rw [if_pos rfl, if_pos (Or.inl rfl)]
      rw [ha] at key
      exact key _
    | false =>
      rw [if_neg (by simp)]
      rw [ha] at key
      split
      · rename_i he
        rw [List.isEmpty_iff] at he
        rw [he]
        simpa using key []
      · obtain ⟨m, hm⟩ := hbytes (defaults.filter fun d =>
          (fs.content (d.filePath args.directory)).isNone)
          (fun d hd' => hs d (List.mem_of_mem_filter hd')) 0 (by
            refine Nat.lt_of_le_of_lt ?_ hsum
            rw [Nat.zero_add]
            exact sum_filter_le _ _ _)
        rw [hm]
        obtain ⟨b, hb⟩ := Option.isSome_iff_exists.mp (hp hd ha)
        rw [hb]
        cases b with
        | true => simpa using key _
        | false => simpa using key []

/-- **C106.** A run without questions that reports success has completed everything: each wanted file is
there, with the bytes that the server sent. -/
theorem C106_success {net : Network} {args : DownloadArgs} {defaults : List DownloadItem} {answers : Answers}
    {fs : Files} {r : DownloadReport} (hs : ∀ d ∈ defaults, d.builtin.isSome = true)
    (hsum : (defaults.map fun d => d.builtin.getD 0).sum < 2 ^ 64) (ha : args.auto = true)
    (h : downloadAction net args defaults answers fs = .ok r) (hok : r.ok = true) :
    r.counts = some ((wantedDownloads args defaults answers fs).length, 0, 0) ∧
    ∀ d ∈ wantedDownloads args defaults answers fs, ∃ reply, net.get d.url = some reply ∧
      r.files.content (d.filePath args.directory) = some reply.bytes ∧
      ∀ n, d.builtin = some n → reply.bytes.length = n := by
  obtain ⟨r', h', done, rest, os, h1, h2, h3, h4, -⟩ :=
    C106_report net args defaults answers fs hs hsum (fun _ h => by rw [ha] at h; cases h)
  rw [h] at h'
  cases h'
  obtain ⟨rfl, h5, h6⟩ := h4 hok
  rw [List.append_nil] at h1
  have hall : ∀ o ∈ os, o = true := by
    intro o ho
    cases o with
    | true => rfl
    | false =>
      obtain ⟨k, hk⟩ := List.mem_iff_getElem?.mp ho
      have := (h6 k hk).1
      rw [ha] at this
      cases this
  have hlen := attempts_length h2
  constructor
  · obtain ⟨x, hx⟩ := Option.isSome_iff_exists.mp h5
    rw [hx, h3 x hx, h1, List.length_nil, ← hlen]
    congr 2
    · exact List.count_eq_length.mpr fun o ho => (hall o ho).symm
    · rw [List.count_eq_zero.mpr fun hf => Bool.noConfusion (hall false hf)]
  · intro d hd
    rw [h1] at hd
    obtain ⟨k, hk⟩ := List.mem_iff_getElem?.mp hd
    have hk' : k < os.length := by rw [hlen]; exact (List.getElem?_eq_some_iff.mp hk).1
    have ho : os[k]? = some true := by
      rw [List.getElem?_eq_getElem hk', hall _ (List.getElem_mem hk')]
    obtain ⟨reply, g1, -, g3, -, -, g6⟩ := attempts_complete h2 hk ho
    exact ⟨reply, g1, g3, g6⟩

/-- **C106.** After a run without questions that reports success all default files are there, and the next
run has nothing to do. -/
theorem C106_again {net net' : Network} {args : DownloadArgs} {defaults : List DownloadItem}
    {answers answers' : Answers} {fs : Files} {r : DownloadReport}
    (hs : ∀ d ∈ defaults, d.builtin.isSome = true)
    (hsum : (defaults.map fun d => d.builtin.getD 0).sum < 2 ^ 64) (ha : args.auto = true)
    (hd : args.downloads = none) (h : downloadAction net args defaults answers fs = .ok r)
    (hok : r.ok = true) :
    (∀ d ∈ defaults, (r.files.content (d.filePath args.directory)).isSome = true) ∧
    downloadAction net' args defaults answers' r.files = .ok ⟨r.files, some (0, 0, 0), true⟩ := by
  have hall : ∀ d ∈ defaults, (r.files.content (d.filePath args.directory)).isSome = true := by
    intro d hm
    cases hc : fs.content (d.filePath args.directory) with
    | some b =>
      obtain ⟨r', h', done, rest, os, -, h2, -⟩ :=
        C106_report net args defaults answers fs hs hsum (fun _ h => by rw [ha] at h; cases h)
      rw [h] at h'
      cases h'
      rw [attempts_keeps h2 hc]; rfl
    | none =>
      obtain ⟨-, h2⟩ := C106_success hs hsum ha h hok
      have : d ∈ wantedDownloads args defaults answers fs := by
        unfold wantedDownloads
        rw [hd]
        dsimp only
        rw [if_pos (Or.inl ha)]
        exact List.mem_filter.mpr ⟨hm, by rw [hc]; rfl⟩
      obtain ⟨reply, -, h3, -⟩ := h2 d this
      rw [h3]; rfl
  refine ⟨hall, ?_⟩
  unfold downloadAction
  rw [hd]
  dsimp only
  rw [if_pos ha]
  have : defaults.filter (fun it => (r.files.content (it.filePath args.directory)).isNone) = [] := by
    rw [List.filter_eq_nil_iff]
    intro d hm
    have := hall d hm
    simp [Option.isSome_iff_ne_none.mp this]
  rw [this]
  rfl

/-- **C106.** Whatever happens, no file that was there before is changed, and only files of wanted downloads are
created. -/
theorem C106_keeps {net : Network} {args : DownloadArgs} {defaults : List DownloadItem} {answers : Answers}
    {fs : Files} {r : DownloadReport} (hs : ∀ d ∈ defaults, d.builtin.isSome = true)
    (hsum : (defaults.map fun d => d.builtin.getD 0).sum < 2 ^ 64)
    (hp : args.downloads = none → args.auto = false → answers.accept.isSome = true)
    (h : downloadAction net args defaults answers fs = .ok r) (q : PathParts) :
    (∀ b, fs.content q = some b → r.files.content q = some b) ∧
    ((∀ d ∈ wantedDownloads args defaults answers fs, q ≠ d.filePath args.directory) →
      r.files.content q = fs.content q) := by
  obtain ⟨r', h', done, rest, os, h1, h2, -⟩ := C106_report net args defaults answers fs hs hsum hp
  rw [h] at h'
  cases h'
  refine ⟨fun b hb => attempts_keeps h2 hb, fun hq => attempts_other h2 fun d hd => hq d ?_⟩
  rw [h1]
  exact List.mem_append_left _ hd

/-- The hypotheses of C106 are met: two default files, one of which is there already. -/
example :
    ((downloadAction exNet ⟨["d".toList], none, true, 10⟩
      [⟨"a".toList, "u".toList, some 3⟩, ⟨"b".toList, "u".toList, some 3⟩] ⟨none, fun _ => none⟩
      (exFiles.write ["d".toList, "b.json".toList] [7])).map fun r =>
        (r.counts, r.files.content ["d".toList, "a.json".toList],
          r.files.content ["d".toList, "b.json".toList])).toOption
      = some (some (1, 0, 0), some [1, 2, 3], some [7]) := by decide +kernel

/-- A failure in the middle, after which the answer is no: one complete, one failed, one skipped. -/
example :
    ((downloadAction exNet ⟨["d".toList], some ["a@u".toList, "a@u".toList, "b@u".toList], false, 10⟩ []
      ⟨none, fun _ => some false⟩ exFiles).map fun r => (r.ok, r.counts)).toOption
      = some (false, some (1, 1, 1)) := by decide +kernel

/-! ## C107 -/

/-- **C107.** The default downloads do not get into each other's way: with an empty directory and a server that
has all files in the expected size, a run without questions (with any size limit on the command line that is a
`u64`) completes all of them. -/
theorem C107_defaults (net : Network) (args : DownloadArgs) (answers : Answers) (fs : Files)
    (hl : args.sizeLimit < 2 ^ 64) (ha : args.auto = true) (hd : args.downloads = none)
    (hempty : ∀ d ∈ defaultDownloads, fs.content (d.filePath args.directory) = none ∧
      fs.creatable (d.filePath args.directory) = true)
    (hnet : ∀ d ∈ defaultDownloads, ∀ n, d.builtin = some n →
      (net.head d.url = some none ∨ net.head d.url = some (some n)) ∧
      ∃ reply, net.get d.url = some reply ∧ reply.bytes.length = n) :
    ∃ r, downloadAction net args defaultDownloads answers fs = .ok r ∧ r.ok = true ∧
      r.counts = some (defaultDownloads.length, 0, 0) ∧
      ∀ d ∈ defaultDownloads, ∃ reply, net.get d.url = some reply ∧
        r.files.content (args.directory ++ [d.name ++ ".json".toList]) = some reply.bytes := by
  obtain ⟨hn, hall, hsum⟩ := defaultDownloads_names
  rw [List.all_eq_true] at hall
  have hd' : ∀ d ∈ defaultDownloads, ('/' ∉ d.name ∧ d.name ≠ [] ∧ '.' ∉ d.name) ∧
      d.builtin.isSome = true := by
    intro d hm
    have := hall d hm
    simp only [Bool.and_eq_true, Bool.not_eq_true', List.contains_eq_mem, decide_eq_false_iff_not,
      List.isEmpty_eq_false_iff] at this
    exact ⟨⟨this.1.1.1, this.1.1.2, this.1.2⟩, this.2⟩
  have hw : wantedDownloads args defaultDownloads answers fs = defaultDownloads := by
    unfold wantedDownloads
    rw [hd]
    dsimp only
    rw [if_pos (Or.inl ha), List.filter_eq_self]
    intro d hm
    rw [(hempty d hm).1]; rfl
  have hnodup : (defaultDownloads.map fun d => d.filePath args.directory).Nodup := by
    rw [List.nodup_map_iff_inj_on (List.Nodup.of_map _ hn)]
    intro x hx y hy hxy
    have := C103_distinct x y args.directory (hd' x hx).1 (hd' y hy).1 hxy
    exact List.inj_on_of_nodup_map hn hx hy this
  obtain ⟨r, h, done, rest, os, h1, h2, h3, h4, h5⟩ := C106_report net args defaultDownloads answers fs
    (fun d hm => (hd' d hm).2) hsum (fun _ h => by rw [ha] at h; cases h)
  rw [hw] at h1
  have hdone : ∀ d ∈ done, d ∈ defaultDownloads := fun d hm => by rw [h1]; exact List.mem_append_left _ hm
  have hos : ∀ o ∈ os, o = true := by
    refine attempts_all hl h2 ?_ ?_ ?_
    · rw [h1, List.map_append] at hnodup
      exact hnodup.of_append_left
    · intro d hm
      obtain ⟨n, hn⟩ := Option.isSome_iff_exists.mp (hd' d (hdone d hm)).2
      obtain ⟨g1, reply, g2, g3⟩ := hnet d (hdone d hm) n hn
      exact ⟨n, reply, hn, g1, g2, g3⟩
    · exact fun d hm => hempty d (hdone d hm)
  have hok : r.ok = true := by
    cases hr : r.ok with
    | true => rfl
    | false =>
      obtain ⟨os', rfl, -⟩ := h5 hr
      exact absurd (hos false (by simp)) (by decide)
  obtain ⟨g1, g2⟩ := C106_success (fun d hm => (hd' d hm).2) hsum ha h hok
  rw [hw] at g1 g2
  refine ⟨r, h, hok, g1, fun d hm => ?_⟩
  obtain ⟨reply, g3, g4, -⟩ := g2 d hm
  have := (hd' d hm).1
  rw [C103_partial d _ this.1 this.2.1 this.2.2] at g4
  exact ⟨reply, g3, g4⟩

/-- **C107.** There are 344 default downloads. -/
theorem C107_count : defaultDownloads.length = 344 := by decide +kernel

/-- The hypotheses of C107 are met: a server that sends zeros, as many as expected. -/
example : ∃ net : Network, ∀ d ∈ defaultDownloads, ∀ n, d.builtin = some n →
    (net.head d.url = some none ∨ net.head d.url = some (some n)) ∧
    ∃ reply, net.get d.url = some reply ∧ reply.bytes.length = n := by
  refine ⟨⟨fun _ => some none, fun u => some ⟨List.replicate
    (((defaultDownloads.find? fun d => d.url == u).bind (·.builtin)).getD 0) 0, false⟩⟩, ?_⟩
  intro d hd n hn
  refine ⟨Or.inl rfl, _, rfl, ?_⟩
  rw [List.length_replicate]
  have : (defaultDownloads.find? fun d' => d'.url == d.url) = some d := by
    cases h : defaultDownloads.find? fun d' => d'.url == d.url with
    | none =>
      rw [List.find?_eq_none] at h
      exact absurd (by simp) (h d hd)
    | some d' =>
      have h1 := List.mem_of_find?_eq_some h
      have h2 := List.find?_some h
      rw [List.inj_on_of_nodup_map defaultDownloads_urls h1 hd (by simpa using h2)]
  rw [this]
  simp [hn]

end Velato
