/-!
# `/repo/examples/scenes/src/download.rs`: downloading example files

Text is a list of characters.  A path is the list of its components, as `std::path` compares paths; the
directory is given as such a list and is absolute.  The network (`ureq`) and the answers at the prompts
(`inquire`) are parameters.  Files are a map from paths to contents; errors while writing to a file that
has been created, and what is printed except for the numbers of downloads, are not modelled.
-/

namespace Velato

/-- A `str`.  Used at `download.rs:127-150`. -/
abbrev Text := List Char

/-- The components of a path.  Used at `download.rs:168-170`. -/
abbrev PathParts := List Text

/-- `str::rfind`: the last position at which the pattern occurs.  Used at `download.rs:137-142`. -/
def Text.rfind (s pat : Text) : Option Nat :=
  (List.range (s.length + 1)).reverse.find? fun i => pat.isPrefixOf (s.drop i)

/-- `LottieDownload` (`download.rs:159-163`); of `BuiltinLottieProps` (`221-225`) only the size, which is a
`u64`. -/
structure DownloadItem where
  name : Text
  url : Text
  builtin : Option Nat
  deriving DecidableEq, Repr, Inhabited

/-- `Download::parse_download` (`download.rs:122-147`); `find` splits at the first `@`. -/
def parseDownload (value : Text) : DownloadItem :=
  match value.span (fun c => c != '@') with
  | (name, _ :: url) => ⟨name, url, none⟩
  | (_, []) =>
    let endIndex := (value.rfind ".json".toList).getD value.length
    let urlWithName : Text := value.take endIndex
    let name := match urlWithName.rfind ['/'] with
      | some v => urlWithName.drop (v + 1)
      | none => urlWithName
    ⟨name, value, none⟩

/-! ## Paths -/

/-- The pieces between slashes.  Used at `download.rs:168-170`. -/
def Text.splitSlash : Text → List Text
  | [] => [[]]
  | c :: cs =>
    if c = '/' then [] :: Text.splitSlash cs
    else match Text.splitSlash cs with
      | [] => [[c]]
      | p :: ps => (c :: p) :: ps

/-- `Path::components` of a relative path: empty pieces and `.` are no components.  Used at
`download.rs:168-170`. -/
def Text.components (s : Text) : PathParts :=
  s.splitSlash.filter fun p => !(p == []) && !(p == ['.'])

/-- `Path::join`: an absolute path replaces the directory.  Used at `download.rs:169`. -/
def joinPath (dir : PathParts) (s : Text) : PathParts :=
  if s.head? = some '/' then s.components else dir ++ s.components

/-- `Path::file_stem` of a component other than `..`: the part before the last dot, unless that is
empty.  Used at `download.rs:169`. -/
def fileStem (file : Text) : Text :=
  match file.rfind ['.'] with
  | some (i + 1) => file.take (i + 1)
  | _ => file

/-- `Path::with_extension("json")`: the last component gets another extension; nothing happens if it is
`..` or if there is no component.  Used at `download.rs:169`. -/
def withJson (path : PathParts) : PathParts :=
  match path.getLast? with
  | none => path
  | some file =>
    if file = ['.', '.'] then path else path.dropLast ++ [fileStem file ++ ".json".toList]

/-- `LottieDownload::file_path` (`download.rs:166-168`). -/
def DownloadItem.filePath (d : DownloadItem) (dir : PathParts) : PathParts :=
  withJson (joinPath dir d.name)

/-! ## Fetching -/

/-- What a `GET` request yields: the bytes that arrive, and whether the connection breaks after
them.  Used at `download.rs:199-206`. -/
structure Reply where
  bytes : List UInt8
  broken : Bool
  deriving DecidableEq, Repr, Inhabited

/-- The network: the outcome of requests for a URL, `none` if the call fails.  For `HEAD` the inner option
is the `content-length`, if there is such a header and it is a number.  Used at
`download.rs:182-199`. -/
structure Network where
  head : Text → Option (Option Nat)
  get : Text → Option Reply

/-- The files, and where files can be created if there is none.  Used at `download.rs:172-218`. -/
structure Files where
  content : PathParts → Option (List UInt8)
  creatable : PathParts → Bool

/-- A file with the given content.  Used at `download.rs:172-218`. -/
def Files.write (fs : Files) (p : PathParts) (bytes : List UInt8) : Files :=
  { fs with content := fun q => if q = p then some bytes else fs.content q }

/-- The check of the size that the server reports, if the size is known (`download.rs:177-190`). -/
def DownloadItem.headOk (d : DownloadItem) (net : Network) : Bool :=
  match d.builtin with
  | none => true
  | some size =>
    match net.head d.url with
    | none => false
    | some none => true
    | some (some contentLength) => contentLength == size

/-- `LottieDownload::fetch` (`download.rs:170-218`): the files afterwards and whether `Ok` is returned.
`limit` is the size limit given on the command line. -/
def DownloadItem.fetch (d : DownloadItem) (net : Network) (fs : Files) (dir : PathParts) (limit : Nat) :
    Files × Bool :=
  if 2 ^ 64 ≤ limit then (fs, false)
  else
    let sizeLimit := d.builtin.getD limit
    let limitExact := d.builtin.isSome
    if !d.headOk net then (fs, false)
    else
      let path := d.filePath dir
      if (fs.content path).isSome || !fs.creatable path then (fs, false)
      else
        match net.get d.url with
        | none => (fs.write path [], false)
        | some reply =>
          let fs := fs.write path (reply.bytes.take sizeLimit)
          if reply.broken && decide (reply.bytes.length < sizeLimit) then (fs, false)
          else if sizeLimit < reply.bytes.length then (fs, false)
          else if limitExact && (reply.bytes.take sizeLimit).length != sizeLimit then (fs, false)
          else (fs, true)

/-! ## The command -/

/-- Panics of the command.  Used at `download.rs:41-125`. -/
inductive DownloadPanic where
  /-- `unwrap` of `None`. -/
  | unwrap
  /-- Overflow of a `u64`. -/
  | overflow
  /-- Underflow of a `usize`. -/
  | underflow
  /-- A `debug_assert`. -/
  | assertion
  deriving DecidableEq, Repr, Inhabited

/-- `Download` (`download.rs:15-30`). -/
structure DownloadArgs where
  directory : PathParts
  downloads : Option (List Text)
  auto : Bool
  sizeLimit : Nat
  deriving DecidableEq, Repr, Inhabited

/-- The answers at the prompts, `none` if the prompt fails: to the question whether to download the default
files, and to the question after the failure of a download (given its index).  Used at
`download.rs:101,157`. -/
structure Answers where
  accept : Option Bool
  again : Nat → Option Bool

/-- The outcome of the command: the files, the numbers that are printed at the end (complete, failed,
skipped), and whether `Ok` is returned.  Used at `download.rs:41-125`. -/
structure DownloadReport where
  files : Files
  counts : Option (Nat × Nat × Nat)
  ok : Bool

/-- The loop over the downloads (`download.rs:82-119`). -/
def downloadLoop (net : Network) (args : DownloadArgs) (again : Nat → Option Bool) (total : Nat) :
    List DownloadItem → Nat → Nat → Nat → Files → Except DownloadPanic DownloadReport
  | [], _, completed, failed, fs =>
    if completed + failed = total then .ok ⟨fs, some (completed, failed, 0), true⟩
    else .error .assertion
  | d :: rest, index, completed, failed, fs =>
    match d.fetch net fs args.directory args.sizeLimit with
    | (fs, true) => downloadLoop net args again total rest (index + 1) (completed + 1) failed fs
    | (fs, false) =>
      match if args.auto then some false else again index with
      | none => .ok ⟨fs, none, false⟩
      | some true => downloadLoop net args again total rest (index + 1) completed (failed + 1) fs
      | some false =>
        if total < completed + (failed + 1) then .error .underflow
        else .ok ⟨fs, some (completed, failed + 1, total - (completed + (failed + 1))), false⟩

/-- The sum of the sizes that is shown before the question (`download.rs:59-71`). -/
def totalBytes : List DownloadItem → Nat → Except DownloadPanic Nat
  | [], n => .ok n
  | d :: rest, n =>
    match d.builtin with
    | none => .error .unwrap
    | some size => if 2 ^ 64 ≤ n + size then .error .overflow else totalBytes rest (n + size)

/-- `Download::action` (`download.rs:41-120`); `defaults` is `default_downloads()`. -/
def downloadAction (net : Network) (args : DownloadArgs) (defaults : List DownloadItem)
    (answers : Answers) (fs : Files) : Except DownloadPanic DownloadReport :=
  let run := fun (todo : List DownloadItem) =>
    downloadLoop net args answers.again todo.length todo 0 0 0 fs
  match args.downloads with
  | some downloads => run (downloads.map parseDownload)
  | none =>
    let downloads := defaults.filter fun it => (fs.content (it.filePath args.directory)).isNone
    if args.auto then run downloads
    else if downloads.isEmpty then run []
    else match totalBytes downloads 0 with
      | .error e => .error e
      | .ok _ =>
        match answers.accept with
        | none => .ok ⟨fs, none, false⟩
        | some true => run downloads
        | some false => run []

end Velato
