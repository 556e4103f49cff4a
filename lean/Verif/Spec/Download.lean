import Verif.Model.DefaultDownloads

/-!
# Specification: downloads one after the other
-/

namespace Velato

/-- The downloads are attempted one after the other: the files before, for each download whether it
succeeds, the files afterwards. -/
inductive Attempts (net : Network) (dir : PathParts) (limit : Nat) :
    List DownloadItem → Files → List Bool → Files → Prop
  | nil (fs : Files) : Attempts net dir limit [] fs [] fs
  | cons {d : DownloadItem} {l : List DownloadItem} {fs fs1 fs2 : Files} {b : Bool} {os : List Bool}
      (hf : d.fetch net fs dir limit = (fs1, b)) (h : Attempts net dir limit l fs1 os fs2) :
      Attempts net dir limit (d :: l) fs (b :: os) fs2

end Velato
