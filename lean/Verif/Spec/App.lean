import Verif.Model.App

/-!
# The life of the window: what is meant

Specification for C120 to C122.
-/

namespace Velato

variable {F : Type}

/-- The window that an action concerns. -/
def AppAction.windowOf : AppAction F → Option Nat
  | .createWindow w => some w
  | .createSurface w => some w
  | .frame w _ _ _ => some w.id
  | _ => none

/-- The device that has to draw, or to compile shaders. -/
def AppAction.deviceOf : AppAction F → Option Nat
  | .frame _ s _ _ => some s.device
  | .reloadShaders d => some d
  | _ => none

/-- The device for which a renderer is created. -/
def AppAction.rendererOf : AppAction F → Option Nat
  | .createRenderer d => some d
  | _ => none

/-- The picture that is displayed. -/
def AppAction.pictureOf : AppAction F → Option (ViewerFrame F)
  | .frame _ _ _ f => some f
  | _ => none

/-- A window is created. -/
def AppAction.CreatesWindow : AppAction F → Prop
  | .createWindow _ => True
  | _ => False

/-- The application uses one window only, which it creates before anything else is done with it. -/
def OneWindow (acts : List (AppAction F)) : Prop :=
  (∀ a ∈ acts, a.windowOf = none) ∨
    ∃ pre w post, acts = pre ++ .createWindow w :: post ∧ (∀ a ∈ pre, a.windowOf = none) ∧
      ∀ a ∈ post, ¬ a.CreatesWindow ∧ ∀ i, a.windowOf = some i → i = w

/-- Whatever draws has been created before. -/
def RenderersFirst (acts : List (AppAction F)) : Prop :=
  ∀ pre a post d, acts = pre ++ a :: post → a.deviceOf = some d → .createRenderer d ∈ pre

/-- The system answers sensibly: a device that is there, and devices do not disappear. -/
def SensibleAnswers (devices : Nat) : List (AppEvent F) → Prop
  | [] => True
  | .resumed r :: es => r.device < r.devices ∧ devices ≤ r.devices ∧ SensibleAnswers r.devices es
  | _ :: es => SensibleAnswers devices es

/-- Whether the window is shown: from the time the application is resumed until it is suspended. -/
def windowShown (shown : Bool) : List (AppEvent F) → Bool
  | [] => shown
  | .suspended :: es => windowShown false es
  | .resumed _ :: es => windowShown true es
  | _ :: es => windowShown shown es

/-- The events that reach the picture: those of the window while it is shown, and the end of each round of
events; `shown` is the window that is shown, `kept` the one that is kept while suspended.  When the window is
shown (again), it has the size it has then. -/
def delivered (shown kept : Option Nat) : List (AppEvent F) → List (ViewerEvent F)
  | [] => []
  | .window _ (.viewer .aboutToWait) :: es => delivered shown kept es
  | .window id (.viewer e) :: es =>
    if shown = some id then e :: delivered shown kept es else delivered shown kept es
  | .window _ _ :: es => delivered shown kept es
  | .aboutToWait :: es => .aboutToWait :: delivered shown kept es
  | .hotReload :: es => delivered shown kept es
  | .suspended :: es => delivered none (shown.or kept) es
  | .resumed r :: es =>
    match shown with
    | some w => delivered (some w) kept es
    | none => .resized r.width r.height :: delivered (some (kept.getD r.window)) none es

end Velato
