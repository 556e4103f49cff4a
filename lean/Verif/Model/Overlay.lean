import Verif.Model.Player
import Verif.Model.Stats

/-!
# `/repo/examples/scenes/src/{picking,simple_text}.rs`: overlays and text

Fonts are parameters: the advance width of a character and the height of a line.  Glyphs are drawn by vello.
-/

namespace Velato
open FloatOps (lit)

section
variable {F : Type} [FloatOps F]

/-- What the overlays add to the scene: a filled rectangle, an outlined rectangle, text.  Used at
`picking.rs:73-118`. -/
inductive OverlayOp (F : Type) where
  | fill (color : Color F) (rect : KRect F)
  | stroke (width : F) (color : Color F) (rect : KRect F)
  | text (size : F) (color : Color F) (transform : Affine F) (text : String)
  deriving DecidableEq, Repr, Inhabited

/-- `HOVER_FILL`, `HOVER_STROKE`, `DIM_FILL`, `DIM_STROKE` (`picking.rs:30-33`), and the colours of text
(`picking.rs:94-98`, `:116`); components are `f32`. -/
def hoverFill : Color F := ⟨lit 1, lit 1, lit 1, FloatOps.toF32 (lit (15 / 100))⟩
@[inherit_doc hoverFill]
def hoverStroke : Color F := ⟨lit 1, lit 1, lit 1, FloatOps.toF32 (lit (9 / 10))⟩
@[inherit_doc hoverFill]
def dimFill : Color F := ⟨lit (1 / 2), lit (1 / 2), lit (1 / 2), FloatOps.toF32 (lit (8 / 100))⟩
@[inherit_doc hoverFill]
def dimStroke : Color F := ⟨lit (1 / 2), lit (1 / 2), lit (1 / 2), FloatOps.toF32 (lit (3 / 10))⟩
@[inherit_doc hoverFill]
def hoverText : Color F := ⟨lit 1, lit 1, lit 1, lit 1⟩
@[inherit_doc hoverFill]
def dimText : Color F := ⟨lit 1, lit 1, lit 1, lit (1 / 2)⟩

/-- The overlay of one hit (`picking.rs:76-108`). -/
def hitOverlay (hovered : Option Nat) (i : Nat) (hit : LayerHit F) : List (OverlayOp F) :=
  let isHovered := hovered == some i
  let textSize : F := if isHovered then lit 16 else lit 12
  [ .fill (if isHovered then hoverFill else dimFill) hit.rect,
    .stroke (if isHovered then lit 3 else lit 1) (if isHovered then hoverStroke else dimStroke) hit.rect,
    .text textSize (if isHovered then hoverText else dimText)
      (Affine.translate ⟨hit.rect.x0 +. lit 4, hit.rect.y0 +. textSize +. lit 2⟩) hit.name ]

/-- The overlays (`picking.rs:72-120`); `hits[idx]` panics if the index is out of range. -/
def overlays (hits : List (LayerHit F)) (hovered : Option Nat) (sceneCursor : Option (P2 F)) :
    Except ViewerPanic (List (OverlayOp F)) :=
  let boxes := hits.zipIdx.flatMap fun p => hitOverlay hovered p.2 p.1
  match hovered, sceneCursor with
  | some idx, some cursor =>
    match hits[idx]? with
    | none => .error .index
    | some hit =>
      .ok (boxes ++ [.text (lit 20) hoverText
        (Affine.translate ⟨cursor.x +. lit 16, cursor.y -. lit 8⟩) ("-> " ++ hit.name)])
  | _, _ => .ok boxes

/-- The overlays that a frame of `picking_scene` adds (`picking.rs:61-120`) to the picture of
`pickingFrame`. -/
def pickingOverlays (c : Composition F) (cursor viewport : Option (P2 F)) (camera : Affine F)
    (hits : List (LayerHit F)) (hovered : Option Nat) : Except ViewerPanic (List (OverlayOp F)) :=
  overlays hits hovered (match cursor, viewport with
    | some cursor, some viewport =>
      some (cursorToScene cursor viewport ⟨FloatOps.ofUsize c.width, FloatOps.ofUsize c.height⟩ camera)
    | _, _ => none)

/-! ## Text -/

/-- The glyphs of a text with their positions (`simple_text.rs:78-104`): `pen_x` and `pen_y` are `f32`. -/
def layoutGlyphs (advance : Char → F) (lineHeight : F) : List Char → F → F → List (Char × P2 F)
  | [], _, _ => []
  | ch :: rest, penX, penY =>
    if ch = '\n' then layoutGlyphs advance lineHeight rest (lit 0) (FloatOps.toF32 (penY +. lineHeight))
    else
      (ch, ⟨penX, penY⟩)
        :: layoutGlyphs advance lineHeight rest (FloatOps.toF32 (penX +. advance ch)) penY

/-- `RobotoText::add_var_run` (`simple_text.rs:53-105`), the glyphs only. -/
def textGlyphs (advance : Char → F) (lineHeight : F) (text : List Char) : List (Char × P2 F) :=
  layoutGlyphs advance lineHeight text (lit 0) (lit 0)

end
end Velato
