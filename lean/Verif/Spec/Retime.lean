import Verif.Model.Scene

/-!
# Moving everything in time
-/

namespace Velato

section
variable {F T : Type} (f : F → F)

/-- The keyframe at the time `f t` instead of `t`. -/
def Time.retime (t : Time F) : Time F := { t with frame := f t.frame }

/-- The property with its keyframes moved by `f`. -/
def Value.retime : Value F T → Value F T
  | .fixed v => .fixed v
  | .animated a => .animated ⟨a.times.map (Time.retime f), a.values⟩

/-- The position with its keyframes moved by `f`. -/
def Position.retime : Position F → Position F
  | .value v => .value (v.retime f)
  | .splitValues x y => .splitValues (x.retime f) (y.retime f)

/-- The transform with its keyframes moved by `f`. -/
def Transform.retime : Transform F → Transform F
  | .fixed a => .fixed a
  | .animated t => .animated
    { anchor := t.anchor.retime f, position := t.position.retime f, rotation := t.rotation.retime f,
      scale := t.scale.retime f, skew := t.skew.retime f, skewAngle := t.skewAngle.retime f }

/-- The outline with its keyframes moved by `f`. -/
def Geometry.retime : Geometry F → Geometry F
  | .fixed p => .fixed p
  | .rect r => .rect
    { r with position := r.position.retime f, size := r.size.retime f,
             cornerRadius := r.cornerRadius.retime f }
  | .ellipse e => .ellipse { e with position := e.position.retime f, size := e.size.retime f }
  | .spline s => .spline { s with times := s.times.map (Time.retime f) }
  | .star s => .star
    { s with position := s.position.retime f, innerRadius := s.innerRadius.retime f,
             innerRoundness := s.innerRoundness.retime f, outerRadius := s.outerRadius.retime f,
             outerRoundness := s.outerRoundness.retime f, rotation := s.rotation.retime f,
             points := s.points.retime f }

/-- The stroke with its keyframes moved by `f`. -/
def Stroke.retime : Stroke F → Stroke F
  | .fixed s => .fixed s
  | .animated s => .animated { s with width := s.width.retime f }

/-- The stops with their keyframes moved by `f`. -/
def ColorStops.retime : ColorStops F → ColorStops F
  | .fixed s => .fixed s
  | .animated s => .animated { s with frames := s.frames.map (Time.retime f) }

/-- The brush with its keyframes moved by `f`. -/
def MBrush.retime : MBrush F → MBrush F
  | .fixed b => .fixed b
  | .animated (.solid c) => .animated (.solid (c.retime f))
  | .animated (.gradient g) => .animated (.gradient
    { g with startPoint := g.startPoint.retime f, endPoint := g.endPoint.retime f,
             stops := g.stops.retime f })

/-- The fill or stroke with its keyframes moved by `f`. -/
def Draw.retime (d : Draw F) : Draw F where
  stroke := d.stroke.map (Stroke.retime f)
  brush := d.brush.retime f
  opacity := d.opacity.retime f

/-- The repeater with its keyframes moved by `f`. -/
def Repeater.retime : Repeater F → Repeater F
  | .fixed r => .fixed r
  | .animated r => .animated
    { copies := r.copies.retime f, offset := r.offset.retime f,
      anchorPoint := r.anchorPoint.retime f, position := r.position.retime f,
      rotation := r.rotation.retime f, scale := r.scale.retime f,
      startOpacity := r.startOpacity.retime f, endOpacity := r.endOpacity.retime f }

/-- The trim with its keyframes moved by `f`. -/
def Trim.retime : Trim F → Trim F
  | .fixed t => .fixed t
  | .animated t => .animated
    { start := t.start.retime f, stop := t.stop.retime f, offset := t.offset.retime f }

/-- The group transform with its keyframes moved by `f`. -/
def GroupTransform.retime (t : GroupTransform F) : GroupTransform F where
  transform := t.transform.retime f
  opacity := t.opacity.retime f

mutual
/-- The shape with its keyframes moved by `f`. -/
def Shape.retime : Shape F → Shape F
  | .group ss t => .group (Shape.retimeAll ss) (t.map (GroupTransform.retime f))
  | .geometry g => .geometry (g.retime f)
  | .draw d => .draw (d.retime f)
  | .repeater r => .repeater (r.retime f)
  | .trim t => .trim (t.retime f)

/-- The shapes with their keyframes moved by `f`. -/
def Shape.retimeAll : List (Shape F) → List (Shape F)
  | [] => []
  | s :: ss => s.retime :: Shape.retimeAll ss
end

/-- The mask with its keyframes moved by `f`. -/
def Mask.retime (m : Mask F) : Mask F :=
  { m with geometry := m.geometry.retime f, opacity := m.opacity.retime f }

/-- The content with its keyframes moved by `f`. -/
def Content.retime : Content F → Content F
  | .none => .none
  | .instance name tr => .instance name (tr.map (Value.retime f))
  | .shape ss => .shape (Shape.retimeAll f ss)

/-- The layer with its keyframes, range and start moved by `f`, and stretched by `g`. -/
def Layer.retime (g : F → F) (l : Layer F) : Layer F :=
  { l with
    transform := l.transform.retime f
    opacity := l.opacity.retime f
    frames := ⟨f l.frames.start, f l.frames.stop⟩
    stretch := g l.stretch
    startFrame := f l.startFrame
    masks := l.masks.map (Mask.retime f)
    content := l.content.retime f }

/-- The composition with its layers moved by `f` and stretched by `g`.  Assets have a time of their
own, and are left as they are. -/
def Composition.retime (g : F → F) (c : Composition F) : Composition F :=
  { c with
    frames := ⟨f c.frames.start, f c.frames.stop⟩
    layers := c.layers.map (Layer.retime f g) }

end
end Velato
