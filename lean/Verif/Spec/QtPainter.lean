import Verif.Model.QtPainter
import Verif.Spec.Scene
/-!
# What is seen of a scene painted with Qt
-/

namespace Patro.Qt

open Xml (Text)

variable {K : Type} [Field K] [LinearOrder K]

/-! ## The device of Qt -/

/-- The state of a `QPainter`. -/
structure State (K : Type) where
  pen : Pen K
  brush : Option (Colour K)

/-- Something drawn, with the pen and the brush it is drawn with. -/
structure Drawn (K : Type) where
  pen : Pen K
  brush : Option (Colour K)
  figure : Figure K
deriving DecidableEq

/-- The state after a call. -/
def State.next (st : State K) : Op K → State K
  | .setPen pen => { st with pen := pen }
  | .setBrush brush => { st with brush := brush }
  | _ => st

/-- What the calls draw, one after the other. -/
def render : State K → List (Op K) → List (Drawn K)
  | _, [] => []
  | st, .draw f :: ops => ⟨st.pen, st.brush, f⟩ :: render st ops
  | st, op :: ops => render (st.next op) ops

/-- What the calls draw, whatever the pens are. -/
def figures (ops : List (Op K)) : List (Figure K) :=
  ops.filterMap fun
    | .draw f => some f
    | _ => none

/-- The point of an arc of Qt in the direction `u`, of coordinates the cosine and the sine of the angle: the y axis of the device goes down and
the angles turn anticlockwise on the screen. -/
def arcPoint (corner corner' u : Vec K) : Vec K :=
  ⟨(corner.x + corner'.x) / 2 + |corner'.x - corner.x| / 2 * u.x, (corner.y + corner'.y) / 2 - |corner'.y - corner.y| / 2 * u.y⟩

/-! ## Items on the device -/

/-- The items in the order they have to be painted: the visible ones, the lower z values first, in the order of insertion among those with
the same z value. -/
def PaintOrder (s : Scn K) (l : List (Item K)) : Prop :=
  l.Perm (s.items.values.filter fun i => i.visible) ∧ l.Pairwise (fun i j => i.z ≤ j.z) ∧
    ∀ z, (l.filter fun i => decide (i.z = z)) = s.items.values.filter fun i => i.visible && decide (i.z = z)

/-- The points of an item, in the scene. -/
def Points (s : Scn K) (i : Item K) (ps : List (Vec K)) : Prop :=
  List.Forall₂ (fun position p => s.castPosition position = .ok p) i.positions ps

/-- The points of the segments of a path, which are all straight, in the scene. -/
def Vertices (s : Scn K) (i : Item K) (ps : List (Vec K)) : Prop :=
  List.Forall₂ (fun segment p => ∃ position, segment = .linear position ∧ s.castPosition position = .ok p) i.shape.segments ps

/-- The figures that show an item on a device where `view` gives the place of a point of the scene and `length` the length of a length of the
scene; `ellipse` is an ellipse, or an arc of it whose angles are not said here. -/
inductive Shows (s : Scn K) (view : Vec K → Vec K) (length : K → K) : Item K → List (Figure K) → Prop
  | text {i} (p : Vec K) : i.shape.kind = .text → Points s i [p] → Shows s view length i [.text (view p) i.shape.text]
  | circle {i} (p : Vec K) : i.shape.kind = .circle → Points s i [p] → 360 ≤ |i.shape.stopAngle - i.shape.startAngle| →
    Shows s view length i [.ellipse (view p) (length i.shape.radius) (length i.shape.radius)]
  | circleArc {i} (p : Vec K) (start span : Int) : i.shape.kind = .circle → Points s i [p] →
    |i.shape.stopAngle - i.shape.startAngle| < 360 →
    Shows s view length i [.arc ⟨(view p).x - length i.shape.radius, (view p).y + length i.shape.radius⟩
      ⟨(view p).x + length i.shape.radius, (view p).y - length i.shape.radius⟩ start span]
  | ellipse {i} (p : Vec K) : i.shape.kind = .ellipse → Points s i [p] → 360 ≤ |i.shape.stopAngle - i.shape.startAngle| →
    Shows s view length i [.ellipse (view p) (length i.shape.radiusX) (length i.shape.radiusY)]
  | ellipseArc {i} (p : Vec K) (start span : Int) : i.shape.kind = .ellipse → Points s i [p] →
    |i.shape.stopAngle - i.shape.startAngle| < 360 →
    Shows s view length i [.arc ⟨(view p).x - length i.shape.radiusX, (view p).y + length i.shape.radiusY⟩
      ⟨(view p).x + length i.shape.radiusX, (view p).y - length i.shape.radiusY⟩ start span]
  | segment {i} (p q : Vec K) : i.shape.kind = .segment → Points s i [p, q] → Shows s view length i [.line (view p) (view q)]
  | polyline {i} (p : Vec K) (l : List (Vec K)) : i.shape.kind = .polyline → Points s i (p :: l) →
    Shows s view length i [.path (.moveTo (view p) :: l.map fun q => .lineTo (view q))]
  | polygon {i} (l : List (Vec K)) : i.shape.kind = .polygon → Points s i l → Shows s view length i [.polygon (l.map view)]
  | image {i} (p q : Vec K) : i.shape.kind = .image → Points s i [p, q] → Shows s view length i
    [.image (view p) (view q) i.shape.imageWidth i.shape.imageHeight (i.shape.imageDepth * i.shape.imageWidth)]
  | cubic {i} (p q r t : Vec K) : i.shape.kind = .cubicBezier → Points s i [p, q, r, t] →
    Shows s view length i [.path [.moveTo (view p), .cubicTo (view q) (view r) (view t)]]
  | path {i} (p : Vec K) (l : List (Vec K)) : i.shape.kind = .path → Points s i [p] → Vertices s i l →
    Shows s view length i [.path (.moveTo (view p) :: l.map fun q => .lineTo (view q))]

/-- The items the painter shows: those above whose line width is a number, with at least a point for a polygon, without control points for a
curve. -/
inductive Ready (s : Scn K) : Item K → Prop
  | text {i} (p : Vec K) : i.shape.kind = .text → Points s i [p] → Ready s i
  | conic {i} (p : Vec K) (w : K) : i.shape.kind = .circle ∨ i.shape.kind = .ellipse → i.shape.style.lineWidth = .ok w → Points s i [p] → Ready s i
  | segment {i} (p q : Vec K) (w : K) : i.shape.kind = .segment → i.shape.style.lineWidth = .ok w → Points s i [p, q] → Ready s i
  | poly {i} (p : Vec K) (l : List (Vec K)) (w : K) : i.shape.kind = .polyline ∨ i.shape.kind = .polygon → i.shape.style.lineWidth = .ok w →
    Points s i (p :: l) → Ready s i
  | image {i} (p q : Vec K) : i.shape.kind = .image → Points s i [p, q] → Ready s i
  | cubic {i} (p q r t : Vec K) (w : K) : i.shape.kind = .cubicBezier → i.shape.style.lineWidth = .ok w → i.shape.style.showControl = false →
    Points s i [p, q, r, t] → Ready s i
  | path {i} (p : Vec K) (l : List (Vec K)) (w : K) : i.shape.kind = .path → i.shape.style.lineWidth = .ok w → Points s i [p] →
    Vertices s i l → Ready s i

/-- The point of parameter `t` of the quadratic Bézier curve of control points `p`, `q`, `r`. -/
def quadPoint (p q r : Vec K) (t : K) : Vec K :=
  ⟨(1 - t) ^ 2 * p.x + 2 * t * (1 - t) * q.x + t ^ 2 * r.x, (1 - t) ^ 2 * p.y + 2 * t * (1 - t) * q.y + t ^ 2 * r.y⟩

/-- The point of parameter `t` of the cubic Bézier curve of control points `a`, `b`, `c`, `d`. -/
def cubicPoint (a b c d : Vec K) (t : K) : Vec K :=
  ⟨(1 - t) ^ 3 * a.x + 3 * t * (1 - t) ^ 2 * b.x + 3 * t ^ 2 * (1 - t) * c.x + t ^ 3 * d.x,
   (1 - t) ^ 3 * a.y + 3 * t * (1 - t) ^ 2 * b.y + 3 * t ^ 2 * (1 - t) * c.y + t ^ 3 * d.y⟩

/-- An affine map of the plane. -/
def Affine (f : Vec K → Vec K) : Prop := ∃ a b c d e g, ∀ p, f p = ⟨a * p.x + b * p.y + e, c * p.x + d * p.y + g⟩

/-- The style of an item is complete: its width is a number, and it has a colour unless it is selected; no control points are wanted. -/
def Styled (i : Item K) (color : Text) (width : K) : Prop :=
  i.shape.style.lineWidth = .ok width ∧ (i.selected = true ∨ i.shape.style.strokeColor = some color) ∧ i.shape.style.showControl = false

/-- The colour inside an item. -/
def wantedBrush (i : Item K) : Option (Colour K) := i.shape.style.fillColor.map fun c => ⟨c, i.shape.style.fillAlpha⟩

/-- The pen an item should be drawn with: the colour, the width and the styles of its own style, or a red one four times as wide when it is
selected. -/
def wantedPen (i : Item K) (color : Text) (width : K) : Pen K :=
  if i.selected then ⟨⟨"red".toList, 1⟩, 4 * width, i.shape.style.strokeStyle, i.shape.style.cap, i.shape.style.join⟩
  else ⟨⟨color, i.shape.style.strokeAlpha⟩, width, i.shape.style.strokeStyle, i.shape.style.cap, i.shape.style.join⟩

/-- The angle an arc covers from its start to its stop, anticlockwise, in degrees, for angles that differ by less than a turn. -/
def sweep (start stop : K) : K := if start ≤ stop then stop - start else stop - start + 360

/-- A grid line in the scene: vertical at `x`, or horizontal at `y`, across the area. -/
def gridLine (view : Vec K → Vec K) (area : Box K) (vertical : Bool) (x : K) : Figure K :=
  if vertical then .line (view ⟨x, area.yInf⟩) (view ⟨x, area.ySup⟩) else .line (view ⟨area.xInf, x⟩) (view ⟨area.xSup, x⟩)

/-- The figures are the lines at all the multiples of `step` between `lo` and `hi`, in increasing order, each once. -/
def GridLines (line : K → Figure K) (lo hi : K) (step : Int) (l : List (Figure K)) : Prop :=
  ∃ ks : List Int, ks.Pairwise (· < ·) ∧ (∀ k : Int, k ∈ ks ↔ lo ≤ (k * step : K) ∧ (k * step : K) ≤ hi) ∧ l = ks.map fun k => line (k * step)

/-- The items of a scene that can be picked at `p` with the radius `r`, and their distances. -/
def Near {S G : Type} (sh : Scene.Shapes K S G) (s : Scene.Scene K S G) (p : Vec K) (r : K) (id : Nat) (d : K) : Prop :=
  ∃ b i, (id, b) ∈ s.rtree ∧ b.Meets (Scene.square p r) ∧ s.items.get? id = some i ∧ (s.itemDistance sh i p).1 = .ok (some d) ∧ d ≤ r

end Patro.Qt
