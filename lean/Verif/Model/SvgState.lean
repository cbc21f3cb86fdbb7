import Verif.Model.Xml
import Verif.Model.Text
/-!
# Model of `Patro/FileFormat/Svg/SvgFile.py`: drawing states and the dispatcher

An object is the dictionary of its attributes. `float` of Python is a parameter, `none` when it raises `ValueError`, as is the conversion
`int(x)` of a number; transformations have a product.
-/

namespace Patro.SvgState

open Patro.Xml (Text)

/-- The values of the attributes. -/
inductive Val (F T : Type _) where
  | none
  | num (x : F)
  | str (t : Text)
  | transform (t : T)
  /-- Another object: a list of numbers, a length. -/
  | other (n : Nat)
deriving DecidableEq

/-- The attributes of an object. -/
abbrev Obj (F T : Type _) := Dict String (Val F T)

/-- What the code needs of Python and of the transformations. -/
structure Env (F T : Type _) where
  float : Text → Option F
  int : F → Except PyErr F
  mul : T → T → T
  one : T
  ofNat : Nat → F

variable {F T : Type _} (env : Env F T)

/-- `RenderState.to_python(value)` (SvgFile.py:60-78). -/
def toPython (value : Val F T) : Except PyErr (Val F T) :=
  match value with
  | .str t =>
    if t = "none".toList then .ok .none
    else match env.float t with
      | none => .ok value
      | some x =>
        if '.' ∈ t then .ok (.num x)
        else match env.int x with
          | .ok n => .ok (.num n)
          | .error .valueError => .ok value
          | .error e => .error e
  | value => .ok value

/-- The attributes of `PresentationAttributes` with their default values (SvgFormat.py:146-205), in the order of `STATES`
(SvgFile.py:55-56). -/
def states : List (String × Val F T) :=
  [("alignment_baseline", .none), ("baseline_shift", .none), ("clip", .none), ("clip_path", .none), ("clip_rule", .none), ("color", .none),
   ("color_interpolation", .none), ("color_interpolation_filters", .none), ("color_profile", .none), ("color_rendering", .none),
   ("cursor", .none), ("direction", .none), ("display", .none), ("dominant_baseline", .none), ("enable_background", .none),
   ("fill", .none), ("fill_opacity", .num (env.ofNat 1)), ("fill_rule", .str "nonzero".toList), ("flood_color", .none),
   ("flood_opacity", .none), ("font_family", .none), ("font_size", .none), ("font_size_adjust", .none), ("font_stretch", .none),
   ("font_style", .none), ("font_variant", .none), ("font_weight", .none), ("glyph_orientation_horizontal", .none),
   ("glyph_orientation_vertical", .none), ("image_rendering", .none), ("kerning", .none), ("letter_spacing", .none),
   ("lighting_color", .none), ("marker_end", .none), ("marker_mid", .none), ("marker_start", .none), ("mask", .none),
   ("opacity", .num (env.ofNat 1)), ("overflow", .none), ("paint_order", .none), ("pointer_events", .none), ("shape_rendering", .none),
   ("stop_color", .none), ("stop_opacity", .none), ("stroke", .none), ("stroke_dasharray", .none), ("stroke_dashoffset", .none),
   ("stroke_linecap", .str "butt".toList), ("stroke_linejoin", .str "miter".toList), ("stroke_miterlimit", .num (env.ofNat 4)),
   ("stroke_opacity", .num (env.ofNat 1)), ("stroke_width", .num (env.ofNat 1)), ("style", .none), ("text_anchor", .none),
   ("text_decoration", .none), ("text_rendering", .none), ("transform", .transform env.one), ("unicode_bidi", .none),
   ("vector_effect", .none), ("visibility", .none), ("word_spacing", .none), ("writing_mode", .none)]

/-- One turn of the loop of the constructor (SvgFile.py:85-90). -/
def initStep (item : Option (Obj F T)) (o : Obj F T) (s : String × Val F T) : Except PyErr (Obj F T) :=
  match item.bind fun item => item.get? s.1 with
  | some v => do
    let v ← toPython env v
    return o.set s.1 v
  | none => .ok (o.set s.1 s.2)

/-- `RenderState(item)` (SvgFile.py:82-90). -/
def newState (item : Option (Obj F T)) : Except PyErr (Obj F T) := (states env).foldlM (initStep env item) []

/-- `clone()` (SvgFile.py:94-95). -/
def clone (state : Obj F T) : Except PyErr (Obj F T) := newState env (some state)

/-- `self.transform * value` (Transformation.py:180-202, 411-421) for a transformation or a string; other values are not met. -/
def mulTransform (state : Obj F T) (value : Val F T) : Except PyErr (Obj F T) :=
  match state.get? "transform", value with
  | some (.transform t), .transform u => .ok (state.set "transform" (.transform (env.mul t u)))
  | _, _ => .error .valueError

/-- One turn of the first loop of `merge` (SvgFile.py:115-126). -/
def mergeStep (item : Obj F T) (state : Obj F T) (name : String) : Except PyErr (Obj F T) :=
  match item.get? name with
  | none => .ok state
  | some v =>
    if name = "transform" then
      match v with
      | .none => .ok state
      | v => mulTransform env state v
    else if name = "style" then .ok state
    else do
      let v ← toPython env v
      return state.set name v

/-- One turn of the loop over the style (SvgFile.py:131-137). `strip` removes the spaces at both ends. -/
def styleStep (state : Obj F T) (pair : Text) : Except PyErr (Obj F T) :=
  match (Xml.split ':' pair).map Xml.strip with
  | [name, value] =>
    let name := String.ofList (name.map fun c => if c = '-' then '_' else c)
    if name = "transform" then mulTransform env state (.str value)
    else do
      let v ← toPython env (.str value)
      return state.set name v
  | _ => .error .valueError

/-- `merge(item)` (SvgFile.py:113-139). -/
def merge (state item : Obj F T) : Except PyErr (Obj F T) := do
  let state ← ((states env).map Prod.fst).foldlM (mergeStep env item) state
  match item.get? "style" with
  | some (.str style) => (Xml.split ';' style).foldlM (styleStep env) state
  | _ => return state

/-- One turn of the loops of `to_dict` (SvgFile.py:101-108). -/
def dictStep (all : Bool) (state d : Obj F T) (name : String) : Except PyErr (Obj F T) :=
  match state.get? name with
  | none => .error .attributeError
  | some .none => if all then .ok (d.set name .none) else .ok d
  | some v => .ok (d.set name v)

/-- `to_dict(all)` (SvgFile.py:99-109). -/
def toDict (all : Bool) (state : Obj F T) : Except PyErr (Obj F T) := ((states env).map Prod.fst).foldlM (dictStep all state) []

/-! ## The classes of the tags -/

/-- The names in `__all__` and the tags of the classes (SvgFormat.py:31-65, 558-1251). -/
def allTags : List (String × String) :=
  [("Svg", "svg"), ("Anchor", "a"), ("AltGlyph", "altGlyph"), ("AltGlyphDef", "altGlyphDef"), ("AltGlyphItem", "altGlyphItem"),
   ("Animate", "animate"), ("AnimateMotion", "animateMotion"), ("AnimateTransform", "animateTransform"), ("Circle", "circle"),
   ("ClipPath", "clipPath"), ("ColorProfile", "color-profile"), ("Cursor", "cursor"), ("Defs", "defs"), ("Desc", "desc"),
   ("Ellipse", "ellipse"), ("FeBlend", "feBlend"), ("Group", "g"), ("Image", "image"), ("Line", "line"),
   ("LinearGradient", "linearGradient"), ("Marker", "marker"), ("Mask", "mask"), ("Path", "path"), ("Pattern", "pattern"),
   ("Polyline", "polyline"), ("Polygon", "polyline"), ("RadialGradient", "radialGradient"), ("Rect", "rect"), ("Stop", "stop"),
   ("Text", "text"), ("TextRef", "tref"), ("TextSpan", "textspan"), ("Use", "use")]

/-- `__TAGS__` (SvgFile.py:180-183). -/
def tags : Dict String String := allTags.foldl (init := []) fun d c => d.set c.2 c.1

/-- `__TAGS_TO_READ__` (SvgFile.py:185-219). -/
def tagsToRead : List String := ["circle", "ellipse", "line", "path", "polyline", "polygon", "rect"]

/-- `self.__TAGS__[tag]` in `from_xml` (SvgFile.py:252-255). -/
def classOf (tag : String) : Except PyErr String := tags.getItem tag

/-- The attributes of `PathMixin`, with `ColorMixin` and `StrokeMixin` (SvgFormat.py:300-336). -/
def pathMixin : List String :=
  ["fill", "stroke", "stroke_line_cap", "stroke_line_join", "stroke_miter_limit", "stroke_width", "stroke_dasharray"]

/-- The attributes of `SvgElementMixin`, with `IdMixin`, `StyleMixin` and `TransformMixin` (SvgFormat.py:113-120, 361-367, 512-516, 545-546). -/
def elementMixin : List String := ["id", "style", "transform"]

/-- The names of the attributes of the classes which are read (SvgFormat.py:340-344, 373-420, 673-681, 741-750, 766-776, 795-805,
1076-1086, 1112-1128, 1151-1155). The way they are collected is the subject of `Verif.Model.Xml`. -/
def classAttrs : String → List String
  | "Circle" => ["cx", "cy"] ++ pathMixin ++ elementMixin ++ ["r"]
  | "Ellipse" => ["cx", "cy"] ++ pathMixin ++ ["style", "rx", "ry"]
  | "Group" => ["font_size", "font_family"] ++ pathMixin ++ elementMixin ++ ["clip_path", "data_name"]
  | "Line" => pathMixin ++ elementMixin ++ ["x1", "y1", "x2", "y2"]
  | "Path" => pathMixin ++ elementMixin ++ ["path_data", "path_length"]
  | "Polyline" => ["points"] ++ pathMixin ++ elementMixin
  | "Polygon" => ["points"] ++ pathMixin ++ elementMixin
  | "Rect" => ["x", "y", "rx", "ry", "height", "width"] ++ pathMixin ++ elementMixin
  | _ => []

/-- `tag_class(element)` in `from_xml` (SvgFile.py:252-260, Objectivity.py:271-280): every attribute of the class is set, to its default
value `None` when the element does not have it. Values are given as read, under the names of Python. -/
def object (cls : String) (given : Obj F T) : Obj F T :=
  (classAttrs cls).foldl (init := []) fun o name => o.set name ((given.get? name).getD .none)

/-- The children of an element, in order: groups with their children, elements with a tag which is read, other elements, and comments,
which the parser of lxml keeps. -/
inductive Forest (F T : Type _) where
  | nil
  | group (given : Obj F T) (children rest : Forest F T)
  | item (tag : String) (given : Obj F T) (rest : Forest F T)
  | other (rest : Forest F T)
  | comment (rest : Forest F T)

/-- `push(kwargs)` (SvgFile.py:164-167): the last state of the stack is the first of the list. -/
def push (stack : List (Obj F T)) (item : Obj F T) : Except PyErr (List (Obj F T)) :=
  match stack with
  | [] => .error .indexError
  | state :: _ => do
    let s ← clone env state
    let s ← merge env s item
    return s :: stack

/-- `on_graphic_item` (SvgFile.py:288-292, 372-376): the state computed for an item. The name of the item is logged, hence the attribute
`id` is needed. -/
def itemState (state : Obj F T) (tag : String) (given : Obj F T) : Except PyErr (Obj F T) := do
  let cls ← classOf tag
  let item := object cls given
  match item.get? "id" with
  | none => .error .attributeError
  | some _ => do
    let s ← clone env state
    merge env s item

/-- The same for the last state of the stack (SvgFile.py:158-160). -/
def onItem (stack : List (Obj F T)) (tag : String) (given : Obj F T) : Except PyErr (Obj F T) :=
  match stack with
  | [] => .error .indexError
  | state :: _ => itemState env state tag given

/-- `on_root(root)` with `on_group` and `on_graphic_item` (SvgFile.py:264-292): the states of the items, in order, and the stack
afterwards. The tag of a comment is not a text (SvgFile.py:244-248). -/
def onRoot : Forest F T → List (Obj F T) → Except PyErr (List (Obj F T) × List (Obj F T))
  | .nil, stack => .ok ([], stack)
  | .group given children rest, stack => do
    let stack ← push env stack (object "Group" given)
    let (xs, stack) ← onRoot children stack
    let (ys, stack) ← onRoot rest stack
    return (xs ++ ys, stack)
  | .item tag given rest, stack => do
    let x ← onItem env stack tag given
    let (ys, stack) ← onRoot rest stack
    return (x :: ys, stack)
  | .other rest, stack => onRoot rest stack
  | .comment _, _ => .error .typeError

/-- Reading a document: the stack holds a default state (SvgFile.py:152-154). -/
def read (doc : Forest F T) : Except PyErr (List (Obj F T)) := do
  let s ← newState env none
  let (xs, _) ← onRoot env doc [s]
  return xs

/-- The children of the root of the document made by the writer (SvgFile.py:398-434): a comment, then the elements, in a group when there
is a transformation. -/
def written (transformation : Option T) (elements : Forest F T) : Forest F T :=
  match transformation with
  | some t => .comment (.group [("transform", .transform t)] elements .nil)
  | none => .comment elements

end Patro.SvgState
