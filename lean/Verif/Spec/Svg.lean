import Verif.Model.Svg
import Verif.Spec.Highlight
import Verif.Spec.TreeLayout

/-
What one sees of a picture: a reader of SVG text (on top of the reader of tags in `Spec/Highlight.lean`) that lists
the boxes, lines and texts drawn.
-/
namespace Oaks.Viz.Spec
open Oaks Oaks.Spec Oaks.Viz

/-- Where one is inside a tag. -/
inductive TagState where
  | name (sofar : Str)
  | between
  | key (sofar : Str)
  | eq (key : Str)
  | value (key sofar : Str)

/-- The name (under the empty key) and the attributes of a tag. -/
def readTag : TagState → Str → List (Str × Str)
  | .name a, [] => [([], a)]
  | .name a, c :: r => if c = ' ' then ([], a) :: readTag .between r else readTag (.name (a ++ [c])) r
  | .between, c :: r => if c = ' ' ∨ c = '/' then readTag .between r else readTag (.key [c]) r
  | .key k, c :: r => if c = '=' then readTag (.eq k) r else readTag (.key (k ++ [c])) r
  | .eq k, c :: r => if c = '"' then readTag (.value k []) r else readTag (.eq k) r
  | .value k a, c :: r => if c = '"' then (k, a) :: readTag .between r else readTag (.value k (a ++ [c])) r
  | _, [] => []

/-- The first value of an attribute. -/
def attrOf (k : String) : List (Str × Str) → Option Str
  | [] => none
  | (k', v) :: r => if k' = k.toList then some v else attrOf k r

/-- What is drawn; numbers and colours as they are written. -/
inductive Shape where
  | canvas (width height : Str)
  | move (transform : Str)
  | box (x y width height fill stroke strokeWidth : Str)
  | line (d stroke strokeWidth : Str)
  | text (x y color size label : Str)
  | bad
deriving DecidableEq

/-- What a tag other than `text` draws. A `rect` without a place is the background. -/
def shapeOf (as : List (Str × Str)) : List Shape :=
  match attrOf "" as with
  | none => [.bad]
  | some n =>
    if n = "svg".toList then [.canvas ((attrOf "width" as).getD []) ((attrOf "height" as).getD [])]
    else if n = "g".toList then [.move ((attrOf "transform" as).getD [])]
    else if n = "path".toList then
      [.line ((attrOf "d" as).getD []) ((attrOf "stroke" as).getD []) ((attrOf "stroke-width" as).getD [])]
    else if n = "rect".toList then
      match attrOf "x" as with
      | none => []
      | some x => [.box x ((attrOf "y" as).getD []) ((attrOf "width" as).getD []) ((attrOf "height" as).getD [])
          ((attrOf "fill" as).getD []) ((attrOf "stroke" as).getD []) ((attrOf "stroke-width" as).getD [])]
    else []

/-- The shapes of a sequence of tags and characters; inside a `text` element the attributes and the label so far are kept. -/
def see : Option (List (Str × Str) × Str) → List HTok → List Shape
  | none, [] => []
  | some _, [] => [.bad]
  | _, .bad :: r => .bad :: see none r
  | none, .ch _ :: r => see none r
  | some (as, a), .ch c :: r => see (some (as, a ++ [c])) r
  | some (as, a), .tag t :: r =>
    if t = "/text".toList then
      .text ((attrOf "x" as).getD []) ((attrOf "y" as).getD []) ((attrOf "fill" as).getD []) ((attrOf "font-size" as).getD []) a :: see none r
    else .bad :: see none r
  | none, .tag t :: r =>
    let as := readTag (.name []) t
    if attrOf "" as = some "text".toList then see (some (as, [])) r else shapeOf as ++ see none r

/-- What one sees of an SVG text. -/
def picture (svg : Str) : List Shape := see none (readHtml .text svg)

/-- Text without markup. -/
def PlainText (s : Str) : Prop := '<' ∉ s ∧ '>' ∉ s ∧ '&' ∉ s

/-- The value of an attribute without quotes. -/
def PlainValue (s : Str) : Prop := '"' ∉ s

/-- The name of an attribute. -/
def PlainKey (k : Str) : Prop := k ≠ [] ∧ ∀ c ∈ k, c ≠ ' ' ∧ c ≠ '/' ∧ c ≠ '=' ∧ c ≠ '"' ∧ c ≠ '>'

/-- The colours, classes and attributes of a style are plain. -/
def PlainStyle (s : ElStyle) : Prop :=
  (∀ c, s.fill = some c → PlainValue c) ∧ (∀ c, s.stroke = some c → PlainValue c) ∧ (∀ c, s.textColor = some c → PlainValue c) ∧
  (∀ c, s.className = some c → PlainValue c) ∧ ∀ kv ∈ s.attributes, PlainKey kv.1 ∧ PlainValue kv.2

/-- The colours and the font of the configuration are plain. -/
def PlainCfg (c : SvgCfg) : Prop :=
  PlainValue c.background ∧ PlainValue c.nodeFill ∧ PlainValue c.nodeStroke ∧ PlainValue c.edgeColor ∧ PlainValue c.textColor ∧
  PlainValue c.fontFamily

/-- The style given, or the default. -/
def pick {A B : Type} (s : Option A) (f : A → Option B) (d : B) : B :=
  match s with
  | none => d
  | some a => match f a with
    | none => d
    | some b => b

/-- What should be seen of a node: its box, and its label in the middle. -/
def nodeShapes (num : ℚ → Str) (cfg : SvgCfg) (style : Option ElStyle) (n : LNode) : List Shape :=
  .box (num n.rect.origin.x) (num n.rect.origin.y) (num n.rect.size.width) (num n.rect.size.height)
    (pick style (·.fill) cfg.nodeFill) (pick style (·.stroke) cfg.nodeStroke) (num (pick style (·.strokeWidth) cfg.nodeStrokeWidth)) ::
  (if cfg.showLabels then
    [.text (num (n.rect.origin.x + n.rect.size.width / 2)) (num (n.rect.origin.y + n.rect.size.height / 2))
      (pick style (·.textColor) cfg.textColor) (num (pick style (·.textSize) cfg.textSize)) n.label]
  else [])

/-- The path through points: move to the first, then a line to each of the others. -/
def pathText (num : ℚ → Str) : List Pt → Str
  | [] => []
  | p :: ps => "M ".toList ++ num p.x ++ " ".toList ++ num p.y ++ (ps.map fun q => " L ".toList ++ num q.x ++ " ".toList ++ num q.y).flatten

/-- What should be seen of an edge with a route `p :: ps`: the line, and its label above its middle. -/
def edgeShapes (num : ℚ → Str) (cfg : SvgCfg) (style : Option ElStyle) (e : LEdge) : List Shape :=
  match e.points with
  | [] => []
  | p :: ps =>
    match ps.getLast? with
    | none => []
    | some last =>
      .line (pathText num (p :: ps)) (pick style (·.stroke) cfg.edgeColor) (num (pick style (·.strokeWidth) cfg.edgeWidth)) ::
      (match e.label with
      | none => []
      | some l => [.text (num ((p.x + last.x) / 2)) (num ((p.y + last.y) / 2 - 5)) (pick style (·.textColor) cfg.textColor)
          (num (pick style (·.textSize) (cfg.textSize * (4 / 5)))) l])

end Oaks.Viz.Spec
