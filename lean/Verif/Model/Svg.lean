import Verif.Model.TreeLayout
import Verif.Model.Highlight

/-
Model of the SVG renderer of oak-visualize: `projects/oak-visualize/src/render/mod.rs` (cited as render/mod.rs).

Simplifications: `f64` is an exact rational number and `num` is its `Display`; the maps of styles are lookup functions,
the custom attributes of a style a list in the order in which they are iterated; format strings are written
element by element with `openTag`, giving the same text.
-/
namespace Oaks.Viz
open Oaks

/-- `RenderConfig` (render/mod.rs:12-28). -/
structure SvgCfg where
  canvasWidth : ℚ
  canvasHeight : ℚ
  background : Str
  nodeFill : Str
  nodeStroke : Str
  nodeStrokeWidth : ℚ
  edgeColor : Str
  edgeWidth : ℚ
  textColor : Str
  textSize : ℚ
  fontFamily : Str
  padding : ℚ
  showLabels : Bool
  showArrows : Bool
  arrowSize : ℚ

/-- `RenderConfig::default` (render/mod.rs:30-50). -/
def SvgCfg.std : SvgCfg :=
  ⟨800, 600, lit "#ffffff", lit "#e1f5fe", lit "#0277bd", 2, lit "#666666", 3 / 2, lit "#333333", 12,
    lit "Arial, sans-serif", 20, true, true, 8⟩

/-- `ElementStyle` (render/mod.rs:54-63). -/
structure ElStyle where
  fill : Option Str := none
  stroke : Option Str := none
  strokeWidth : Option ℚ := none
  textColor : Option Str := none
  textSize : Option ℚ := none
  opacity : Option ℚ := none
  className : Option Str := none
  attributes : List (Str × Str) := []

/-- ` k="v"`, as the format strings of render/mod.rs:140-270 write an attribute. -/
def attrText (kv : Str × Str) : Str := lit " " ++ (kv.1 ++ (lit "=\"" ++ (kv.2 ++ lit "\"")))

/-- `<name k="v" ...` without its end, as the format strings of render/mod.rs:140-270 write an element. -/
def openTag (name : Str) (kvs : List (Str × Str)) : Str := lit "<" ++ (name ++ kvs.flatMap attrText)

/-- The attributes `opacity`, `class` and the custom ones (render/mod.rs:206-216, 256-266); `base` is the class the element has already. -/
def styleAttrs (num : ℚ → Str) (base : Str) : Option ElStyle → List (Str × Str)
  | none => []
  | some s =>
    (match s.opacity with | some o => [(lit "opacity", num o)] | none => []) ++
    ((match s.className with | some c => [(lit "class", base ++ (lit " " ++ c))] | none => []) ++ s.attributes)

/-- The `<text>` element (render/mod.rs:226-230, 284-294). -/
def textElem (num : ℚ → Str) (x y : ℚ) (color : Str) (size : ℚ) (font label : Str) : Str :=
  lit "    " ++ (openTag (lit "text") [(lit "x", num x), (lit "y", num y), (lit "text-anchor", lit "middle"),
    (lit "dominant-baseline", lit "central"), (lit "fill", color), (lit "font-size", num size), (lit "font-family", font),
    (lit "class", lit "label")] ++ (lit ">" ++ (label ++ (openTag (lit "/text") [] ++ (lit ">" ++ lit "\n")))))

/-- `render_node` (render/mod.rs:193-235). -/
def renderNode (num : ℚ → Str) (cfg : SvgCfg) (styles : FMap Str ElStyle) (id : Str) (n : LNode) : Str :=
  let style := styles id
  let fill := (style.bind (·.fill)).getD cfg.nodeFill
  let stroke := (style.bind (·.stroke)).getD cfg.nodeStroke
  let width := (style.bind (·.strokeWidth)).getD cfg.nodeStrokeWidth
  lit "    " ++ (openTag (lit "rect") ([(lit "x", num n.rect.origin.x), (lit "y", num n.rect.origin.y),
    (lit "width", num n.rect.size.width), (lit "height", num n.rect.size.height), (lit "fill", fill), (lit "stroke", stroke),
    (lit "stroke-width", num width), (lit "class", lit "node")] ++ styleAttrs num (lit "node") style) ++ (lit "/>" ++ (lit "\n" ++
  (if cfg.showLabels then
    textElem num n.rect.center.x n.rect.center.y ((style.bind (·.textColor)).getD cfg.textColor)
      ((style.bind (·.textSize)).getD cfg.textSize) cfg.fontFamily n.label
  else []))))

/-- `path_data` (render/mod.rs:246-251). -/
def pathData (num : ℚ → Str) : List Pt → Str
  | [] => []
  | p :: ps => lit "M " ++ num p.x ++ lit " " ++ num p.y ++ ps.flatMap fun q => lit " L " ++ num q.x ++ lit " " ++ num q.y

/-- `render_edge` (render/mod.rs:237-298). -/
def renderEdge (num : ℚ → Str) (cfg : SvgCfg) (styles : FMap Str ElStyle) (e : LEdge) : Str :=
  let style := styles (e.src ++ lit "_" ++ e.dst)
  let stroke := (style.bind (·.stroke)).getD cfg.edgeColor
  let width := (style.bind (·.strokeWidth)).getD cfg.edgeWidth
  match e.points with
  | [] => []
  | [_] => []
  | p :: q :: ps =>
    lit "    " ++ (openTag (lit "path") ([(lit "d", pathData num (p :: q :: ps)), (lit "stroke", stroke),
      (lit "stroke-width", num width), (lit "fill", lit "none"), (lit "class", lit "edge")] ++
      ((if cfg.showArrows then [(lit "marker-end", lit "url(#arrowhead)")] else []) ++ styleAttrs num (lit "edge") style)) ++
      (lit "/>" ++ (lit "\n" ++
    (match e.label with
    | none => []
    | some label =>
      let last := (q :: ps).getLast (by simp)
      textElem num ((p.x + last.x) / 2) ((p.y + last.y) / 2 - 5) ((style.bind (·.textColor)).getD cfg.textColor)
        ((style.bind (·.textSize)).getD (cfg.textSize * (4 / 5))) cfg.fontFamily label))))

/-- `calculate_bounds` (render/mod.rs:300-320). -/
def svgBounds (cfg : SvgCfg) (l : Lay) : Rct :=
  match boundsLoop none (l.nodes.map fun e => e.2.rect) with
  | none => Rct.fromXywh 0 0 cfg.canvasWidth cfg.canvasHeight
  | some (a, b, c, d) => ⟨⟨a, b⟩, ⟨c - a, d - b⟩⟩

/-- The style sheet (render/mod.rs:151-154). -/
def styleSheet : Str :=
  lit "      .node { cursor: pointer }\n      .node:hover { opacity: 0.8 }\n      .edge { pointer-events: none }\n      .label { pointer-events: none; user-select: none }\n"

/-- The marker of arrows (render/mod.rs:158-173). -/
def markerText (num : ℚ → Str) (cfg : SvgCfg) : Str :=
  lit "    " ++ (openTag (lit "marker") [(lit "id", lit "arrowhead"), (lit "markerWidth", num cfg.arrowSize),
    (lit "markerHeight", num cfg.arrowSize), (lit "refX", num cfg.arrowSize), (lit "refY", num (cfg.arrowSize / 2)),
    (lit "orient", lit "auto")] ++ (lit ">" ++ (lit "\n      " ++
  (openTag (lit "polygon") [(lit "points", lit "0 0, " ++ num cfg.arrowSize ++ lit " " ++ num cfg.arrowSize ++ lit ", " ++
    num cfg.arrowSize ++ lit " 0"), (lit "fill", cfg.edgeColor)] ++ (lit "/>" ++ (lit "\n    " ++
  (openTag (lit "/marker") [] ++ (lit ">" ++ lit "\n"))))))))

/-- `render_layout` (render/mod.rs:134-191). -/
def renderLayout (num : ℚ → Str) (cfg : SvgCfg) (nodeStyles edgeStyles : FMap Str ElStyle) (l : Lay) : Str :=
  let bounds := svgBounds cfg l
  openTag (lit "svg") [(lit "width", num (bounds.size.width + 2 * cfg.padding)),
    (lit "height", num (bounds.size.height + 2 * cfg.padding)), (lit "xmlns", lit "http://www.w3.org/2000/svg")] ++ (lit ">" ++ (lit "\n  " ++
  (openTag (lit "rect") [(lit "width", lit "100%"), (lit "height", lit "100%"), (lit "fill", cfg.background)] ++ (lit "/>" ++ (lit "\n  " ++
  (openTag (lit "defs") [] ++ (lit ">" ++ (lit "\n    " ++ (openTag (lit "style") [] ++ (lit ">" ++ (lit "\n" ++ (styleSheet ++ (lit "    " ++
  (openTag (lit "/style") [] ++ (lit ">" ++ (lit "\n" ++
  ((if cfg.showArrows then markerText num cfg else []) ++
  (lit "  " ++ (openTag (lit "/defs") [] ++ (lit ">" ++ (lit "\n  " ++
  (openTag (lit "g") [(lit "transform", lit "translate(" ++ num (cfg.padding - bounds.origin.x) ++ lit ", " ++
    num (cfg.padding - bounds.origin.y) ++ lit ")")] ++ (lit ">" ++ (lit "\n" ++
  (l.edges.flatMap (renderEdge num cfg edgeStyles) ++
  (l.nodes.flatMap (fun e => renderNode num cfg nodeStyles e.1 e.2) ++
  (lit "  " ++ (openTag (lit "/g") [] ++ (lit ">" ++ (lit "\n" ++ (openTag (lit "/svg") [] ++ lit ">")))))))))))))))))))))))))))))))

end Oaks.Viz
