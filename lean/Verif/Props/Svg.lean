import Verif.Proofs.Svg
import Verif.Props.TreeLayout

/-! # C67: SVG pictures -/

namespace Oaks.Viz.Props
open Oaks Oaks.Spec Oaks.Viz Oaks.Viz.Spec

instance (s : Str) : Decidable (PlainText s) := by unfold PlainText; infer_instance
instance (s : Str) : Decidable (PlainValue s) := by unfold PlainValue; infer_instance
instance (s : Str) : Decidable (PlainKey s) := by unfold PlainKey; infer_instance
instance (s : Str) : Decidable (OkName s) := by unfold OkName; infer_instance

theorem pick_eq {B : Type} (s : Option ElStyle) (f : ElStyle → Option B) (d : B) : (s.bind f).getD d = pick s f d := by
  cases s with
  | none => rfl
  | some a => simp only [pick, Option.bind_some]; cases f a <;> rfl

theorem pick_plain (s : Option ElStyle) (f : ElStyle → Option Str) (d : Str) (hd : PlainValue d)
    (hs : ∀ a, s = some a → ∀ c, f a = some c → PlainValue c) : PlainValue (pick s f d) := by
  cases s with
  | none => exact hd
  | some a =>
    simp only [pick]
    cases h : f a with
    | none => exact hd
    | some b => exact hs a rfl b h

theorem plain_append {a b : Str} (ha : PlainValue a) (hb : PlainValue b) : PlainValue (a ++ b) := by
  unfold PlainValue at *; simp [ha, hb]

theorem styleAttrs_ok (num : ℚ → Str) (hnum : ∀ q, PlainValue (num q)) (base : Str) (hb : PlainValue base) (s : Option ElStyle)
    (hs : ∀ a, s = some a → PlainStyle a) : OkAttrs (styleAttrs num base s) := by
  cases s with
  | none => exact okAttrs_nil
  | some a =>
    obtain ⟨_, _, _, h4, h5⟩ := hs a rfl
    unfold styleAttrs
    refine okAttrs_append ?_ (okAttrs_append ?_ h5)
    · cases a.opacity with
      | none => exact okAttrs_nil
      | some o => exact okAttrs_cons (by decide +kernel) (hnum o) okAttrs_nil
    · cases hc : a.className with
      | none => exact okAttrs_nil
      | some c => exact okAttrs_cons (by decide +kernel) (plain_append hb (plain_append (by decide +kernel) (h4 c hc))) okAttrs_nil

theorem picture_textElem (num : ℚ → Str) (hnum : ∀ q, PlainValue (num q)) (x y : ℚ) (color : Str) (size : ℚ) (font label r : Str)
    (hc : PlainValue color) (hf : PlainValue font) (hl : PlainText label) :
    picture (textElem num x y color size font label ++ r) = .text (num x) (num y) color (num size) label :: picture r := by
  unfold textElem
  simp only [List.append_assoc]
  rw [picture_plain (lit "    ") _ (by decide +kernel), picture_text _ _ _ _ hl, picture_plain (lit "\n") _ (by decide +kernel)]
  · congr 1
  · exact okAttrs_cons (by decide +kernel) (hnum _) (okAttrs_cons (by decide +kernel) (hnum _) (okAttrs_cons (by decide +kernel) (by decide +kernel)
      (okAttrs_cons (by decide +kernel) (by decide +kernel) (okAttrs_cons (by decide +kernel) hc (okAttrs_cons (by decide +kernel) (hnum _)
        (okAttrs_cons (by decide +kernel) hf (okAttrs_cons (by decide +kernel) (by decide +kernel) okAttrs_nil)))))))

theorem picture_node (num : ℚ → Str) (hnum : ∀ q, PlainValue (num q)) (cfg : SvgCfg) (hcfg : PlainCfg cfg) (styles : FMap Str ElStyle)
    (hs : ∀ k a, styles k = some a → PlainStyle a) (id : Str) (n : LNode) (hl : PlainText n.label) (r : Str) :
    picture (renderNode num cfg styles id n ++ r) = nodeShapes num cfg (styles id) n ++ picture r := by
  obtain ⟨c1, c2, c3, c4, c5, c6⟩ := hcfg
  unfold renderNode
  simp only [List.append_assoc, pick_eq]
  rw [picture_plain (lit "    ") _ (by decide +kernel), picture_empty _ _ _ (by decide +kernel) _ (by decide +kernel) (by simp),
    picture_plain (lit "\n") _ (by decide +kernel)]
  · unfold nodeShapes
    have h : ∀ t, shapeOf (([], lit "rect") :: (([(lit "x", num n.rect.origin.x), (lit "y", num n.rect.origin.y),
        (lit "width", num n.rect.size.width), (lit "height", num n.rect.size.height), (lit "fill", pick (styles id) (·.fill) cfg.nodeFill),
        (lit "stroke", pick (styles id) (·.stroke) cfg.nodeStroke), (lit "stroke-width", num (pick (styles id) (·.strokeWidth) cfg.nodeStrokeWidth)),
        (lit "class", lit "node")] : List (Str × Str)) ++ t)) =
        [.box (num n.rect.origin.x) (num n.rect.origin.y) (num n.rect.size.width) (num n.rect.size.height)
          (pick (styles id) (·.fill) cfg.nodeFill) (pick (styles id) (·.stroke) cfg.nodeStroke)
          (num (pick (styles id) (·.strokeWidth) cfg.nodeStrokeWidth))] := fun t => rfl
    rw [h]
    cases cfg.showLabels
    · rfl
    · simp only [if_true]
      rw [picture_textElem num hnum _ _ _ _ _ _ _ (pick_plain _ _ _ c5 (fun a ha => (hs _ a ha).2.2.1)) c6 hl]
      rfl
  · refine okAttrs_append ?_ (styleAttrs_ok num hnum _ (by decide +kernel) _ (hs id))
    exact okAttrs_cons (by decide +kernel) (hnum _) (okAttrs_cons (by decide +kernel) (hnum _) (okAttrs_cons (by decide +kernel) (hnum _)
      (okAttrs_cons (by decide +kernel) (hnum _) (okAttrs_cons (by decide +kernel) (pick_plain _ _ _ c2 (fun a ha => (hs _ a ha).1))
      (okAttrs_cons (by decide +kernel) (pick_plain _ _ _ c3 (fun a ha => (hs _ a ha).2.1)) (okAttrs_cons (by decide +kernel) (hnum _)
      (okAttrs_cons (by decide +kernel) (by decide +kernel) okAttrs_nil)))))))

theorem pathData_eq (num : ℚ → Str) (ps : List Pt) : pathData num ps = pathText num ps := by
  cases ps with
  | nil => rfl
  | cons p ps => simp only [pathData, pathText, lit, List.flatMap_def]

theorem pathText_plain (num : ℚ → Str) (hnum : ∀ q, PlainValue (num q)) (ps : List Pt) : PlainValue (pathText num ps) := by
  cases ps with
  | nil => rw [pathText]; decide +kernel
  | cons p ps =>
    rw [pathText]
    refine plain_append (plain_append (plain_append (plain_append (by decide +kernel) (hnum _)) (by decide +kernel)) (hnum _)) ?_
    unfold PlainValue
    rw [List.mem_flatten]
    rintro ⟨l, hl, hq⟩
    obtain ⟨q, _, rfl⟩ := List.mem_map.1 hl
    exact plain_append (plain_append (plain_append (by decide +kernel) (hnum _)) (by decide +kernel)) (hnum _) hq

theorem picture_edge (num : ℚ → Str) (hnum : ∀ q, PlainValue (num q)) (cfg : SvgCfg) (hcfg : PlainCfg cfg) (styles : FMap Str ElStyle)
    (hs : ∀ k a, styles k = some a → PlainStyle a) (e : LEdge) (hl : ∀ l, e.label = some l → PlainText l) (r : Str) :
    picture (renderEdge num cfg styles e ++ r) = edgeShapes num cfg (styles (e.src ++ lit "_" ++ e.dst)) e ++ picture r := by
  obtain ⟨c1, c2, c3, c4, c5, c6⟩ := hcfg
  unfold renderEdge edgeShapes
  cases hp : e.points with
  | nil => rfl
  | cons p ps =>
    cases ps with
    | nil => rfl
    | cons q ps =>
      have hst := hs (e.src ++ lit "_" ++ e.dst)
      generalize styles (e.src ++ lit "_" ++ e.dst) = style at hst
      have hlast : (q :: ps).getLast? = some ((q :: ps).getLast (by simp)) := List.getLast?_eq_some_getLast (by simp)
      simp only [hlast, List.append_assoc, pick_eq, pathData_eq]
      rw [picture_plain (lit "    ") _ (by decide +kernel), picture_empty _ _ _ (by decide +kernel) _ (by decide +kernel) (by simp),
        picture_plain (lit "\n") _ (by decide +kernel)]
      · have h : ∀ d s w t, shapeOf (([], lit "path") :: (([(lit "d", d), (lit "stroke", s),
            (lit "stroke-width", w), (lit "fill", lit "none"), (lit "class", lit "edge")] : List (Str × Str)) ++ t)) =
            [.line d s w] := fun _ _ _ _ => rfl
        rw [h]
        cases hel : e.label with
        | none => rfl
        | some l =>
          simp only []
          rw [picture_textElem num hnum _ _ _ _ _ _ _ (pick_plain _ _ _ c5 (fun a ha => (hst a ha).2.2.1)) c6 (hl l hel)]
          rfl
      · refine okAttrs_append ?_ (okAttrs_append ?_ (styleAttrs_ok num hnum _ (by decide +kernel) _ hst))
        · exact okAttrs_cons (by decide +kernel) (pathText_plain num hnum _) (okAttrs_cons (by decide +kernel)
            (pick_plain _ _ _ c4 (fun a ha => (hst a ha).2.1)) (okAttrs_cons (by decide +kernel) (hnum _)
            (okAttrs_cons (by decide +kernel) (by decide +kernel) (okAttrs_cons (by decide +kernel) (by decide +kernel) okAttrs_nil))))
        · cases cfg.showArrows
          · exact okAttrs_nil
          · exact okAttrs_cons (by decide +kernel) (by decide +kernel) okAttrs_nil

theorem picture_nodes (num : ℚ → Str) (hnum : ∀ q, PlainValue (num q)) (cfg : SvgCfg) (hcfg : PlainCfg cfg) (styles : FMap Str ElStyle)
    (hs : ∀ k a, styles k = some a → PlainStyle a) (r : Str) : ∀ (m : Entries LNode), (∀ e ∈ m, PlainText e.2.label) →
    picture (m.flatMap (fun e => renderNode num cfg styles e.1 e.2) ++ r) =
      m.flatMap (fun e => nodeShapes num cfg (styles e.1) e.2) ++ picture r
  | [], _ => rfl
  | e :: m, h => by
    rw [List.flatMap_cons, List.append_assoc, picture_node num hnum cfg hcfg styles hs _ _ (h e List.mem_cons_self),
      picture_nodes num hnum cfg hcfg styles hs r m (fun f hf => h f (List.mem_cons_of_mem _ hf)), List.flatMap_cons, List.append_assoc]

theorem picture_edges (num : ℚ → Str) (hnum : ∀ q, PlainValue (num q)) (cfg : SvgCfg) (hcfg : PlainCfg cfg) (styles : FMap Str ElStyle)
    (hs : ∀ k a, styles k = some a → PlainStyle a) (r : Str) : ∀ (m : List LEdge), (∀ e ∈ m, ∀ l, e.label = some l → PlainText l) →
    picture (m.flatMap (renderEdge num cfg styles) ++ r) =
      m.flatMap (fun e => edgeShapes num cfg (styles (e.src ++ lit "_" ++ e.dst)) e) ++ picture r
  | [], _ => rfl
  | e :: m, h => by
    rw [List.flatMap_cons, List.append_assoc, picture_edge num hnum cfg hcfg styles hs _ (h e List.mem_cons_self),
      picture_edges num hnum cfg hcfg styles hs r m (fun f hf => h f (List.mem_cons_of_mem _ hf)), List.flatMap_cons]
    exact (List.append_assoc _ _ _).symm

theorem picture_marker (num : ℚ → Str) (hnum : ∀ q, PlainValue (num q)) (cfg : SvgCfg) (hcfg : PlainCfg cfg) (r : Str) :
    picture (markerText num cfg ++ r) = picture r := by
  obtain ⟨c1, c2, c3, c4, c5, c6⟩ := hcfg
  unfold markerText
  simp only [List.append_assoc]
  rw [picture_plain (lit "    ") _ (by decide +kernel), picture_open _ _ _ (by decide +kernel) _ (by decide +kernel),
    picture_plain (lit "\n      ") _ (by decide +kernel), picture_empty _ _ _ (by decide +kernel) _ (by decide +kernel) (by simp),
    picture_plain (lit "\n    ") _ (by decide +kernel), picture_open _ _ _ (by decide +kernel) okAttrs_nil (by decide +kernel),
    picture_plain (lit "\n") _ (by decide +kernel)]
  · rfl
  · exact okAttrs_cons (by decide +kernel) (plain_append (by decide +kernel) (plain_append (hnum _) (plain_append (by decide +kernel)
      (plain_append (hnum _) (plain_append (by decide +kernel) (plain_append (hnum _) (by decide +kernel))))))) (okAttrs_cons (by decide +kernel) c4 okAttrs_nil)
  · exact okAttrs_cons (by decide +kernel) (by decide +kernel) (okAttrs_cons (by decide +kernel) (hnum _) (okAttrs_cons (by decide +kernel) (hnum _)
      (okAttrs_cons (by decide +kernel) (hnum _) (okAttrs_cons (by decide +kernel) (hnum _) (okAttrs_cons (by decide +kernel) (by decide +kernel) okAttrs_nil)))))

/-- The picture shows a canvas, then every edge that has a route, then every node, each once, in its place, with its
colours and label, and nothing else; the canvas fits: moved as the picture says, every node keeps the padding.
Missing: labels with markup, colours, classes and attributes with quotes (`C67_label_witness`), edges
without a route (`C67_edges_witness`). -/
theorem C67_picture_partial (num : ℚ → Str) (hnum : ∀ q, PlainValue (num q)) (cfg : SvgCfg) (hcfg : PlainCfg cfg)
    (ns es : FMap Str ElStyle) (hns : ∀ k a, ns k = some a → PlainStyle a) (hes : ∀ k a, es k = some a → PlainStyle a)
    (l : Lay) (hn : ∀ e ∈ l.nodes, PlainText e.2.label) (he : ∀ e ∈ l.edges, ∀ t, e.label = some t → PlainText t) :
    ∃ width height dx dy : ℚ,
      picture (renderLayout num cfg ns es l) = .canvas (num width) (num height) ::
        .move ("translate(".toList ++ num dx ++ ", ".toList ++ num dy ++ ")".toList) ::
        l.edges.flatMap (fun e => edgeShapes num cfg (es (e.src ++ "_".toList ++ e.dst)) e) ++
        l.nodes.flatMap (fun e => nodeShapes num cfg (ns e.1) e.2) ∧
      (l.nodes = [] → width = cfg.canvasWidth + 2 * cfg.padding ∧ height = cfg.canvasHeight + 2 * cfg.padding) ∧
      (∀ e ∈ l.nodes, cfg.padding ≤ e.2.rect.origin.x + dx ∧ e.2.rect.origin.x + e.2.rect.size.width + dx ≤ width - cfg.padding ∧
        cfg.padding ≤ e.2.rect.origin.y + dy ∧ e.2.rect.origin.y + e.2.rect.size.height + dy ≤ height - cfg.padding) := by
  have hc := hcfg
  obtain ⟨c1, c2, c3, c4, c5, c6⟩ := hcfg
  refine ⟨(svgBounds cfg l).size.width + 2 * cfg.padding, (svgBounds cfg l).size.height + 2 * cfg.padding,
    cfg.padding - (svgBounds cfg l).origin.x, cfg.padding - (svgBounds cfg l).origin.y, ?_, ?_, ?_⟩
  · unfold renderLayout
    simp only []
    rw [picture_open _ _ _ (by decide +kernel) _ (by decide +kernel), picture_plain (lit "\n  ") _ (by decide +kernel),
      picture_empty _ _ _ (by decide +kernel) _ (by decide +kernel) (by simp), picture_plain (lit "\n  ") _ (by decide +kernel),
      picture_open _ _ _ (by decide +kernel) okAttrs_nil (by decide +kernel), picture_plain (lit "\n    ") _ (by decide +kernel),
      picture_open _ _ _ (by decide +kernel) okAttrs_nil (by decide +kernel), picture_plain (lit "\n") _ (by decide +kernel),
      picture_plain styleSheet _ (by decide +kernel), picture_plain (lit "    ") _ (by decide +kernel),
      picture_open _ _ _ (by decide +kernel) okAttrs_nil (by decide +kernel), picture_plain (lit "\n") _ (by decide +kernel)]
    · have hm : ∀ r, picture ((if cfg.showArrows = true then markerText num cfg else []) ++ r) = picture r := by
        intro r
        cases cfg.showArrows
        · rfl
        · exact picture_marker num hnum cfg hc r
      rw [hm, picture_plain (lit "  ") _ (by decide +kernel), picture_open _ _ _ (by decide +kernel) okAttrs_nil (by decide +kernel),
        picture_plain (lit "\n  ") _ (by decide +kernel), picture_open _ _ _ (by decide +kernel) _ (by decide +kernel),
        picture_plain (lit "\n") _ (by decide +kernel), picture_edges num hnum cfg hc es hes _ _ he,
        picture_nodes num hnum cfg hc ns hns _ _ hn, picture_plain (lit "  ") _ (by decide +kernel),
        picture_open _ _ _ (by decide +kernel) okAttrs_nil (by decide +kernel), picture_plain (lit "\n") _ (by decide +kernel)]
      · have hend : picture (openTag (lit "/svg") [] ++ lit ">") = [] := by decide +kernel
        rw [hend, show shapeOf [([], lit "/g")] = [] by decide +kernel, List.nil_append, List.append_nil]
        rfl
      · exact okAttrs_cons (by decide +kernel) (plain_append (plain_append (plain_append (plain_append (by decide +kernel) (hnum _))
          (by decide +kernel)) (hnum _)) (by decide +kernel)) okAttrs_nil
    · exact okAttrs_cons (by decide +kernel) (by decide +kernel) (okAttrs_cons (by decide +kernel) (by decide +kernel)
        (okAttrs_cons (by decide +kernel) c1 okAttrs_nil))
    · exact okAttrs_cons (by decide +kernel) (hnum _) (okAttrs_cons (by decide +kernel) (hnum _) (okAttrs_cons (by decide +kernel) (by decide +kernel) okAttrs_nil))
  · intro h
    unfold svgBounds
    rw [h]
    exact ⟨rfl, rfl⟩
  · intro e he
    obtain ⟨⟨a, b, c, d⟩, h1, ⟨⟨x1, _⟩, ⟨x2, _⟩, ⟨x3, _⟩, ⟨x4, _⟩⟩⟩ :=
      bounds_start (l.nodes.map fun e => e.2.rect) (by intro h; rw [List.map_eq_nil_iff] at h; rw [h] at he; simp at he)
    have g1 := x1 _ (List.mem_map_of_mem he)
    have g2 := x2 _ (List.mem_map_of_mem he)
    have g3 := x3 _ (List.mem_map_of_mem he)
    have g4 := x4 _ (List.mem_map_of_mem he)
    unfold svgBounds
    rw [h1]
    simp only [Rct.minX, Rct.maxX, Rct.minY, Rct.maxY] at *
    refine ⟨?_, ?_, ?_, ?_⟩ <;> linarith

theorem noPoints (num : ℚ → Str) (cfg : SvgCfg) (ns es : FMap Str ElStyle) (l : Lay) (h : ∀ e ∈ l.edges, e.points = []) :
    renderLayout num cfg ns es l = renderLayout num cfg ns es { l with edges := [] } := by
  have : l.edges.flatMap (renderEdge num cfg es) = [] := by
    rw [List.flatMap_eq_nil_iff]
    intro e he
    unfold renderEdge
    rw [h e he]
  unfold renderLayout
  rw [this]
  rfl

/-- The pictures of trees never show an edge: whatever the tree, its picture is that of its nodes alone, because the
edges of tree layouts have no route. -/
theorem C67_edges_witness (num : ℚ → Str) (cfg : SvgCfg) (ns es : FMap Str ElStyle) (g : TreeCfg) (t : VTree) :
    renderLayout num cfg ns es (layeredLayout g t) = renderLayout num cfg ns es { layeredLayout g t with edges := [] } ∧
    renderLayout num cfg ns es (compactLayout g t) = renderLayout num cfg ns es { compactLayout g t with edges := [] } := by
  obtain ⟨⟨xs, _, hx⟩, ys, _, hy⟩ := C66_edges g t
  refine ⟨noPoints _ _ _ _ _ ?_, noPoints _ _ _ _ _ ?_⟩
  · intro e he
    rw [hx] at he
    obtain ⟨p, _, rfl⟩ := List.mem_map.1 he
    rfl
  · intro e he
    rw [hy] at he
    obtain ⟨p, _, rfl⟩ := List.mem_map.1 he
    rfl

/-- A way to write numbers, for the examples. -/
def numEx (q : ℚ) : Str := (if q.num < 0 then ['-'] else []) ++ (toString q.num.natAbs).toList ++ (if q.den = 1 then [] else '/' :: (toString q.den).toList)

/-- Labels are not escaped: a node whose label holds markup draws a second box. -/
theorem C67_label_witness :
    let l := Lay.new.addNode (lit "a") (lit "</text><rect x=\"9\"/><text>") (Rct.fromXywh 0 0 10 10) .dflt
    picture (renderNode numEx SvgCfg.std FMap.empty (lit "a") ⟨lit "</text><rect x=\"9\"/><text>", Rct.fromXywh 0 0 10 10, .dflt⟩) =
      [.box (lit "0") (lit "0") (lit "10") (lit "10") (lit "#e1f5fe") (lit "#0277bd") (lit "2"),
       .text (lit "5") (lit "5") (lit "#333333") (lit "12") [],
       .box (lit "9") [] [] [] [] [] [], .text [] [] [] [] []] ∧ l.nodes.length = 1 := by decide +kernel

/-- A class name gives the element two `class` attributes, which XML forbids. -/
theorem C67_class_witness (num : ℚ → Str) (n : LNode) (id c : Str) :
    ∃ rest, ∃ kvs, renderNode num SvgCfg.std (fun _ => some { className := some c }) id n = lit "    " ++ openTag (lit "rect") kvs ++ rest ∧
      (kvs.filter fun kv => kv.1 = lit "class") = [(lit "class", lit "node"), (lit "class", lit "node " ++ c)] := by
  refine ⟨_, _, by unfold renderNode; rw [List.append_assoc], ?_⟩
  simp only [styleAttrs]
  rfl

/-- A layout of two nodes and a routed edge meets the hypotheses. -/
example : picture (renderLayout numEx SvgCfg.std FMap.empty FMap.empty
    (((Lay.new.addNode (lit "a") (lit "A") (Rct.fromXywh 0 0 10 10) .dflt).addNode (lit "b") (lit "B") (Rct.fromXywh 0 30 10 10) .dflt).addEdge
      ⟨lit "a", lit "b", [⟨5, 5⟩, ⟨5, 35⟩], some (lit "e")⟩)) =
    [.canvas (lit "50") (lit "80"), .move (lit "translate(20, 20)"), .line (lit "M 5 5 L 5 35") (lit "#666666") (lit "3/2"),
     .text (lit "5") (lit "15") (lit "#333333") (lit "48/5") (lit "e"),
     .box (lit "0") (lit "0") (lit "10") (lit "10") (lit "#e1f5fe") (lit "#0277bd") (lit "2"),
     .text (lit "5") (lit "5") (lit "#333333") (lit "12") (lit "A"),
     .box (lit "0") (lit "30") (lit "10") (lit "10") (lit "#e1f5fe") (lit "#0277bd") (lit "2"),
     .text (lit "5") (lit "35") (lit "#333333") (lit "12") (lit "B")] := by decide +kernel

end Oaks.Viz.Props
