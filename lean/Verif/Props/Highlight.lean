import Verif.Proofs.Highlight
import Verif.Props.Tree

/-! # C38, C39, C40, C41: escaping, themes and highlighting -/

namespace Oaks.Props
open Oaks Oaks.Spec

/-! ## C38 -/

/-- Any JSON reader that reads the escaped text between quotes gets the text back and stops at the
closing quote; so no quote stands raw in it. No control character does either. -/
theorem C38_json_escape (s rest : Str) :
    ReadsString (jsonEscape s ++ '"' :: rest) s rest ∧
    (∀ t r, ReadsString (jsonEscape s ++ '"' :: rest) t r → t = s ∧ r = rest) ∧
    ∀ c ∈ jsonEscape s, isControl c = false := by
  refine ⟨readsString_escape s rest, ?_, jsonEscape_visible s⟩
  intro t r h
  obtain ⟨h1, h2⟩ := readsString_unique (readsString_escape s rest) h
  exact ⟨h1.symm, h2.symm⟩

/-- The whole JSON export is a JSON text of the segments and the source. -/
theorem C38_json_export (segs : List Segment) (source : Str) :
    JText (resultVal segs source) (exportJson segs source) :=
  exportJson_ok segs source

/-! ## C39 -/

/-- Reading the escaped text as HTML gives the text back, character by character: no tag, no broken
entity. It contains none of the special characters. -/
theorem C39_html_escape (s : Str) :
    readHtml .text (htmlEscape s) = s.map .ch ∧
    ∀ c ∈ htmlEscape s, c ≠ '<' ∧ c ≠ '>' ∧ c ≠ '"' ∧ c ≠ '\'' := by
  refine ⟨by have := readHtml_escape s []; simpa [readHtml] using this, ?_⟩
  intro c hc
  obtain ⟨x, _, hx⟩ := List.mem_flatMap.1 hc
  unfold htmlEscapeChar at hx
  split at hx
  · simp only [List.mem_cons, List.not_mem_nil, or_false] at hx
    rcases hx with rfl | rfl | rfl | rfl <;> decide
  split at hx
  · simp only [List.mem_cons, List.not_mem_nil, or_false] at hx
    rcases hx with rfl | rfl | rfl | rfl <;> decide
  split at hx
  · simp only [List.mem_cons, List.not_mem_nil, or_false] at hx
    rcases hx with rfl | rfl | rfl | rfl | rfl <;> decide
  split at hx
  · simp only [List.mem_cons, List.not_mem_nil, or_false] at hx
    rcases hx with rfl | rfl | rfl | rfl | rfl | rfl <;> decide
  split at hx
  · simp only [List.mem_cons, List.not_mem_nil, or_false] at hx
    rcases hx with rfl | rfl | rfl | rfl | rfl <;> decide
  · next h1 h2 _ h4 h5 =>
    rw [List.mem_singleton] at hx
    subst hx
    exact ⟨h1, h2, h4, h5⟩

/-- The two escaping routines agree, although one replaces one character after another. -/
theorem C39_routines_agree (s : Str) : htmlEscapeDiag s = htmlEscape s := htmlEscape_diag s

/-- A highlighted page with style classes is read as exactly its own tags and the texts of the
segments; with inline styles too when no colour contains a quote. Missing for the full property:
colours are not escaped (`C39_color_injection`); the code of a diagnostic is not either. -/
theorem C39_highlight_page_partial (inline : Bool) (segs : List Segment)
    (hc : inline = true → ∀ s ∈ segs, (∀ c, s.style.color = some c → '"' ∉ c) ∧
      ∀ c, s.style.background = some c → '"' ∉ c) :
    readHtml .text (exportHtml false inline segs) = pageTokens inline segs ∧
    pageText (pageTokens inline segs) = segs.flatMap (·.text) := by
  constructor
  · have e : exportHtml false inline segs = '<' :: (lit "div class=\"highlight\"" ++ '>' ::
        (segs.flatMap (if inline then htmlInline else htmlClass) ++ lit "</div>")) := by
      simp [exportHtml, lit]
    rw [e, readHtml_open _ _ (by decide)]
    have h := readHtml_segs (if inline then htmlInline else htmlClass)
      (fun s => if inline then inlineTag s else classTag s) segs (lit "</div>") (by
        intro s hs r
        cases inline with
        | false => exact htmlClass_read s r
        | true => exact htmlInline_read s r (hc rfl s hs).1 (hc rfl s hs).2)
    rw [h]
    have h2 : readHtml .text (lit "</div>") = [.tag (lit "/div")] := by decide
    rw [h2]; rfl
  · have hch : ∀ t : Str, pageText (t.map .ch) = t := by
      intro t
      induction t with
      | nil => rfl
      | cons c t ih => simp only [pageText, List.map_cons, List.flatMap_cons] at ih ⊢; rw [ih]; rfl
    have happ : ∀ a b, pageText (a ++ b) = pageText a ++ pageText b := by intro a b; simp [pageText]
    have hseg : ∀ (t : Option Str) (x : Str), pageText (segTokens t x) = x := by
      intro t x
      cases t with
      | none => exact hch x
      | some t =>
        have : segTokens (some t) x = [HTok.tag t] ++ x.map .ch ++ [.tag (lit "/span")] := by simp [segTokens]
        rw [this, happ, happ, hch]
        simp [pageText]
    have : ∀ segs : List Segment, pageText (segs.flatMap (fun s => segTokens (if inline then inlineTag s else classTag s) s.text)) =
        segs.flatMap (·.text) := by
      intro segs
      induction segs with
      | nil => rfl
      | cons s segs ih => rw [List.flatMap_cons, happ, hseg, ih, List.flatMap_cons]
    have e : pageTokens inline segs = [HTok.tag (lit "div class=\"highlight\"")] ++
      segs.flatMap (fun s => segTokens (if inline then inlineTag s else classTag s) s.text) ++ [.tag (lit "/div")] := by
      simp [pageTokens]
    rw [e, happ, happ, this]
    simp [pageText]

/-- Counterexample to the full property: a colour with a quote brings its own tag into the page. -/
theorem C39_color_injection :
    HTok.tag (lit "script") ∈ readHtml .text (exportHtml false true
      [⟨0, 1, ⟨some (lit "\"><script>"), none, false, false, false⟩, lit "x"⟩]) := by decide +kernel

/-! ## C40 -/

/-- `resolve_style` gives the style of the longest dotted prefix of the scope in the theme, and the
style of `none` (or the default) when no prefix is in it. -/
theorem C40_resolve_style (t : Theme) (scope : Str) :
    (∃ p st, BestMatch t scope p st ∧ resolveStyle t scope = .ok st) ∨
    (NoMatch t scope ∧ resolveStyle t scope = .ok ((t (lit "none")).getD Style.default)) := by
  unfold resolveStyle
  rcases resolveLoop_spec t (scope.length + 1) scope (by omega) with ⟨h1, h2⟩ | ⟨p, st, h1, h2⟩
  · right; exact ⟨h2, by rw [h1]; rfl⟩
  · left; exact ⟨p, st, h2, by rw [h1]; rfl⟩

/-- The longest prefix is unique, so `C40_resolve_style` determines the result. -/
theorem C40_unique (t : Theme) (s p q : Str) (st st' : Style) (h : BestMatch t s p st) (h' : BestMatch t s q st') :
    p = q ∧ st = st' := bestMatch_unique h h'

/-- `resolve_styles` gives the style of a most specific match of maximal depth among all scopes, the
earliest one on ties; and the style of `none` when no scope matches. -/
theorem C40_resolve_styles (t : Theme) (scopes : List Str) :
    (∃ before s after p st, scopes = before ++ s :: after ∧ BestMatch t s p st ∧ resolveStyles t scopes = .ok st ∧
      (∀ s' ∈ before, ∀ q st', BestMatch t s' q st' → parts q < parts p) ∧
      (∀ s' ∈ after, ∀ q st', BestMatch t s' q st' → parts q ≤ parts p)) ∨
    ((∀ s ∈ scopes, NoMatch t s) ∧ resolveStyles t scopes = .ok ((t (lit "none")).getD Style.default)) := by
  obtain ⟨best, h, h2⟩ := resolveStyles_ok t scopes
  rw [h2]
  rcases h with ⟨rfl, h⟩ | ⟨b, s, a, p, st, h1, h3, rfl, h4, h5⟩
  · right; exact ⟨h, rfl⟩
  · left; exact ⟨b, s, a, p, st, h1, h3, rfl, h4, h5⟩

/-- A theme can style a token under each of its names: with a style for one of these names and nothing
else in the theme, the token gets that style. -/
theorem C40_token_names (specific universal language cat k : Str) (st : Style) (hk : k ≠ [])
    (h : k = specific ++ '.' :: language ∨ k = specific ∨ k = universal ∨ k = cat ++ '.' :: universal ∨
      k = cat ++ '.' :: language) :
    resolveStyles (fun s => if s = k then some st else none) (tokenScopes specific universal language cat) = .ok st := by
  have hm : k ∈ tokenScopes specific universal language cat := by
    unfold tokenScopes
    by_cases hu : specific = universal
    · rcases h with h | h | h | h | h <;> simp [h, hu]
    · rcases h with h | h | h | h | h <;> simp [h, hu]
  rcases C40_resolve_styles (fun s => if s = k then some st else none) (tokenScopes specific universal language cat) with
    ⟨_, s, _, p, st', _, hb, hr, _, _⟩ | ⟨hn, _⟩
  · have := hb.2.1
    simp only [] at this
    split at this
    · cases this; exact hr
    · cases this
  · have := hn k hm k (by exact ⟨hk, .inl rfl⟩)
    simp at this

/-- A small theme. -/
def demoTheme : Theme := fun s =>
  if s = lit "keyword" then some ⟨some (lit "#0000FF"), none, true, false, false⟩
  else if s = lit "source.rust" then some ⟨none, none, false, true, false⟩
  else none

example : resolveStyle demoTheme (lit "keyword.control.rust") = .ok ⟨some (lit "#0000FF"), none, true, false, false⟩ := by
  decide +kernel
example : resolveStyles demoTheme (tokenScopes (lit "keyword.control") (lit "keyword") (lit "rust") (lit "source")) =
    .ok ⟨none, none, false, true, false⟩ := by decide +kernel

/-! ## C41 -/

/-- For every source and every tree whose leaves are pieces of it, one after another, highlighting
gives one segment per leaf, in order: contiguous spans from 0 to the end of the source, with texts that
make up the source, and each styled by its token kind. -/
theorem C41_segments (t : Theme) (scopesOf : Nat → List Str) (source : Str) (r : RedNode)
    (h : Built (.node r.kind r.textLen r.children)) (h0 : r.offset = 0) (texts : List Str)
    (hs : source = texts.flatten) (hl : texts.map blen = (leavesOfList r.children).map (·.2)) :
    ∃ segs, highlightTree t scopesOf source (sizeOf' (.node r.kind r.textLen r.children)) r = .ok segs ∧
      (segs.map (·.text)).flatten = source ∧ segs.map (·.text) = texts ∧
      TilesSpan 0 (blen source) (segs.map fun s => (s.start, s.stop)) ∧
      ∀ (i : Nat) (s : Segment) (l : Nat × Nat), segs[i]? = some s → (leavesOfList r.children)[i]? = some l →
        resolveStyles t (scopesOf l.1) = .ok s.style := by
  obtain ⟨k, n, cs, o⟩ := r
  simp only [] at h h0 hl ⊢
  subst h0
  obtain ⟨new, h1, h2, h3, h4⟩ := highlight_fold t scopesOf source (leavesOfList cs) texts [] hl hs []
  refine ⟨new, ?_, by rw [h2, hs], h2, ?_, h4⟩
  · unfold highlightTree
    rw [visitTokens_ok _ h]
    simpa using h1
  · rw [h3]
    have := tiles_place (leavesOfList cs) 0
    have hb : blen source = ((leavesOfList cs).map (·.2)).sum := by
      rw [← hl, hs]
      clear hl hs h1 h2 h3 h4
      induction texts with
      | nil => rfl
      | cons x xs ih => simp [ih]
    rw [hb]
    simpa using this

/-- Without a parser the whole source is one segment. -/
theorem C41_plain (t : Theme) (source : Str) :
    ∃ st, highlightPlain t source = .ok [⟨0, blen source, st, source⟩] := by
  have hr : ∃ st, resolveStyle t ['n', 'o', 'n', 'e'] = .ok st := by
    rcases C40_resolve_style t ['n', 'o', 'n', 'e'] with ⟨_, st, _, h⟩ | ⟨_, h⟩
    · exact ⟨st, h⟩
    · exact ⟨_, h⟩
  obtain ⟨st, hst⟩ := hr
  exact ⟨st, by unfold highlightPlain; rw [hst]; rfl⟩

/-- The terminal export without its escape sequences is the text of the segments, when the text has
no escape character of its own. Missing for the full property: texts with escape characters, where it
is false (`C41_ansi_escape_in_text`). -/
theorem C41_ansi_partial (segs : List Segment) (h : ∀ s ∈ segs, '\x1b' ∉ s.text) :
    stripAnsi .text (exportAnsi segs) = segs.flatMap (·.text) := by
  have key : ∀ segs : List Segment, (∀ s ∈ segs, '\x1b' ∉ s.text) →
      stripAnsi .text (segs.flatMap ansiSegment) = segs.flatMap (·.text) := by
    intro segs
    induction segs with
    | nil => intro _; rfl
    | cons s segs ih =>
      intro h
      rw [List.flatMap_cons, ansiSegment_strip s (h s (List.mem_cons_self ..)),
        ih fun x hx => h x (List.mem_cons_of_mem _ hx), List.flatMap_cons]
  exact key segs h

/-- Counterexample to the full property: an escape sequence in the source goes through to the
terminal and cannot be told from the exporter's own. -/
theorem C41_ansi_escape_in_text :
    stripAnsi .text (exportAnsi [⟨0, 5, Style.default, lit "\x1b[31m"⟩]) ≠ lit "\x1b[31m" := by decide

/-- Non-trivial case. -/
example : highlightTree demoTheme (fun k => if k = 1 then [lit "keyword.x"] else []) (lit "fn é")
    10 ⟨0, 5, [.leaf 1 2 none, .node 2 3 [.leaf 3 1 none, .leaf 4 2 none]], 0⟩ =
    .ok [⟨0, 2, ⟨some (lit "#0000FF"), none, true, false, false⟩, lit "fn"⟩, ⟨2, 3, Style.default, lit " "⟩,
      ⟨3, 5, Style.default, lit "é"⟩] := by decide +kernel

end Oaks.Props
