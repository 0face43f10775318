import Verif.Proofs.Diagnostic

namespace Oaks
open Oaks.Spec

/-- Read as HTML, `s` is template tags and the characters of `v`, whatever follows. -/
def HShows (s v : Str) : Prop :=
  ∃ ts, (∀ r, readHtml .text (s ++ r) = ts ++ readHtml .text r) ∧ OnlyTemplate ts ∧ pageText ts = v

theorem pageText_append (a b : List HTok) : pageText (a ++ b) = pageText a ++ pageText b := by simp [pageText]

theorem pageText_ch (t : Str) : pageText (t.map .ch) = t := by
  induction t with
  | nil => rfl
  | cons c t ih => simp only [pageText, List.map_cons, List.flatMap_cons] at ih ⊢; rw [ih]; rfl

theorem HShows.append {s v s' v' : Str} (h : HShows s v) (h' : HShows s' v') : HShows (s ++ s') (v ++ v') := by
  obtain ⟨ts, h1, h2, h3⟩ := h
  obtain ⟨ts', h1', h2', h3'⟩ := h'
  refine ⟨ts ++ ts', ?_, ?_, by rw [pageText_append, h3, h3']⟩
  · intro r; rw [List.append_assoc, h1, h1', List.append_assoc]
  · intro x hx
    rcases List.mem_append.1 hx with hx | hx
    · exact h2 x hx
    · exact h2' x hx

theorem hshows_nil : HShows [] [] := ⟨[], fun _ => rfl, (by intro x hx; cases hx), rfl⟩

theorem onlyTemplate_ch (s : Str) : OnlyTemplate (s.map .ch) := by
  intro x hx
  obtain ⟨c, _, rfl⟩ := List.mem_map.1 hx
  exact ⟨(by intro h; cases h), (by intro g h; cases h)⟩

theorem hshows_escape (s : Str) : HShows (htmlEscapeDiag s) s :=
  ⟨s.map .ch, fun r => by rw [htmlEscape_diag, readHtml_escape], onlyTemplate_ch s, pageText_ch s⟩

theorem hshows_plain (s : Str) (h : ∀ c ∈ s, c ≠ '<' ∧ c ≠ '>' ∧ c ≠ '&') : HShows s s := by
  refine ⟨s.map .ch, ?_, onlyTemplate_ch s, pageText_ch s⟩
  intro r
  induction s with
  | nil => rfl
  | cons c s ih =>
    have hc := h c (List.mem_cons_self ..)
    rw [List.cons_append, readHtml, if_neg hc.1, if_neg hc.2.2, if_neg hc.2.1, ih fun x hx => h x (List.mem_cons_of_mem _ hx)]
    rfl

theorem hshows_tag (g : Str) (hq : quoteAfter false g = some false) (hg : g ∈ templateTags) : HShows ('<' :: (g ++ ['>'])) [] := by
  refine ⟨[.tag g], ?_, ?_, rfl⟩
  · intro r
    have e : '<' :: (g ++ ['>']) ++ r = '<' :: (g ++ '>' :: r) := by simp
    rw [e, readHtml_open _ _ hq]; rfl
  · intro x hx
    rw [List.mem_singleton] at hx
    subst hx
    exact ⟨(by intro h; cases h), (by intro g' h; cases h; exact hg)⟩

theorem natStr_plain (n : Nat) : HShows (natStr n) (natStr n) := by
  refine hshows_plain _ ?_
  intro c hc
  have := Nat.isDigit_of_mem_toDigits (by omega) (by omega) (show c ∈ Nat.toDigits 10 n by simpa [natStr, Nat.repr] using hc)
  refine ⟨?_, ?_, ?_⟩ <;> (rintro rfl; revert this; decide)

theorem hshows_times (n : Nat) (c : Char) (h : c ≠ '<' ∧ c ≠ '>' ∧ c ≠ '&') : HShows (times n [c]) (times n [c]) := by
  refine hshows_plain _ ?_
  intro x hx
  rw [times_char] at hx
  rw [(List.mem_replicate.1 hx).2]; exact h

theorem hshows_pad (w n : Nat) : HShows (padLeft w (natStr n)) (padLeft w (natStr n)) := by
  unfold padLeft
  refine HShows.append ?_ (natStr_plain n)
  have := hshows_times (w - (natStr n).length) ' ' (by decide)
  rwa [times_char] at this

/-- For a piece of a template: its text computed. -/
theorem hshows_lit (s : Str) (ts : List HTok) (h : ∀ r, readHtml .text (s ++ r) = ts ++ readHtml .text r)
    (ht : OnlyTemplate ts) : HShows s (pageText ts) := ⟨ts, h, ht, rfl⟩

/-- Tags and characters of a piece of a template, as written. -/
inductive Piece where
  | g (s : String)
  | t (s : String)

def Piece.html : Piece → Str
  | .g s => '<' :: (s.toList ++ ['>'])
  | .t s => s.toList
def Piece.text : Piece → Str
  | .g _ => []
  | .t s => s.toList
def Piece.good : Piece → Bool
  | .g s => quoteAfter false s.toList == some false && templateTags.contains s.toList
  | .t s => s.toList.all fun c => c ≠ '<' && c ≠ '>' && c ≠ '&'

theorem hshows_pieces (ps : List Piece) (h : ps.all Piece.good = true) : HShows (ps.flatMap Piece.html) (ps.flatMap Piece.text) := by
  induction ps with
  | nil => exact hshows_nil
  | cons p ps ih =>
    rw [List.all_cons, Bool.and_eq_true] at h
    refine HShows.append ?_ (ih h.2)
    have hp := h.1
    cases p with
    | g s =>
      simp only [Piece.good, Bool.and_eq_true, beq_iff_eq, List.contains_iff_mem] at hp
      exact hshows_tag _ hp.1 hp.2
    | t s =>
      simp only [Piece.good, List.all_eq_true] at hp
      refine hshows_plain _ ?_
      intro c hc
      have := hp c hc
      simp only [Bool.and_eq_true, decide_eq_true_eq] at this
      exact ⟨this.1.1, this.1.2, this.2⟩

theorem hshows_template (s : Str) (v : Str) (ps : List Piece) (h : ps.all Piece.good = true)
    (hs : s = ps.flatMap Piece.html) (hv : v = ps.flatMap Piece.text) : HShows s v := by
  rw [hs, hv]; exact hshows_pieces ps h

theorem html_msg (l : DLabel) : HShows (htmlMsg l) (msgTail l.message ++ ['\n']) := by
  unfold htmlMsg msgTail
  cases l.message with
  | none => exact hshows_template _ _ [.t "\n"] (by decide) rfl rfl
  | some m =>
    have h1 : HShows (lit " <span class=\"label-msg\">") [' '] :=
      hshows_template _ _ [.t " ", .g "span class=\"label-msg\""] (by decide) (by decide) (by decide)
    have h2 : HShows (lit "</span>") [] := hshows_template _ _ [.g "/span"] (by decide) (by decide) (by decide)
    have h3 : HShows (lit "\n") ['\n'] := hshows_template _ _ [.t "\n"] (by decide) rfl rfl
    have := ((h1.append (hshows_escape m)).append h2).append h3
    simpa using this

theorem html_num (w n : Nat) : HShows (htmlNum w n) (padLeft w (natStr n) ++ " │ ".toList) := by
  unfold htmlNum
  have h1 : HShows (lit "<span class=\"line-num\">") [] :=
    hshows_template _ _ [.g "span class=\"line-num\""] (by decide) (by decide) (by decide)
  have h2 : HShows (lit "</span> <span class=\"vbar\">│</span> ") " │ ".toList :=
    hshows_template _ _ [.g "/span", .t " ", .g "span class=\"vbar\"", .t "│", .g "/span", .t " "]
      (by decide) (by decide) (by decide)
  have := (h1.append (hshows_pad w n)).append h2
  simpa using this

theorem html_bar (w : Nat) : HShows (htmlBar w) (times w [' '] ++ " │\n".toList) := by
  unfold htmlBar
  have h1 : HShows (lit "<span class=\"padding\">") [] :=
    hshows_template _ _ [.g "span class=\"padding\""] (by decide) (by decide) (by decide)
  have h2 : HShows (lit "</span> <span class=\"vbar\">│</span>\n") " │\n".toList :=
    hshows_template _ _ [.g "/span", .t " ", .g "span class=\"vbar\"", .t "│", .g "/span", .t "\n"]
      (by decide) (by decide) (by decide)
  have := (h1.append (hshows_times w ' ' (by decide))).append h2
  simpa [lit] using this

theorem html_single (full : Str) (lines : List Str) (p : SnipPos) (w : Nat) (l : DLabel) (text : Str)
    (h : lines[p.startLine]? = some text) :
    HShows (htmlSingle full lines p w l) (padLeft w (natStr (p.startLine + 1)) ++ " │ ".toList ++ text ++ ['\n'] ++
      times w [' '] ++ " │ ".toList ++ times p.startCol [' '] ++ times (underlineLen full l) ['^'] ++
      msgTail l.message ++ ['\n']) := by
  unfold htmlSingle
  rw [h]
  simp only []
  have h1 : HShows (lit "<span class=\"padding\">") [] :=
    hshows_template _ _ [.g "span class=\"padding\""] (by decide) (by decide) (by decide)
  have h2 : HShows (lit "</span> <span class=\"vbar\">│</span> <span class=\"underline\">") " │ ".toList :=
    hshows_template _ _ [.g "/span", .t " ", .g "span class=\"vbar\"", .t "│", .g "/span", .t " ", .g "span class=\"underline\""]
      (by decide) (by decide) (by decide)
  have h3 : HShows (lit "</span>") [] := hshows_template _ _ [.g "/span"] (by decide) (by decide) (by decide)
  have hn : HShows (lit "\n") ['\n'] := hshows_template _ _ [.t "\n"] (by decide) rfl rfl
  have := ((((html_num w (p.startLine + 1)).append (hshows_escape text)).append hn).append
    (((((h1.append (hshows_times w ' ' (by decide))).append h2).append (hshows_times p.startCol ' ' (by decide))).append
      (hshows_times (underlineLen full l) '^' (by decide))).append h3)).append (html_msg l)
  simpa [lit] using this

theorem html_row (lines : List Str) (p : SnipPos) (w : Nat) (l : DLabel) (i : Nat) : ∃ v, HShows (htmlRow lines p w l i) v := by
  unfold htmlRow
  cases lines[i]? with
  | none => exact ⟨[], hshows_nil⟩
  | some text =>
    simp only []
    have hn : HShows (lit "\n") ['\n'] := hshows_template _ _ [.t "\n"] (by decide) rfl rfl
    have hm1 : HShows (lit "<span class=\"multiline\">┌</span>") "┌".toList :=
      hshows_template _ _ [.g "span class=\"multiline\"", .t "┌", .g "/span"] (by decide) (by decide) (by decide)
    have hm2 : HShows (lit "<span class=\"multiline\">│</span>") "│".toList :=
      hshows_template _ _ [.g "span class=\"multiline\"", .t "│", .g "/span"] (by decide) (by decide) (by decide)
    have h1 : HShows (lit "<span class=\"padding\">") [] :=
      hshows_template _ _ [.g "span class=\"padding\""] (by decide) (by decide) (by decide)
    have h2 : HShows (lit "</span> <span class=\"vbar\">│</span> <span class=\"multiline\">└</span><span class=\"underline\">") " │ └".toList :=
      hshows_template _ _ [.g "/span", .t " ", .g "span class=\"vbar\"", .t "│", .g "/span", .t " ", .g "span class=\"multiline\"", .t "└",
        .g "/span", .g "span class=\"underline\""] (by decide) (by decide) (by decide)
    have h3 : HShows (lit "</span>") [] := hshows_template _ _ [.g "/span"] (by decide) (by decide) (by decide)
    have h4 : HShows (lit "<span class=\"underline\">") [] :=
      hshows_template _ _ [.g "span class=\"underline\""] (by decide) (by decide) (by decide)
    split
    · exact ⟨_, (((html_num w (i + 1)).append hm1).append (hshows_escape text)).append hn⟩
    split
    · exact ⟨_, ((((((html_num w (i + 1)).append hm2).append (hshows_escape text)).append hn).append
        ((((h1.append (hshows_times w ' ' (by decide))).append h2).append (hshows_times p.endCol '─' (by decide))).append h3)).append
        ((h4.append (hshows_times (max p.endCol 1) '^' (by decide))).append h3)).append (html_msg l)⟩
    · exact ⟨_, (((html_num w (i + 1)).append hm2).append (hshows_escape text)).append hn⟩

theorem html_rows {A : Type} (f : A → Str) (is : List A) (h : ∀ i ∈ is, ∃ v, HShows (f i) v) : ∃ v, HShows (is.flatMap f) v := by
  induction is with
  | nil => exact ⟨[], hshows_nil⟩
  | cons i is ih =>
    obtain ⟨v, hv⟩ := h i (List.mem_cons_self ..)
    obtain ⟨v', hv'⟩ := ih fun x hx => h x (List.mem_cons_of_mem _ hx)
    exact ⟨_, hv.append hv'⟩

/-- The frame of a snippet around its middle part. -/
theorem html_frame (p : SnipPos) (uri : Option Str) (w : Nat) {mid v : Str} (hm : HShows mid v) :
    HShows (lit "  <div class=\"snippet\">\n" ++
    (lit "    <div class=\"location\">  ┌ at " ++ htmlEscapeDiag (urlStr uri) ++ lit ":" ++
      (natStr (p.startLine + 1) ++ lit ":" ++ natStr (p.startCol + 1)) ++ lit "</div>\n") ++
    lit "    <pre><code>" ++ htmlBar w ++ mid ++ htmlBar w ++ lit "</code></pre>\n" ++ lit "  </div>\n")
    ("  \n    ".toList ++ locationLine (topOf true) (fileName uri) (p.startLine + 1) (p.startCol + 1) ++ "\n    ".toList ++
      (times w [' '] ++ " │\n".toList) ++ v ++ (times w [' '] ++ " │\n".toList) ++ "\n  \n".toList) := by
  have h1 : HShows (lit "  <div class=\"snippet\">\n") "  \n".toList :=
    hshows_template _ _ [.t "  ", .g "div class=\"snippet\"", .t "\n"] (by decide) (by decide) (by decide)
  have h2 : HShows (lit "    <div class=\"location\">  ┌ at ") "      ┌ at ".toList :=
    hshows_template _ _ [.t "    ", .g "div class=\"location\"", .t "  ┌ at "] (by decide) (by decide) (by decide)
  have hc : HShows (lit ":") ":".toList := hshows_template _ _ [.t ":"] (by decide) (by decide) (by decide)
  have h3 : HShows (lit "</div>\n") "\n".toList := hshows_template _ _ [.g "/div", .t "\n"] (by decide) (by decide) (by decide)
  have h4 : HShows (lit "    <pre><code>") "    ".toList :=
    hshows_template _ _ [.t "    ", .g "pre", .g "code"] (by decide) (by decide) (by decide)
  have h5 : HShows (lit "</code></pre>\n") "\n".toList :=
    hshows_template _ _ [.g "/code", .g "/pre", .t "\n"] (by decide) (by decide) (by decide)
  have h6 : HShows (lit "  </div>\n") "  \n".toList :=
    hshows_template _ _ [.t "  ", .g "/div", .t "\n"] (by decide) (by decide) (by decide)
  have := ((((((h1.append ((((h2.append (hshows_escape (urlStr uri))).append hc).append
    (((natStr_plain (p.startLine + 1)).append hc).append (natStr_plain (p.startCol + 1)))).append h3)).append h4).append
    (html_bar w)).append hm).append (html_bar w)).append h5).append h6
  refine cast (congrArg _ ?_) this
  simp [locationLine, topOf, url_eq, natStr_decimal]

theorem html_snippet {src : Source} {m : LineMap} {full : Str} {lines : List Str} {l : DLabel} {uri : Option Str} {out : Str}
    (h : htmlSnippet src m full lines l uri = .ok out) : ∃ v, HShows out v := by
  unfold htmlSnippet at h
  cases hp : snipPos src m full l with
  | error e => rw [hp] at h; cases h
  | ok p =>
    rw [hp, run_bind_ok] at h
    simp only [run_pure, Except.ok.injEq] at h
    subst h
    have : ∃ v, HShows (if p.startLine = p.endLine then htmlSingle full lines p (natStr (p.endLine + 1)).length l
      else (List.range (p.endLine + 1 - p.startLine)).flatMap fun j => htmlRow lines p (natStr (p.endLine + 1)).length l (p.startLine + j)) v := by
      split
      · cases hl : lines[p.startLine]? with
        | none => exact ⟨[], by unfold htmlSingle; rw [hl]; exact hshows_nil⟩
        | some text => exact ⟨_, html_single full lines p _ l text hl⟩
      · exact html_rows _ _ fun i _ => html_row ..
    obtain ⟨v, hv⟩ := this
    exact ⟨_, html_frame p uri _ hv⟩

theorem htmlSnippet_single {src : Source} {t : Str} (h : Lawful src t) (htot : TextTotal src) (hbig : blen t < 2 ^ 32)
    (uri : Option Str) {l : DLabel} {s : Str} (hs : PageSnippetOf uri t l s) :
    ∃ out, htmlSnippet src ⟨0 :: nls 0 t, blen t⟩ t (rustLines t) l uri = .ok out ∧ HShows out s := by
  obtain ⟨k, before, lab, ln, text, hl, h0, hc, rfl⟩ := hs
  obtain ⟨e, he⟩ := snipPos_single h htot hbig hl
  have hline : (rustLines t)[k]? = some text := by
    obtain ⟨a, r, hline, _⟩ := hl
    exact rustLines_get hline h0 hc
  unfold htmlSnippet
  rw [he, run_bind_ok]
  simp only [run_pure, if_true]
  refine ⟨_, rfl, ?_⟩
  have := html_frame ⟨k, k, before.length, e⟩ uri (natStr (k + 1)).length
    (html_single t (rustLines t) ⟨k, k, before.length, e⟩ (natStr (k + 1)).length l text hline)
  refine cast (congrArg _ ?_) this
  simp only [times_char, padLeft_self, natStr_decimal, underlineLen_single hl]
  simp [singleBody, unlines, barOf, spaces, carets]

theorem hshows_flatten {ls vs : List Str} (h : List.Forall₂ HShows ls vs) : HShows ls.flatten vs.flatten := by
  induction h with
  | nil => exact hshows_nil
  | cons h1 _ ih => exact h1.append ih

/-- The frame of the page. -/
theorem html_page (d : Diag) (hcode : ∀ c, d.code = some c → ∀ x ∈ c, x ≠ '<' ∧ x ≠ '>' ∧ x ≠ '&')
    {snips vs : List Str} (hs : List.Forall₂ HShows snips vs) :
    HShows (lit "<div class=\"diagnostic\">\n" ++ (lit "  <div class=\"header " ++ sevName d.severity ++ lit "\">\n") ++
    (match d.code with
    | some code => lit "    <span class=\"code\">[" ++ code ++ lit "]</span> <span class=\"message\">" ++
        htmlEscapeDiag d.message ++ lit "</span>\n"
    | none => lit "    <span class=\"severity\">[" ++ sevName d.severity ++ lit "]</span> <span class=\"message\">" ++
        htmlEscapeDiag d.message ++ lit "</span>\n") ++ lit "  </div>\n" ++ snips.flatten ++
    (match d.help with | some h => lit "  <div class=\"help\">help: " ++ htmlEscapeDiag h ++ lit "</div>\n" | none => []) ++
    lit "</div>") (pageReport d vs) := by
  have h1 : HShows (lit "<div class=\"diagnostic\">\n") "\n".toList :=
    hshows_template _ _ [.g "div class=\"diagnostic\"", .t "\n"] (by decide) (by decide) (by decide)
  have h2 : HShows (lit "  <div class=\"header " ++ sevName d.severity ++ lit "\">\n") "  \n".toList := by
    cases d.severity
    · exact hshows_template _ _ [.t "  ", .g "div class=\"header error\"", .t "\n"] (by decide) (by decide) (by decide)
    · exact hshows_template _ _ [.t "  ", .g "div class=\"header warning\"", .t "\n"] (by decide) (by decide) (by decide)
    · exact hshows_template _ _ [.t "  ", .g "div class=\"header advice\"", .t "\n"] (by decide) (by decide) (by decide)
  have hm : HShows (lit "]</span> <span class=\"message\">" ++ htmlEscapeDiag d.message ++ lit "</span>\n") ("] ".toList ++ d.message ++ "\n".toList) := by
    have a : HShows (lit "]</span> <span class=\"message\">") "] ".toList :=
      hshows_template _ _ [.t "]", .g "/span", .t " ", .g "span class=\"message\""] (by decide) (by decide) (by decide)
    have b : HShows (lit "</span>\n") "\n".toList := hshows_template _ _ [.g "/span", .t "\n"] (by decide) (by decide) (by decide)
    exact (a.append (hshows_escape d.message)).append b
  have hsev : HShows (sevName d.severity) (sevName d.severity) := by
    refine hshows_plain _ ?_
    cases d.severity <;> decide
  have h3 : HShows (match d.code with
    | some code => lit "    <span class=\"code\">[" ++ code ++ lit "]</span> <span class=\"message\">" ++
        htmlEscapeDiag d.message ++ lit "</span>\n"
    | none => lit "    <span class=\"severity\">[" ++ sevName d.severity ++ lit "]</span> <span class=\"message\">" ++
        htmlEscapeDiag d.message ++ lit "</span>\n")
      ("    [".toList ++ (match d.code with
        | some c => c
        | none => sevName d.severity) ++ "] ".toList ++ d.message ++ "\n".toList) := by
    cases hc : d.code with
    | none =>
      have a : HShows (lit "    <span class=\"severity\">[") "    [".toList :=
        hshows_template _ _ [.t "    ", .g "span class=\"severity\"", .t "["] (by decide) (by decide) (by decide)
      have := (a.append hsev).append hm
      simpa using this
    | some c =>
      have a : HShows (lit "    <span class=\"code\">[") "    [".toList :=
        hshows_template _ _ [.t "    ", .g "span class=\"code\"", .t "["] (by decide) (by decide) (by decide)
      have := (a.append (hshows_plain c (hcode c hc))).append hm
      simpa using this
  have h4 : HShows (lit "  </div>\n") "  \n".toList :=
    hshows_template _ _ [.t "  ", .g "/div", .t "\n"] (by decide) (by decide) (by decide)
  have h5 : HShows (match d.help with | some h => lit "  <div class=\"help\">help: " ++ htmlEscapeDiag h ++ lit "</div>\n" | none => [])
      (match d.help with
        | some h => "  help: ".toList ++ h ++ "\n".toList
        | none => []) := by
    cases d.help with
    | none => exact hshows_nil
    | some x =>
      have a : HShows (lit "  <div class=\"help\">help: ") "  help: ".toList :=
        hshows_template _ _ [.t "  ", .g "div class=\"help\"", .t "help: "] (by decide) (by decide) (by decide)
      have b : HShows (lit "</div>\n") "\n".toList := hshows_template _ _ [.g "/div", .t "\n"] (by decide) (by decide) (by decide)
      exact (a.append (hshows_escape x)).append b
  have h6 : HShows (lit "</div>") [] := hshows_template _ _ [.g "/div"] (by decide) (by decide) (by decide)
  have := (((((h1.append h2).append h3).append h4).append (hshows_flatten hs)).append h5).append h6
  refine cast (congrArg _ ?_) this
  unfold pageReport
  cases d.code with
  | some c => cases d.help <;> simp
  | none => cases d.severity <;> cases d.help <;> simp [sevName, lit]

theorem HShows.run {s v : Str} (h : HShows s v) : OnlyTemplate (readHtml .text s) ∧ pageText (readHtml .text s) = v := by
  obtain ⟨ts, h1, h2, h3⟩ := h
  have := h1 []
  simp only [List.append_nil, readHtml] at this
  rw [this]; exact ⟨h2, h3⟩

end Oaks
