import Verif.Proofs.Comment

/-! # C51, C55: comments of the pretty printer -/

namespace Oaks.Props
open Oaks Oaks.Spec

/-- The white space of ASCII. -/
def asciiWs (c : Char) : Bool := c == ' ' || c == '\t' || c == '\n' || c == '\r'

/-- The queries keep exactly the comments that satisfy the bound, in the order of the collection. -/
theorem C51_queries (cs : List Comment) (p q : Nat) :
    Picks (fun c => p ≤ c.start ∧ c.stop ≤ q) cs (commentsIn cs p q) ∧ Picks (fun c => c.stop ≤ p) cs (commentsBefore cs p) ∧
      Picks (fun c => p ≤ c.start) cs (commentsAfter cs p) ∧ Picks (fun c => c.trailing = true) cs (trailingComments cs) :=
  ⟨picks_filter (fun c => by simp) cs, picks_filter (fun c => by simp) cs, picks_filter (fun c => by simp) cs,
    picks_filter (fun c => Iff.rfl) cs⟩

/-- Sorting orders by start, loses and adds nothing, and keeps the order of comments with the same start. -/
theorem C51_sort (cs : List Comment) :
    (sortComments cs).Pairwise (fun a b => a.start ≤ b.start) ∧ (sortComments cs).Perm cs ∧
      ∀ p r, Picks (fun c => c.start = p) cs r → Picks (fun c => c.start = p) (sortComments cs) r := by
  have hle : TotalPre (fun a b : Comment => decide (a.start ≤ b.start)) :=
    ⟨fun a b => by simp; omega, fun a b c h1 h2 => by simp at h1 h2 ⊢; omega⟩
  refine ⟨(sortBy_sorted hle cs).imp (fun h => by simpa using h), sortBy_perm _ cs, ?_⟩
  intro p r hr
  have h1 := sortBy_stable hle (⟨.line, [], p, 0, false⟩ : Comment) cs
  have h2 : ∀ l : List Comment, Picks (fun c => c.start = p) l
      (sameKey (fun a b : Comment => decide (a.start ≤ b.start)) ⟨.line, [], p, 0, false⟩ l) :=
    fun l => picks_filter (fun c => by simp; omega) l
  rw [hr.unique (h2 cs), ← h1]
  exact h2 _

/-- A comment is written with its text unchanged but for blanks around it: after the marker of its kind; a block comment of
several lines with each line behind a star. A blank comment is written as it is. -/
theorem C51_format {ws : Char → Bool} (hr : ws '\r' = true) (c : Comment) (indent b : Str) (hb : TrimmedTo ws c.content b) :
    (b = [] → c.formatted ws indent = c.kind.marker ++ (c.content ++ c.kind.suffix)) ∧
    (b ≠ [] → c.kind ≠ .block → c.formatted ws indent = c.kind.marker ++ (' ' :: b)) ∧
    (b ≠ [] → c.kind = .block → '\n' ∉ c.content → c.formatted ws indent = "/* ".toList ++ (b ++ " */".toList)) ∧
    (b ≠ [] → c.kind = .block → '\n' ∈ c.content → ∀ ls bs, LinesOf c.content ls → List.Forall₂ (TrimmedTo ws) ls bs →
      c.formatted ws indent = "/*\n".toList ++ (bs.flatMap (fun b => indent ++ (" * ".toList ++ (b ++ ['\n']))) ++
        (indent ++ " */".toList))) := by
  have e := hb.unique (trimWs_trimmed c.content)
  refine ⟨?_, ?_, ?_, ?_⟩
  · intro h
    rw [Comment.formatted, if_pos (by rw [← e, h])]
  · intro h hk
    rw [Comment.formatted, if_neg (by rw [← e]; exact h), ← e]
    cases hk' : c.kind with
    | block => exact absurd hk' hk
    | line => rfl
    | doc => rfl
  · intro h hk hn
    rw [Comment.formatted, if_neg (by rw [← e]; exact h), ← e]
    simp only [hk]
    rw [if_neg hn]
  · intro h hk hn ls bs hl hbs
    rw [Comment.formatted, if_neg (by rw [← e]; exact h)]
    simp only [hk]
    rw [if_pos hn]
    obtain ⟨ls', h1, h2⟩ := rustLines_spec hr _ c.content (Nat.le_refl _)
    obtain rfl := hl.unique h1
    have : bs = (rustLines c.content).map (trimWs ws) := by
      generalize (rustLines c.content).map (trimWs ws) = bs' at h2
      clear h1 hl
      induction hbs generalizing bs' with
      | nil => cases h2; rfl
      | cons hx _ ih =>
        cases h2 with
        | cons hx' h2 => rw [hx.unique hx', ih _ h2]
    rw [this, List.flatMap_map]
    rfl

/-- What is written for a block comment whose text does not close it is one block comment, whatever follows. -/
theorem C51_block_comment {ws : Char → Bool} (hr : ws '\r' = true) (c : Comment) (hk : c.kind = .block) (hc : NoClose c.content)
    {indent : Str} (hi : '/' ∉ indent) (rest : Str) :
    BlockComment "/*".toList "*/".toList (c.formatted ws indent ++ rest) (c.formatted ws indent) := by
  have wrap : ∀ body : Str, c.formatted ws indent = "/*".toList ++ (body ++ "*/".toList) → NoClose body →
      BlockComment "/*".toList "*/".toList (c.formatted ws indent ++ rest) (c.formatted ws indent) := by
    intro body he hb
    have := blockComment_closed (rest := rest) hb
    rw [he]
    simpa using this
  have ht := trimWs_trimmed (ws := ws) c.content
  have hf := C51_format hr c indent _ ht
  have hbody : NoClose (trimWs ws c.content) := by
    obtain ⟨l, r, he, _⟩ := ht
    exact hc.infix he
  have space : ∀ {x : Str}, NoClose x → NoClose (x ++ [' ']) := fun h => h.append (.of_not_mem (by simp)) (.inr (by simp))
  by_cases h0 : trimWs ws c.content = []
  · refine wrap (c.content ++ [' ']) ?_ (space hc)
    rw [hf.1 h0, hk]
    simp [CKind.marker, CKind.suffix]
  · by_cases hn : '\n' ∈ c.content
    · obtain ⟨ls, h1, h2⟩ := rustLines_spec hr _ c.content (Nat.le_refl _)
      refine wrap ('\n' :: (((rustLines c.content).map (trimWs ws)).flatMap (fun b => indent ++ (" * ".toList ++ (b ++ ['\n']))) ++ (indent ++ [' ']))) ?_ ?_
      · rw [hf.2.2.2 h0 hk hn ls _ h1 h2]
        simp
      · have hls : ∀ l ∈ ls, NoClose l := by
          clear h2 wrap hf hbody h0 hn ht
          generalize c.content = s at hc h1
          induction h1 with
          | nil => simp
          | last => intro l hl; simp at hl; rw [hl]; exact hc
          | @cons l t ls _ _ ih =>
            intro x hx
            rcases List.mem_cons.mp hx with rfl | hx
            · exact hc.infix (l := []) (r := '\n' :: t) (by simp)
            · exact ih (hc.infix (l := l ++ ['\n']) (r := []) (by simp)) x hx
        have hbs : ∀ b ∈ (rustLines c.content).map (trimWs ws), NoClose b := by
          generalize (rustLines c.content).map (trimWs ws) = bs at h2
          clear h1
          induction h2 with
          | nil => simp
          | cons hx _ ih =>
            intro b hb
            rcases List.mem_cons.mp hb with rfl | hb
            · obtain ⟨l, r, he, _⟩ := hx
              exact (hls _ List.mem_cons_self).infix he
            · exact ih (fun l hl => hls l (List.mem_cons_of_mem _ hl)) b hb
        have hrows := noClose_rows (ws := ws) hi hbs
        have hend : NoClose (indent ++ [' ']) := .of_not_mem (by simp [hi])
        have h3 : NoClose (((rustLines c.content).map (trimWs ws)).flatMap (fun b => indent ++ (" * ".toList ++ (b ++ ['\n']))) ++ (indent ++ [' '])) :=
          hrows.append hend (.inr (by
            intro h
            have := List.mem_of_mem_head? h
            simp [hi] at this))
        exact NoClose.append (x := ['\n']) (.of_not_mem (by decide)) h3 (.inl (by decide))
    · refine wrap (' ' :: (trimWs ws c.content ++ [' '])) ?_ ?_
      · rw [hf.2.2.1 h0 hk hn]
        simp
      · exact NoClose.append (x := [' ']) (.of_not_mem (by decide)) (space hbody) (.inl (by decide))

/-- What is written for a line or doc comment of one line is one line comment, if a line ends after it. -/
theorem C51_line_comment {ws : Char → Bool} (hr : ws '\r' = true) (c : Comment) (hk : c.kind ≠ .block) (hc : '\n' ∉ c.content)
    (indent : Str) {rest : Str} (hrest : rest = [] ∨ ∃ x, rest = '\n' :: x) :
    LineComment c.kind.marker (c.formatted ws indent ++ rest) (c.formatted ws indent) := by
  have ht := trimWs_trimmed (ws := ws) c.content
  have hf := C51_format hr c indent _ ht
  by_cases h0 : trimWs ws c.content = []
  · refine ⟨c.content ++ c.kind.suffix, rest, by rw [hf.1 h0], hf.1 h0, ?_, hrest⟩
    cases hk' : c.kind with
    | block => exact absurd hk' hk
    | line => simpa [CKind.suffix] using hc
    | doc => simpa [CKind.suffix] using hc
  · refine ⟨' ' :: trimWs ws c.content, rest, by rw [hf.2.1 h0 hk], hf.2.1 h0 hk, ?_, hrest⟩
    obtain ⟨l, r, he, _⟩ := ht
    intro h
    rcases List.mem_cons.mp h with h | h
    · simp at h
    · exact hc (by rw [he]; simp [h])

/-- The text of a doc comment with two lines is not in the comment: its second line is code. -/
theorem C51_doc_witness : Comment.formatted asciiWs ⟨.doc, "a\nlet x = 1;".toList, 0, 0, false⟩ [] = "/// a\nlet x = 1;".toList := by
  decide +kernel

/-- Comments are dropped only if they are not wanted, and kept as they are only if they are not to be formatted. -/
theorem C51_process (ws : Char → Bool) (cs : List Comment) (indent : Str) :
    processComments ws false true cs indent = [] ∧ processComments ws true false cs indent = cs.map (·.content) ∧
      (processComments ws true true cs indent).length = cs.length ∧
      ∀ (i : Nat) (c : Comment), cs[i]? = some c → (processComments ws true true cs indent)[i]? = some (c.formatted ws indent) := by
  refine ⟨rfl, ?_, ?_, ?_⟩
  · simp [processComments]
  · simp [processComments]
  · intro i c h
    simp [processComments, h]

/-! ## C55 -/

/-- At a position are inserted the comments that end at or before it and are not trailing, once each, in the order of the collection,
each on its own line behind the indentation. -/
theorem C55_insert (ws : Char → Bool) (cs : List Comment) (out : Str) (p : Nat) (indent : Str) :
    ∃ picked, Picks (fun c => c.stop ≤ p ∧ c.trailing = false) cs picked ∧
      insertAt ws cs out p indent = out ++ picked.flatMap (fun c => indent ++ (c.formatted ws indent ++ ['\n'])) := by
  unfold insertAt commentsBefore
  induction cs generalizing out with
  | nil => exact ⟨[], .nil, by simp [insertLoop]⟩
  | cons c cs ih =>
    by_cases h1 : c.stop ≤ p
    · rw [List.filter_cons_of_pos (by simpa using h1)]
      by_cases h2 : c.trailing = true
      · obtain ⟨picked, h3, h4⟩ := ih out
        refine ⟨picked, .drop (by simp [h2]) h3, ?_⟩
        rw [insertLoop, if_pos h2, h4]
      · obtain ⟨picked, h3, h4⟩ := ih (out ++ (indent ++ (c.formatted ws indent ++ ['\n'])))
        refine ⟨c :: picked, .keep ⟨h1, by simpa using h2⟩ h3, ?_⟩
        rw [insertLoop, if_neg h2, h4]
        simp
    · rw [List.filter_cons_of_neg (by simpa using h1)]
      obtain ⟨picked, h3, h4⟩ := ih out
      exact ⟨picked, .drop (by simp [h1]) h3, h4⟩

/-- A trailing comment is inserted if there is one at or after the position, the first of the collection. -/
theorem C55_trailing (ws : Char → Bool) (cs : List Comment) (out : Str) (p : Nat) :
    (∃ c l r, cs = l ++ c :: r ∧ (∀ d ∈ l, ¬ (p ≤ d.start ∧ d.trailing = true)) ∧ p ≤ c.start ∧ c.trailing = true ∧
      insertTrailing ws cs out p = out ++ (' ' :: c.formatted ws [])) ∨
    ((∀ d ∈ cs, ¬ (p ≤ d.start ∧ d.trailing = true)) ∧ insertTrailing ws cs out p = out) := by
  unfold insertTrailing commentsAfter
  induction cs with
  | nil => exact .inr ⟨by simp, rfl⟩
  | cons c cs ih =>
    have next : ¬ (p ≤ c.start ∧ c.trailing = true) → insertFirst ws out ((c :: cs).filter fun c => decide (c.start ≥ p)) =
        insertFirst ws out (cs.filter fun c => decide (c.start ≥ p)) := by
      intro h
      by_cases h1 : p ≤ c.start
      · rw [List.filter_cons_of_pos (by simpa using h1), insertFirst, if_neg (fun h2 => h ⟨h1, h2⟩)]
      · rw [List.filter_cons_of_neg (by simpa using h1)]
    by_cases h : p ≤ c.start ∧ c.trailing = true
    · refine .inl ⟨c, [], cs, rfl, by simp, h.1, h.2, ?_⟩
      rw [List.filter_cons_of_pos (by simpa using h.1), insertFirst, if_pos h.2]
    · rw [next h]
      rcases ih with ⟨d, l, r, rfl, h2, h3, h4, h5⟩ | ⟨h2, h3⟩
      · refine .inl ⟨d, c :: l, r, rfl, ?_, h3, h4, h5⟩
        intro x hx
        rcases List.mem_cons.mp hx with rfl | hx
        · exact h
        · exact h2 x hx
      · refine .inr ⟨?_, h3⟩
        intro x hx
        rcases List.mem_cons.mp hx with rfl | hx
        · exact h
        · exact h2 x hx

/-- Inserting at two positions, one after the other, with no comment before the first of them writes each comment before the
second once. Missing for C55: comments before the first position are written again, see the witness. -/
theorem C55_once_partial (ws : Char → Bool) (cs : List Comment) (out : Str) (p q : Nat) (indent mid : Str)
    (h : ∀ c ∈ cs, c.trailing = false → p < c.stop) :
    ∃ picked, Picks (fun c => c.stop ≤ q ∧ c.trailing = false) cs picked ∧
      insertAt ws cs (insertAt ws cs out p indent ++ mid) q indent =
        out ++ (mid ++ picked.flatMap (fun c => indent ++ (c.formatted ws indent ++ ['\n']))) := by
  obtain ⟨picked, h1, h2⟩ := C55_insert ws cs out p indent
  obtain ⟨picked', h3, h4⟩ := C55_insert ws cs (insertAt ws cs out p indent ++ mid) q indent
  have : picked = [] := by
    clear h2 h3 h4
    induction h1 with
    | nil => rfl
    | keep hx _ _ => have := h _ List.mem_cons_self hx.2; omega
    | drop _ _ ih => exact ih (fun c hc => h c (List.mem_cons_of_mem _ hc))
  refine ⟨picked', h3, ?_⟩
  rw [h4, h2, this]
  simp

/-! Non-trivial cases -/

example : Comment.formatted asciiWs ⟨.block, " a\n  b* ".toList, 0, 0, false⟩ "  ".toList = "/*\n   * a\n   * b*\n   */".toList := by
  decide +kernel

example : LinesOf " a\n  b* ".toList [" a".toList, "  b* ".toList] := .cons (l := " a".toList) (by decide) (.last (by decide) (by decide))

example : insertAt asciiWs [⟨.line, "x".toList, 0, 4, false⟩, ⟨.line, "y".toList, 5, 9, true⟩] [] 9 [' '] = " // x\n".toList := by
  decide +kernel

/-! Where the code does not do what C55 says. -/

/-- Walking over two positions prints the comment before the first of them twice. -/
theorem C55_twice_witness : insertAt asciiWs [⟨.line, "x".toList, 0, 4, false⟩]
    (insertAt asciiWs [⟨.line, "x".toList, 0, 4, false⟩] [] 5 [] ++ "a;".toList) 8 [] = "// x\na;// x\n".toList := by decide +kernel

/-- A trailing comment is printed at every position before it. -/
theorem C55_trailing_witness : insertTrailing asciiWs [⟨.line, "x".toList, 90, 94, true⟩]
    (insertTrailing asciiWs [⟨.line, "x".toList, 90, 94, true⟩] "a;".toList 2 ++ "\nb;".toList) 5 = "a; // x\nb; // x".toList := by
  decide +kernel

end Oaks.Props
