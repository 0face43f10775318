import Verif.Proofs.XmlTrip
import Verif.Props.Xml
import Verif.Proofs.XmlWrite

/-! # C73: the elements of an XML text -/

namespace Oaks.Props
open Oaks Oaks.Spec

section
variable {ws : Char → Bool}

/-- What building a value does with any text below 4 GiB, in any kind of source: it ends and does not panic. Where the tokens
of the text are those of items (elements, and tokens that belong to no tag), the value is that of the first element, and
nothing is reported; otherwise there is no value and something is reported. -/
theorem C73_parse (hws : XmlSpaces ws) {src : Source} {t : Str} (h : AnySource src t) (hl : blen t < 2 ^ 32) {qs : List (Nat × Str)}
    (hc : Cut (XmlToken ws) t (keyed qs)) :
    (∀ its, TopLevel its → qs = itemsPieces its → Xml.build ws src = .ok (some ((itemsBuilt t 0 its).head?.getD (.text [])), [])) ∧
      ((¬ ∃ its, TopLevel its ∧ qs = itemsPieces its) → ∃ errs, Xml.build ws src = .ok (none, errs) ∧ errs ≠ []) := by
  have hs := supply_linked h.1 h.2 (longChunks_zero src t) (cutsAligned_zero h.1)
  refine ⟨fun its ht hq => ?_, fun hno => ?_⟩
  · subst hq
    exact xmlBuild_items hws hc ht hl hs h.1
  · rcases fromText_spec hws hc hl hs h.1 with ⟨its, h1, h2, _⟩ | ⟨_, h2⟩
    · exact absurd ⟨its, h1, h2⟩ hno
    · exact h2

/-- `parse` by the cut of its text. -/
theorem fromText_cut (hws : XmlSpaces ws) {t : Str} (hl : blen t < 2 ^ 32) :
    ∃ qs, Cut (XmlToken ws) t (keyed qs) ∧
      ((∃ its, TopLevel its ∧ qs = itemsPieces its ∧ Xml.fromText ws t = .ok (some ((itemsBuilt t 0 its).head?.getD (.text [])))) ∨
      ((¬ ∃ its, TopLevel its ∧ qs = itemsPieces its) ∧ Xml.fromText ws t = .ok none)) := by
  have h := (C05_chunks_contiguous t).2.1
  obtain ⟨qs, h1, h2⟩ := xmlBuild_spec hws (supply_linked h.1 h.2 (longChunks_zero _ t) (cutsAligned_zero h.1)) h.1 hl
  refine ⟨qs, h1, ?_⟩
  rcases h2 with ⟨its, a, b, c⟩ | ⟨a, errs, b, _⟩
  · exact .inl ⟨its, a, b, by unfold Xml.fromText; rw [c]; rfl⟩
  · exact .inr ⟨a, by unfold Xml.fromText; rw [b]; rfl⟩

theorem fromText_items (hws : XmlSpaces ws) {its : List Item} (hp : AllProper its) (hl : blen (piecesText (itemsPieces its)) < 2 ^ 32) :
    Xml.fromText ws (piecesText (itemsPieces its)) =
      .ok (some ((itemsBuilt (piecesText (itemsPieces its)) 0 its).head?.getD (.text []))) := by
  have h := (C05_chunks_contiguous (piecesText (itemsPieces its))).2.1
  have hc : Cut (XmlToken ws) (piecesText (itemsPieces its)) (keyed (itemsPieces its)) := by
    simpa using cut_items hws its hp (rest := []) (qs := []) .nil
  have hpure := xmlBuild_items hws hc (allProper_topLevel hp) hl (supply_linked h.1 h.2 (longChunks_zero _ _) (cutsAligned_zero h.1)) h.1
  unfold Xml.fromText
  rw [hpure]
  rfl

/-- A text made of elements with nothing between the tags: its value is the first element, with its name, the elements in it,
and its place in the text, at any depth; only elements written as `<name/>` have lost their names. Without such elements
the value is right. The names in closing tags are not looked at.

Missing for C73: attributes, text, comments, instructions and blanks; see the theorems below. -/
theorem C73_elements_partial (hws : XmlSpaces ws) {it : Item} {its : List Item} (hp : AllProper (it :: its))
    (hl : blen (piecesText (itemsPieces (it :: its))) < 2 ^ 32) :
    Xml.fromText ws (piecesText (itemsPieces (it :: its))) = .ok (some (it.value (fun _ => []) 0)) ∧
      (it.Paired → Xml.fromText ws (piecesText (itemsPieces (it :: its))) = .ok (some (it.value id 0))) := by
  have h1 := fromText_items hws hp hl
  have h2 := built_values (t := piecesText (itemsPieces (it :: its))) (it :: its) hp [] [] (by simp)
  rw [blen_nil] at h2
  rw [h2, itemsValue] at h1
  exact ⟨h1, fun hpair => by rw [h1, ← paired_value it hpair]; rfl⟩

/-- What `to_string` writes is cut into the tokens meant: tags with names and quoted attributes, comments, sections and instructions
as one token each, nothing lost and nothing between them. -/
theorem C73_written (hws : XmlSpaces ws) {v : XmlVal} (hv : Tidy v) : Cut (XmlToken ws) (Xml.toText v) (keyed (meant v)) := by
  have := meant_cut hws v hv .nil (qs := [])
  simpa using this

/-! Where the code does not do what C73 says. -/

/-- Whatever the text is: a value that is built has elements only, without attributes, all the way down; or it is an empty
text. No text, comment, section, instruction or attribute is ever seen. -/
theorem C73_bare (hws : XmlSpaces ws) {t : Str} (hl : blen t < 2 ^ 32) :
    ∃ r, Xml.fromText ws t = .ok r ∧ ∀ v, r = some v → XmlBare v ∨ v = .text [] := by
  obtain ⟨qs, _, ⟨its, _, _, h⟩ | ⟨_, h⟩⟩ := fromText_cut hws hl
  · refine ⟨_, h, ?_⟩
    rintro v hv
    simp only [Option.some.injEq] at hv
    rw [← hv]
    have := builts_bare t its 0
    cases hb : itemsBuilt t 0 its with
    | nil => right; rfl
    | cons w ws => rw [hb] at this; left; exact this.1
  · exact ⟨_, h, by simp⟩

/-- A start tag with a blank behind its name, as before every attribute, is refused. -/
theorem C73_attribute (hws : XmlSpaces ws) {n rest : Str} {c : Char} (hn : XmlName n) (hc : ws c = true)
    (hl : blen ('<' :: (n ++ c :: rest)) < 2 ^ 32) : Xml.fromText ws ('<' :: (n ++ c :: rest)) = .ok none := by
  obtain ⟨qs, h1, ⟨its, h2, h3, _⟩ | ⟨_, h⟩⟩ := fromText_cut hws hl
  · exfalso
    obtain ⟨r1, e1, c1⟩ := cut_step h1 (by simp)
    rw [open_piece hws hn] at e1 c1
    obtain ⟨d, ds, hd, _⟩ := id hn
    obtain ⟨r2, e2, c2⟩ := cut_step c1 (by rw [hd]; simp)
    rw [xmlName_piece hws hn (by
      intro d hd
      simp at hd; subst hd
      cases hx : Xml.nameChar c with
      | false => rfl
      | true => have := hws.visible c (.inl hx); rw [hc] at this; cases this)] at e2 c2
    obtain ⟨r3, e3, c3⟩ := cut_step c2 (by simp)
    have hw : (xmlPiece ws (c :: rest)).1 = Xml.whitespace := by
      unfold xmlPiece
      rw [if_pos (by simp [hc])]
      rfl
    simp only [] at e3
    rw [hw] at e3
    rw [e1, e2, e3] at h3
    cases its with
    | nil => simp [itemsPieces] at h3
    | cons it its =>
      cases it with
      | other k m =>
        simp only [itemsPieces, Item.pieces, List.cons_append, List.cons.injEq, Prod.mk.injEq] at h3
        exact h2.1 h3.1.1.symm
      | empty m => simp [itemsPieces, Item.pieces, Xml.whitespace, Xml.slashRightAngle] at h3
      | pair m c e => simp [itemsPieces, Item.pieces, Xml.whitespace, Xml.rightAngle] at h3
  · exact h

/-- The name of the element that is built is what the text has behind its first byte, or nothing, wherever the element
stands; and its place begins at byte 0. -/
theorem C73_root_name (hws : XmlSpaces ws) {t n : Str} {as : List XmlAttr} {ks : List XmlVal} {a b : Nat} (hl : blen t < 2 ^ 32)
    (h : Xml.fromText ws t = .ok (some (.element n as ks a b))) :
    a = 0 ∧ (n = [] ∨ ∃ c rest, t = c :: (n ++ rest)) := by
  obtain ⟨qs, _, ⟨its, _, _, h'⟩ | ⟨_, h'⟩⟩ := fromText_cut hws hl
  · rw [h] at h'
    simp only [Except.ok.injEq, Option.some.injEq] at h'
    rename_i ht hq
    clear h ht hq
    induction its with
    | nil => simp [itemsBuilt] at h'
    | cons it its ih =>
      cases it with
      | other k m => rw [itemsBuilt] at h'; exact ih h'
      | empty m =>
        rw [itemsBuilt, Item.built] at h'
        simp at h'
        exact ⟨h'.2.2.2.1, .inl h'.1⟩
      | pair m c e =>
        rw [itemsBuilt, Item.built] at h'
        simp only [List.head?_cons, Option.getD_some, XmlVal.element.injEq] at h'
        refine ⟨h'.2.2.2.1, ?_⟩
        cases hg : strGet t (0 + 1) (0 + 1 + blen m) with
        | none => rw [hg] at h'; exact .inl h'.1
        | some x =>
          rw [hg] at h'
          obtain ⟨l, r, e1, e2, _⟩ := strGet_eq_some.mp hg
          have hx : n = x := h'.1
          right
          rcases l with _ | ⟨c, _ | ⟨d, l⟩⟩
          · simp at e2
          · exact ⟨c, r, by rw [e1, hx]; simp⟩
          · have h1 := utf8Size_pos c
            have h2 := utf8Size_pos d
            simp at e2
            omega
  · rw [h] at h'; simp at h'

/-- So an element behind an XML declaration or a comment has no name, or one that begins with `?` or `!`. -/
theorem C73_declaration (hws : XmlSpaces ws) {r n : Str} {x : Char} {as : List XmlAttr} {ks : List XmlVal} {a b : Nat}
    (hl : blen ('<' :: x :: r) < 2 ^ 32) (hx : Xml.nameStart x = false)
    (h : Xml.fromText ws ('<' :: x :: r) = .ok (some (.element n as ks a b))) : ¬ XmlName n := by
  rintro ⟨c, cs, rfl, hc, _⟩
  obtain ⟨_, h1 | ⟨c', rest, h1⟩⟩ := C73_root_name hws hl h
  · cases h1
  · simp at h1
    rw [← h1.2.1, hx] at hc
    cases hc

/-- No value with names as names are survives being written and parsed again, but the empty text. -/
theorem C73_roundtrip (hws : XmlSpaces ws) {v : XmlVal} (hn : Named v) (hv : v ≠ .text []) (hl : blen (Xml.toText v) < 2 ^ 32) :
    Xml.fromText ws (Xml.toText v) ≠ .ok (some v) := by
  intro he
  obtain ⟨r, h1, h2⟩ := C73_bare hws hl
  rw [he] at h1
  simp only [Except.ok.injEq] at h1
  rcases h2 v h1.symm with hb | hb
  · obtain ⟨w1, w2, w3⟩ := written v hb hn
    have hone : piecesText (itemsPieces [itemOf v]) = Xml.toText v := by rw [w1]; simp [itemsPieces]
    have := (C73_elements_partial hws (it := itemOf v) (its := []) ⟨w2, trivial⟩ (by rw [hone]; exact hl)).1
    rw [hone, he] at this
    simp only [Except.ok.injEq, Option.some.injEq] at this
    exact w3 0 this.symm
  · exact hv hb

/-- An apostrophe in the text of an element hides the rest of the document, so the document is refused. -/
theorem C73_apostrophe (hws : XmlSpaces ws) {n s : Str} (hn : XmlName n) (hs : '\'' ∉ s)
    (hl : blen ('<' :: (n ++ '>' :: '\'' :: s)) < 2 ^ 32) : Xml.fromText ws ('<' :: (n ++ '>' :: '\'' :: s)) = .ok none := by
  obtain ⟨qs, h1, ⟨its, h2, h3, _⟩ | ⟨_, h⟩⟩ := fromText_cut hws hl
  · exfalso
    obtain ⟨r1, e1, c1⟩ := cut_step h1 (by simp)
    rw [open_piece hws hn] at e1 c1
    obtain ⟨d, ds, hd, _⟩ := id hn
    obtain ⟨r2, e2, c2⟩ := cut_step c1 (by rw [hd]; simp)
    rw [xmlName_piece hws hn (by simp; decide)] at e2 c2
    obtain ⟨r3, e3, c3⟩ := cut_step c2 (by simp)
    rw [xmlPiece_close (hws.visible _ (.inr (by decide)))] at e3 c3
    obtain ⟨r4, e4, c4⟩ := cut_step c3 (by simp)
    have hap := xmlPiece_apostrophe (ws := ws) (hws.visible _ (.inr (by decide))) hs
    rw [List.append_nil] at hap
    rw [hap] at e4 c4
    have hr4 : r4 = [] := by
      simp only [] at c4
      have := c4.text
      cases r4 with
      | nil => rfl
      | cons q r4 =>
        generalize hk : keyed (q :: r4) = ps at c4
        generalize ht : ([] : Str) = t at c4
        cases c4 with
        | nil => simp [keyed] at hk
        | cons hm _ _ => exact absurd (List.append_eq_nil_iff.mp ht.symm).1 hm
    rw [e1, e2, e3, e4, hr4] at h3
    have hlen := congrArg List.length h3
    cases its with
    | nil => simp [itemsPieces] at h3
    | cons it its =>
      cases it with
      | other k m =>
        simp only [itemsPieces, Item.pieces, List.cons_append, List.cons.injEq, Prod.mk.injEq] at h3
        exact h2.1 h3.1.1.symm
      | empty m => simp [itemsPieces, Item.pieces] at h3
      | pair m c e => simp [itemsPieces, Item.pieces] at hlen; omega
  · exact h

end

/-! Non-trivial cases -/

def sampleItem : Item := .pair "a".toList [.pair "b".toList [] "b".toList, .pair "c:d".toList [.pair "e".toList [] "f".toList] "c".toList] "a".toList

example : piecesText (itemsPieces [sampleItem]) = "<a><b></b><c:d><e></f></c></a>".toList := by decide

theorem name_of {n : Str} (h : ∃ c cs, n = c :: cs ∧ Xml.nameStart c = true ∧ ∀ d ∈ cs, Xml.nameChar d = true) : XmlName n := h

theorem sampleItem_proper : AllProper [sampleItem] := by
  have h1 : ∀ c, Xml.nameStart c = true → XmlName [c] := fun c hc => ⟨c, [], rfl, hc, by simp⟩
  simp only [AllProper, sampleItem, Item.Proper, and_true, true_and]
  exact ⟨h1 _ (by decide), ⟨⟨h1 _ (by decide), h1 _ (by decide)⟩, ⟨'c', [':', 'd'], rfl, by decide, by decide⟩,
    ⟨h1 _ (by decide), h1 _ (by decide)⟩, h1 _ (by decide)⟩, h1 _ (by decide)⟩

example : Xml.fromText Char.isWhitespace "<a><b></b><c:d><e></f></c></a>".toList = .ok (some (.element "a".toList []
    [.element "b".toList [] [] 3 10, .element "c:d".toList [] [.element "e".toList [] [] 15 22] 10 26] 0 30)) := by
  have h := (C73_elements_partial sampleSpaces sampleItem_proper (by decide)).2
    (by simp [sampleItem, Item.Paired, AllPaired])
  have e : piecesText (itemsPieces [sampleItem]) = "<a><b></b><c:d><e></f></c></a>".toList := by decide
  rw [e] at h
  rw [h]
  rfl

example : Xml.fromText Char.isWhitespace "<a b='c'></a>".toList = .ok none :=
  C73_attribute (n := "a".toList) (c := ' ') (rest := "b='c'></a>".toList) sampleSpaces ⟨'a', [], rfl, by decide, by simp⟩ (by decide) (by decide)

example : Xml.fromText Char.isWhitespace "<a>'t</a>".toList = .ok none :=
  C73_apostrophe (n := "a".toList) (s := "t</a>".toList) sampleSpaces ⟨'a', [], rfl, by decide, by simp⟩ (by decide) (by decide)

/-- An element with attributes and a comment, a section and an instruction in it. -/
def sampleTidy : XmlVal := .element "a".toList [⟨"b".toList, "1".toList, 0, 0⟩, ⟨"c:d".toList, [], 0, 0⟩]
  [.comment "-".toList, .cdata "<a>".toList, .instruction "x".toList (some "y".toList) 0 0, .element "e".toList [] [] 0 0] 0 0

example : Xml.toText sampleTidy = "<a b=\"1\" c:d=\"\"><!-----><![CDATA[<a>]]><?x y?><e/></a>".toList := by decide +kernel

example : Tidy sampleTidy := by
  have h1 : ∀ c, Xml.nameStart c = true → XmlName [c] := fun c hc => ⟨c, [], rfl, hc, by simp⟩
  have key : ∀ (close body : Str), (∀ i ≤ body.length, i ≠ body.length → ¬ close <+: (body ++ close).drop i) → EndsFirst close body := by
    intro close body h a b hab
    by_contra hb
    have hlen := congrArg List.length hab
    have hbl : 0 < b.length := List.length_pos_iff.2 hb
    simp at hlen
    refine h a.length (by omega) (by omega) ⟨b, ?_⟩
    rw [hab, List.append_assoc, List.drop_left]
  simp only [sampleTidy, Tidy, AllTidy]
  refine ⟨h1 _ (by decide), ?_, key _ _ (by decide), key _ _ (by decide), key _ _ (by decide), ⟨h1 _ (by decide), by simp, trivial⟩, trivial⟩
  intro a ha
  simp only [List.mem_cons, List.not_mem_nil, or_false] at ha
  rcases ha with rfl | rfl
  · exact ⟨h1 _ (by decide), by decide⟩
  · exact ⟨⟨'c', [':', 'd'], rfl, by decide, by decide⟩, by decide⟩

/-- The element behind a declaration is called `?`. -/
theorem C73_declaration_witness : (Xml.fromText Char.isWhitespace "<?xml version='1.0'?><a></a>".toList).map (·.map elements) =
    .ok (some [("?".toList, 0, 7)]) := by decide +kernel

/-- Text before an element shifts its name: `b` is called `x`. -/
theorem C73_shift_witness : (Xml.fromText Char.isWhitespace "<a>xx<b></b></a>".toList).map (·.map elements) =
    .ok (some [("a".toList, 0, 14), ("x".toList, 3, 10)]) := by decide +kernel

/-- An element without content comes back without its name. -/
theorem C73_empty_witness : (Xml.fromText Char.isWhitespace (Xml.toText (.element "a".toList [] [] 0 4))).map (·.map elements) =
    .ok (some [([], 0, 4)]) := by decide +kernel

end Oaks.Props
