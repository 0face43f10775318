import Verif.Proofs.XmlTrip

/-! XML: the tokens of what is written. -/
namespace Oaks
open Spec

variable {ws : Char → Bool}

theorem endsFirst_upTo {close body : Str} (hc : close ≠ []) (h : EndsFirst close body) (rest : Str) :
    upTo close (body ++ close ++ rest) = some (body ++ close, rest) := by
  refine upTo_first hc ?_
  intro a b hab
  refine Nat.le_of_not_lt fun hlt => ?_
  have hp : a ++ close <+: body ++ close := List.prefix_of_prefix_length_le ⟨b, hab.symm⟩ ⟨rest, rfl⟩ (by simp; omega)
  obtain ⟨x, hx⟩ := hp
  have := h a x hx.symm
  subst this
  have := congrArg List.length hx
  simp at this
  omega

theorem between_ends {kind bad : Nat} {start close body : Str} (hc : close ≠ []) (h : EndsFirst close body) (rest : Str) :
    between kind bad start (upTo close) (start ++ body ++ close ++ rest) = (kind, start ++ body ++ close, rest) := by
  have e : start ++ body ++ close ++ rest = start ++ (body ++ close ++ rest) := by simp only [List.append_assoc]
  rw [between, e, List.drop_left, endsFirst_upTo hc h]
  simp only [List.take_left, List.append_assoc]

theorem xmlPiece_cdata (hw : ws '<' = false) {body rest : Str} (hb : EndsFirst "]]>".toList body) :
    xmlPiece ws ("<![CDATA[".toList ++ body ++ "]]>".toList ++ rest) = (Xml.cdata, "<![CDATA[".toList ++ body ++ "]]>".toList, rest) := by
  have e : "<![CDATA[".toList = '<' :: '!' :: '[' :: "CDATA[".toList := by decide
  have hb' := between_ends (kind := Xml.cdata) (bad := Xml.error) (start := "<![CDATA[".toList) (by decide) hb rest
  unfold xmlPiece
  rw [if_neg (by rw [e]; simp [hw]), if_neg (by
      rw [e, show "<!--".toList = '<' :: '!' :: '-' :: ['-'] by decide]
      rintro ⟨r, hr⟩
      simp at hr), if_neg (by
      unfold beginsAnyCase
      rw [e, show "<!DOCTYPE".toList = '<' :: '!' :: 'D' :: "OCTYPE".toList by decide]
      simp), if_pos ⟨body ++ "]]>".toList ++ rest, by simp only [List.append_assoc]⟩]
  exact hb'

theorem xmlPiece_instruction (hw : ws '<' = false) {body rest : Str} (hb : EndsFirst "?>".toList body) :
    xmlPiece ws ("<?".toList ++ body ++ "?>".toList ++ rest) = (Xml.instruction, "<?".toList ++ body ++ "?>".toList, rest) := by
  have e : "<?".toList = ['<', '?'] := by decide
  have hb' := between_ends (kind := Xml.instruction) (bad := Xml.error) (start := ['<', '?']) (by decide) hb rest
  rw [e]
  unfold xmlPiece
  have s : ['<', '?'] ++ body ++ "?>".toList ++ rest = '<' :: ('?' :: (body ++ "?>".toList ++ rest)) := by simp
  rw [s, if_neg (by simp [hw]), if_neg (fun h => by simpa using (comment_prefix h).2), if_neg (fun h => by simpa using (beginsAnyCase_two h).2),
    if_neg (fun h => by simpa using (cdata_prefix h).2), if_pos (two_prefix.mpr ⟨rfl, rfl⟩), ← s]
  exact hb'

theorem xmlPiece_quoted (hw : ws '"' = false) {s rest : Str} (hs : '"' ∉ s) :
    xmlPiece ws ('"' :: (s ++ '"' :: rest)) = (Xml.stringLiteral, '"' :: (s ++ ['"']), rest) := by
  have n1 : ∀ d : Char, '"' ≠ d → ∀ s, ¬ [d] <+: '"' :: s := fun d hd s h => hd (one_prefix.mp h).symm
  have n2 : ∀ d e : Char, '"' ≠ d → ∀ w s, ¬ d :: e :: w <+: '"' :: s := fun d e hd w s h => hd (long_prefix h).1
  rw [xmlPiece_plain hw (by decide), plainPiece, if_neg (n2 _ _ (by decide) _ _), if_neg (n1 _ (by decide) _),
    if_neg (n1 _ (by decide) _), if_neg (n2 _ _ (by decide) _ _), if_neg (n2 _ _ (by decide) _ _), if_neg (n1 _ (by decide) _),
    if_pos (one_prefix.mpr rfl)]
  have he : EndsFirst ['"'] s := by
    intro a b h
    by_contra hb
    have : '"' ∈ s := by
      obtain ⟨x, c, rfl⟩ : ∃ x c, b = x ++ [c] := ⟨_, _, (List.dropLast_concat_getLast hb).symm⟩
      rw [← List.append_assoc] at h
      have h' : s = a ++ ['"'] ++ x := (List.append_inj' h rfl).1
      rw [h']; simp
    exact hs this
  have := between_ends (kind := Xml.stringLiteral) (bad := Xml.stringLiteral) (start := ['"']) (by decide) he rest
  simpa using this

theorem xmlPiece_blank (hws : XmlSpaces ws) {n rest : Str} (hn : XmlName n) :
    xmlPiece ws (' ' :: (n ++ rest)) = (Xml.whitespace, [' '], n ++ rest) := by
  obtain ⟨c, cs, rfl, hc, _⟩ := hn
  have h1 := hws.space ' ' (.inl rfl)
  have h2 := hws.visible c (.inl (nameStart_nameChar hc))
  unfold xmlPiece
  rw [if_pos (by simp [h1])]
  simp [longest, h1, h2]

/-- One more piece in front. -/
theorem cut_front {k : Nat} {m rest : Str} {qs : List (Nat × Str)} (hm : m ≠ []) (hp : xmlPiece ws (m ++ rest) = (k, m, rest))
    (hc : Cut (XmlToken ws) rest (keyed qs)) : Cut (XmlToken ws) (m ++ rest) (keyed ((k, m) :: qs)) :=
  .cons hm ⟨k, rfl, hp⟩ hc

theorem name_ne {n : Str} (h : XmlName n) : n ≠ [] := by
  obtain ⟨c, cs, rfl, _⟩ := h
  simp

/-- The character that follows a name in what is written. -/
theorem attrs_head {as : List XmlAttr} {rest : Str} (hr : ∀ d, rest.head? = some d → Xml.nameChar d = false) :
    ∀ d, (Xml.attrsText as ++ rest).head? = some d → Xml.nameChar d = false := by
  cases as with
  | nil => exact hr
  | cons a as =>
    intro d hd
    simp [Xml.attrsText] at hd
    subst hd
    decide

theorem attrs_cut (hws : XmlSpaces ws) : ∀ (as : List XmlAttr) {rest : Str} {qs : List (Nat × Str)},
    (∀ a ∈ as, XmlName a.name ∧ '"' ∉ a.value) → Cut (XmlToken ws) rest (keyed qs) →
    Cut (XmlToken ws) (Xml.attrsText as ++ rest) (keyed (as.flatMap attrPieces ++ qs))
  | [], _, _, _, hc => hc
  | a :: as, rest, qs, h, hc => by
    obtain ⟨h1, h2⟩ := h a List.mem_cons_self
    have ih := attrs_cut hws as (fun b hb => h b (List.mem_cons_of_mem _ hb)) hc
    have c1 := cut_front (m := '"' :: (a.value ++ ['"'])) (by simp)
      (by simpa using xmlPiece_quoted (hws.visible _ (.inr (by decide))) (rest := Xml.attrsText as ++ rest) h2) ih
    have c2 := cut_front (m := ['=']) (by simp) (xmlPiece_equals (hws.visible _ (.inr (by decide)))) c1
    have c3 := cut_front (m := a.name) (name_ne h1) (xmlName_piece hws h1 (by simp; decide)) c2
    have c4 := cut_front (m := [' ']) (by simp) (xmlPiece_blank (n := a.name) hws h1) c3
    simpa [Xml.attrsText, attrPieces] using c4

mutual
theorem meant_cut (hws : XmlSpaces ws) : ∀ (v : XmlVal) {rest : Str} {qs : List (Nat × Str)}, Tidy v →
    Cut (XmlToken ws) rest (keyed qs) → Cut (XmlToken ws) (Xml.toText v ++ rest) (keyed (meant v ++ qs))
  | .text _, _, _, h, _ => by simp [Tidy] at h
  | .comment s, rest, qs, h, hc => by
    rw [Tidy] at h
    have := cut_front (m := "<!--".toList ++ s ++ "-->".toList) (by simp) (xmlPiece_comment (hws.visible _ (.inr (by decide))) h) hc
    rw [Xml.toText, meant]
    exact this
  | .cdata s, rest, qs, h, hc => by
    rw [Tidy] at h
    have := cut_front (m := "<![CDATA[".toList ++ s ++ "]]>".toList) (by simp) (xmlPiece_cdata (hws.visible _ (.inr (by decide))) h) hc
    rw [Xml.toText, meant]
    exact this
  | .instruction t none _ _, rest, qs, h, hc => by
    rw [Tidy] at h
    have := cut_front (m := "<?".toList ++ t ++ "?>".toList) (by simp) (xmlPiece_instruction (hws.visible _ (.inr (by decide))) h) hc
    rw [Xml.toText, meant]
    simpa [Xml.instructionText] using this
  | .instruction t (some d) _ _, rest, qs, h, hc => by
    rw [Tidy] at h
    have := cut_front (m := "<?".toList ++ (t ++ ' ' :: d) ++ "?>".toList) (by simp)
      (xmlPiece_instruction (hws.visible _ (.inr (by decide))) h) hc
    rw [Xml.toText, meant]
    simpa [Xml.instructionText] using this
  | .fragment vs, rest, qs, h, hc => by
    rw [Tidy] at h
    rw [Xml.toText, meant]
    exact allMeant_cut hws vs h hc
  | .element n as [] _ _, rest, qs, h, hc => by
    rw [Tidy] at h
    obtain ⟨h1, h2, _⟩ := h
    have c1 := cut_front (m := ['/', '>']) (by simp) (xmlPiece_empty (hws.visible _ (.inr (by decide)))) hc
    have c2 := attrs_cut hws as h2 c1
    have c3 := cut_front (m := n) (name_ne h1) (xmlName_piece hws h1 (attrs_head (by simp; decide))) c2
    have c4 := cut_front (m := ['<']) (by simp) (open_piece (n := n) hws h1) c3
    rw [Xml.toText, meant]
    simpa [Xml.elementText] using c4
  | .element n as (k :: ks) _ _, rest, qs, h, hc => by
    rw [Tidy] at h
    obtain ⟨h1, h2, h3⟩ := h
    rw [AllTidy] at h3
    have c1 := cut_front (m := ['>']) (by simp) (xmlPiece_close (hws.visible _ (.inr (by decide)))) hc
    have c2 := cut_front (m := n) (name_ne h1) (xmlName_piece hws h1 (by simp; decide)) c1
    have c3 := cut_front (m := ['<', '/']) (by simp) (xmlPiece_end (hws.visible _ (.inr (by decide)))) c2
    have c4 := meant_cut hws k h3.1 (allMeant_cut hws ks h3.2 c3)
    have c5 := cut_front (m := ['>']) (by simp) (xmlPiece_close (hws.visible _ (.inr (by decide)))) c4
    have c6 := attrs_cut hws as h2 c5
    have c7 := cut_front (m := n) (name_ne h1) (xmlName_piece hws h1 (attrs_head (by simp; decide))) c6
    have c8 := cut_front (m := ['<']) (by simp) (open_piece (n := n) hws h1) c7
    rw [Xml.toText, meant]
    simpa [Xml.elementText, Xml.kidsText] using c8
theorem allMeant_cut (hws : XmlSpaces ws) : ∀ (vs : List XmlVal) {rest : Str} {qs : List (Nat × Str)}, AllTidy vs →
    Cut (XmlToken ws) rest (keyed qs) → Cut (XmlToken ws) (Xml.kidsText vs ++ rest) (keyed (allMeant vs ++ qs))
  | [], _, _, _, hc => hc
  | v :: vs, rest, qs, h, hc => by
    rw [AllTidy] at h
    have := meant_cut hws v h.1 (allMeant_cut hws vs h.2 hc)
    rw [Xml.kidsText, allMeant]
    simpa using this
end

end Oaks
