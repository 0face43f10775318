import Verif.Proofs.XmlLex

/-! XML: the first piece of a text, forwards and backwards. -/
namespace Oaks
open Spec

theorem upper_low {a e : Char} (he : e = a.toUpper) (h : e.val < 65) : a = e := by
  by_cases hl : a.val ≥ 'a'.val ∧ a.val ≤ 'z'.val
  · exfalso
    rw [Char.toUpper, dif_pos hl] at he
    have e1 : 'a'.val.toNat = 97 := rfl
    have e2 : 'z'.val.toNat = 122 := rfl
    have h1 := UInt32.le_iff_toNat_le.mp hl.1
    have h2 := UInt32.le_iff_toNat_le.mp hl.2
    rw [e1] at h1
    rw [e2] at h2
    have h3 := UInt32.lt_iff_toNat_lt.mp h
    rw [he] at h3
    simp at h3
    have : a.val.toNat = a.toNat := rfl
    omega
  · rw [Char.toUpper, dif_neg hl] at he; exact he.symm

theorem beginsAnyCase_two {c : Char} {s : Str} (h : beginsAnyCase "<!DOCTYPE".toList (c :: s)) : c = '<' ∧ s.head? = some '!' := by
  unfold beginsAnyCase at h
  have e : "<!DOCTYPE".toList = '<' :: '!' :: "DOCTYPE".toList := by decide
  rw [e] at h
  cases s with
  | nil => simp at h
  | cons d s =>
    simp only [List.length_cons, List.take_succ_cons, List.map_cons, List.cons.injEq] at h
    exact ⟨upper_low h.1 (by decide), by simpa using upper_low h.2.1 (by decide)⟩

theorem long_prefix {c d e : Char} {w s : Str} (h : d :: e :: w <+: c :: s) : c = d ∧ s.head? = some e := by
  obtain ⟨r, hr⟩ := h
  simp only [List.cons_append, List.cons.injEq] at hr
  refine ⟨hr.1.symm, ?_⟩
  rw [← hr.2]; rfl

theorem comment_prefix {c : Char} {s : Str} (h : "<!--".toList <+: c :: s) : c = '<' ∧ s.head? = some '!' := by
  have e : "<!--".toList = '<' :: '!' :: "--".toList := by decide
  rw [e] at h
  exact long_prefix h

theorem cdata_prefix {c : Char} {s : Str} (h : "<![CDATA[".toList <+: c :: s) : c = '<' ∧ s.head? = some '!' := by
  have e : "<![CDATA[".toList = '<' :: '!' :: "[CDATA[".toList := by decide
  rw [e] at h
  exact long_prefix h

section
variable {ws : Char → Bool}

/-- A piece that does not begin with `<`. -/
def plainPiece (s : Str) : Nat × Str × Str :=
  if ['/', '>'] <+: s then mark Xml.slashRightAngle 2 s
  else if ['>'] <+: s then mark Xml.rightAngle 1 s
  else if ['='] <+: s then mark Xml.equals 1 s
  else if ['&', '#', 'x'] <+: s then refPiece Xml.characterReference 3 Json.isHexDigit s
  else if ['&', '#'] <+: s then refPiece Xml.characterReference 2 Json.isDigit s
  else if ['&'] <+: s then refPiece Xml.entityReference 1 Xml.isAlnum s
  else if ['"'] <+: s then between Xml.stringLiteral Xml.stringLiteral ['"'] (upTo ['"']) s
  else if ['\''] <+: s then between Xml.stringLiteral Xml.stringLiteral ['\''] (upTo ['\'']) s
  else if (s.head?.map Xml.nameStart).getD false then longest Xml.identifier 1 Xml.nameChar s
  else if ['!'] <+: s then mark Xml.exclamation 1 s
  else if ['?'] <+: s then mark Xml.question 1 s
  else if [';'] <+: s then mark Xml.semicolon 1 s
  else longest Xml.text 0 (fun c => !Xml.textStop c) s

theorem xmlPiece_plain {c : Char} {s : Str} (hw : ws c = false) (hc : c ≠ '<') : xmlPiece ws (c :: s) = plainPiece (c :: s) := by
  unfold xmlPiece
  rw [if_neg (by simp [hw]), if_neg (fun h => hc (comment_prefix h).1), if_neg (fun h => hc (beginsAnyCase_two h).1),
    if_neg (fun h => hc (cdata_prefix h).1), if_neg (fun h => hc (long_prefix h).1), if_neg (fun h => hc (long_prefix h).1),
    if_neg (fun h => hc (one_prefix.mp h).symm)]
  rfl

theorem xmlPiece_open {s : Str} (hw : ws '<' = false) (h1 : s.head? ≠ some '!') (h2 : s.head? ≠ some '?') (h3 : s.head? ≠ some '/') :
    xmlPiece ws ('<' :: s) = (Xml.leftAngle, ['<'], s) := by
  unfold xmlPiece
  rw [if_neg (by simp [hw]), if_neg (fun h => h1 (comment_prefix h).2), if_neg (fun h => h1 (beginsAnyCase_two h).2),
    if_neg (fun h => h1 (cdata_prefix h).2), if_neg (fun h => h2 (long_prefix h).2), if_neg (fun h => h3 (long_prefix h).2),
    if_pos (one_prefix.mpr rfl)]
  simp [mark]

theorem xmlPiece_end {s : Str} (hw : ws '<' = false) : xmlPiece ws ('<' :: '/' :: s) = (Xml.leftAngleSlash, ['<', '/'], s) := by
  unfold xmlPiece
  rw [if_neg (by simp [hw]), if_neg (fun h => by simpa using (comment_prefix h).2), if_neg (fun h => by simpa using (beginsAnyCase_two h).2),
    if_neg (fun h => by simpa using (cdata_prefix h).2), if_neg (fun h => by simpa using (long_prefix h).2),
    if_pos (two_prefix.mpr ⟨rfl, rfl⟩)]
  simp [mark]

theorem xmlPiece_empty {s : Str} (hw : ws '/' = false) : xmlPiece ws ('/' :: '>' :: s) = (Xml.slashRightAngle, ['/', '>'], s) := by
  rw [xmlPiece_plain hw (by decide), plainPiece, if_pos (two_prefix.mpr ⟨rfl, rfl⟩)]
  simp [mark]

theorem xmlPiece_close {s : Str} (hw : ws '>' = false) : xmlPiece ws ('>' :: s) = (Xml.rightAngle, ['>'], s) := by
  rw [xmlPiece_plain hw (by decide), plainPiece, if_neg (fun h => by simpa using (long_prefix h).1), if_pos (one_prefix.mpr rfl)]
  simp [mark]

theorem xmlPiece_equals {s : Str} (hw : ws '=' = false) : xmlPiece ws ('=' :: s) = (Xml.equals, ['='], s) := by
  rw [xmlPiece_plain hw (by decide), plainPiece, if_neg (fun h => by simpa using (long_prefix h).1), if_neg (by simp), if_pos (one_prefix.mpr rfl)]
  simp [mark]

theorem nameStart_ne {c d : Char} (hc : Xml.nameStart c = true) (hd : Xml.nameStart d = false) : c ≠ d := by
  rintro rfl; rw [hc] at hd; cases hd

theorem xmlPiece_name {c : Char} {cs rest : Str} (hw : ws c = false) (hc : Xml.nameStart c = true)
    (hcs : ∀ d ∈ cs, Xml.nameChar d = true) (hr : ∀ d, rest.head? = some d → Xml.nameChar d = false) :
    xmlPiece ws (c :: cs ++ rest) = (Xml.identifier, c :: cs, rest) := by
  have n : ∀ d : Char, Xml.nameStart d = false → c ≠ d := fun d => nameStart_ne hc
  have n1 : ∀ d : Char, Xml.nameStart d = false → ∀ s, ¬ [d] <+: c :: s := fun d hd s h => n d hd (one_prefix.mp h).symm
  have n2 : ∀ d e : Char, Xml.nameStart d = false → ∀ w s, ¬ d :: e :: w <+: c :: s := fun d e hd w s h => n d hd (long_prefix h).1
  rw [List.cons_append, xmlPiece_plain hw (n _ (by decide)), plainPiece, if_neg (n2 _ _ (by decide) _ _), if_neg (n1 _ (by decide) _),
    if_neg (n1 _ (by decide) _), if_neg (n2 _ _ (by decide) _ _), if_neg (n2 _ _ (by decide) _ _), if_neg (n1 _ (by decide) _),
    if_neg (n1 _ (by decide) _), if_neg (n1 _ (by decide) _), if_pos (by simpa using hc)]
  have e1 : (cs ++ rest).takeWhile Xml.nameChar = cs := by
    rw [List.takeWhile_append_of_pos hcs]
    cases rest with
    | nil => simp
    | cons d rest => rw [List.takeWhile_cons_of_neg (by simp [hr d rfl])]; simp
  have e2 : (cs ++ rest).dropWhile Xml.nameChar = rest := by
    rw [List.dropWhile_append_of_pos hcs]
    cases rest with
    | nil => simp
    | cons d rest => rw [List.dropWhile_cons_of_neg (by simp [hr d rfl])]
  simp [longest, e1, e2]

theorem xmlPiece_comment (hw : ws '<' = false) {body rest : Str}
    (hb : ∀ a b, body ++ "-->".toList = a ++ "-->".toList ++ b → b = []) :
    xmlPiece ws ("<!--".toList ++ body ++ "-->".toList ++ rest) = (Xml.comment, "<!--".toList ++ body ++ "-->".toList, rest) := by
  unfold xmlPiece
  have h0 : ¬ (("<!--".toList ++ body ++ "-->".toList ++ rest).takeWhile ws ≠ []) := by
    have e : "<!--".toList = '<' :: "!--".toList := by decide
    rw [e]; simp [hw]
  have e4 : "<!--".toList.length = 4 := by decide
  have hd : ("<!--".toList ++ body ++ "-->".toList ++ rest).drop "<!--".toList.length = body ++ "-->".toList ++ rest := by
    rw [List.append_assoc, List.append_assoc, List.drop_left, List.append_assoc]
  have ht : ("<!--".toList ++ body ++ "-->".toList ++ rest).take "<!--".toList.length = "<!--".toList := by
    rw [List.append_assoc, List.append_assoc, List.take_left]
  rw [if_neg h0, if_pos ⟨body ++ "-->".toList ++ rest, by simp only [List.append_assoc]⟩, between, hd, ht, upTo_first (by decide)]
  · simp only [List.append_assoc]
  · intro a b hab
    refine Nat.le_of_not_lt fun hlt => ?_
    have hp : a ++ "-->".toList <+: body ++ "-->".toList :=
      List.prefix_of_prefix_length_le ⟨b, hab.symm⟩ ⟨rest, rfl⟩ (by simp; omega)
    obtain ⟨x, hx⟩ := hp
    have := hb a x hx.symm
    subst this
    have := congrArg List.length hx
    simp at this
    omega

theorem xmlPiece_apostrophe (hw : ws '\'' = false) {s : Str} (hs : '\'' ∉ s) :
    xmlPiece ws ('\'' :: s ++ []) = (Xml.stringLiteral, '\'' :: s, []) := by
  have n1 : ∀ d : Char, '\'' ≠ d → ∀ s, ¬ [d] <+: '\'' :: s := fun d hd s h => hd (one_prefix.mp h).symm
  have n2 : ∀ d e : Char, '\'' ≠ d → ∀ w s, ¬ d :: e :: w <+: '\'' :: s := fun d e hd w s h => hd (long_prefix h).1
  rw [List.append_nil, xmlPiece_plain hw (by decide), plainPiece, if_neg (n2 _ _ (by decide) _ _), if_neg (n1 _ (by decide) _),
    if_neg (n1 _ (by decide) _), if_neg (n2 _ _ (by decide) _ _), if_neg (n2 _ _ (by decide) _ _), if_neg (n1 _ (by decide) _),
    if_neg (n1 _ (by decide) _), if_pos (one_prefix.mpr rfl)]
  have : upTo ['\''] s = none := upTo_never (fun a b e => hs (by rw [e]; simp))
  simp [between, this]

/-! ### Backwards -/

/-- What the kind of a piece says about its text and what follows. -/
structure PieceFacts (k : Nat) (m rest : Str) : Prop where
  opens : k = Xml.leftAngle → m = ['<'] ∧ rest.head? ≠ some '?'
  ends : k = Xml.leftAngleSlash → m = ['<', '/']
  empties : k = Xml.slashRightAngle → m = ['/', '>']
  closes : k = Xml.rightAngle → m = ['>']
  asks : k = Xml.question → m = ['?']
  names : k = Xml.identifier → (∃ c cs, m = c :: cs ∧ Xml.nameStart c = true) ∧ ∀ d, rest.head? = some d → Xml.nameChar d = false

/-- None of the kinds the parser looks at. -/
def Dull (k : Nat) : Prop := k ≠ Xml.leftAngle ∧ k ≠ Xml.leftAngleSlash ∧ k ≠ Xml.slashRightAngle ∧ k ≠ Xml.rightAngle ∧
  k ≠ Xml.question ∧ k ≠ Xml.identifier

instance (k : Nat) : Decidable (Dull k) := inferInstanceAs (Decidable (_ ∧ _))

theorem Dull.facts {k : Nat} (h : Dull k) (m rest : Str) : PieceFacts k m rest :=
  ⟨fun e => absurd e h.1, fun e => absurd e h.2.1, fun e => absurd e h.2.2.1, fun e => absurd e h.2.2.2.1, fun e => absurd e h.2.2.2.2.1,
    fun e => absurd e h.2.2.2.2.2⟩

theorem between_facts {k bad : Nat} (hk : Dull k) (hb : Dull bad) (start : Str) (stop : Str → Option (Str × Str)) (s : Str) :
    PieceFacts (between k bad start stop s).1 (between k bad start stop s).2.1 (between k bad start stop s).2.2 := by
  unfold between
  split
  · exact hk.facts _ _
  · exact hb.facts _ _

theorem refPiece_facts {k : Nat} (hk : Dull k) (n : Nat) (p : Char → Bool) (s : Str) :
    PieceFacts (refPiece k n p s).1 (refPiece k n p s).2.1 (refPiece k n p s).2.2 := by
  have he : Dull Xml.error := by decide
  unfold refPiece
  simp only []
  split
  · split
    · exact he.facts _ _
    · exact hk.facts _ _
  · exact he.facts _ _

theorem mark_facts {k n : Nat} {m s : Str} (hn : n = m.length) (hm : m <+: s) (h : ∀ r, s = m ++ r → PieceFacts k m r) :
    PieceFacts (mark k n s).1 (mark k n s).2.1 (mark k n s).2.2 := by
  obtain ⟨r, rfl⟩ := hm
  subst hn
  simpa [mark] using h r rfl

theorem ite_facts {c : Prop} [Decidable c] {a b : Nat × Str × Str} (ha : c → PieceFacts a.1 a.2.1 a.2.2)
    (hb : ¬ c → PieceFacts b.1 b.2.1 b.2.2) :
    PieceFacts (if c then a else b).1 (if c then a else b).2.1 (if c then a else b).2.2 := by
  by_cases h : c
  · rw [if_pos h]; exact ha h
  · rw [if_neg h]; exact hb h

theorem xmlPiece_facts (s : Str) : PieceFacts (xmlPiece ws s).1 (xmlPiece ws s).2.1 (xmlPiece ws s).2.2 := by
  unfold xmlPiece
  refine ite_facts (fun _ => Dull.facts (k := Xml.whitespace) (by decide) _ _) fun _ => ?_
  refine ite_facts (fun _ => between_facts (by decide) (by decide) _ _ _) fun _ => ?_
  refine ite_facts (fun _ => between_facts (by decide) (by decide) _ _ _) fun _ => ?_
  refine ite_facts (fun _ => between_facts (by decide) (by decide) _ _ _) fun _ => ?_
  refine ite_facts (fun _ => between_facts (by decide) (by decide) _ _ _) fun h5 => ?_
  refine ite_facts (fun h => mark_facts rfl h fun r hr => ⟨?_, ?_, ?_, ?_, ?_, ?_⟩) fun _ => ?_
  any_goals first | (intro; rfl) | (intro e; exact absurd e (by decide))
  refine ite_facts (fun h => mark_facts rfl h fun r hr => ⟨?_, ?_, ?_, ?_, ?_, ?_⟩) fun _ => ?_
  · intro _
    refine ⟨rfl, fun hq => h5 ?_⟩
    rw [hr]; exact two_prefix.mpr ⟨rfl, hq⟩
  any_goals (intro e; exact absurd e (by decide))
  refine ite_facts (fun h => mark_facts rfl h fun r hr => ⟨?_, ?_, ?_, ?_, ?_, ?_⟩) fun _ => ?_
  any_goals first | (intro; rfl) | (intro e; exact absurd e (by decide))
  refine ite_facts (fun h => mark_facts rfl h fun r hr => ⟨?_, ?_, ?_, ?_, ?_, ?_⟩) fun _ => ?_
  any_goals first | (intro; rfl) | (intro e; exact absurd e (by decide))
  refine ite_facts (fun _ => Dull.facts (k := Xml.equals) (by decide) _ _) fun _ => ?_
  refine ite_facts (fun _ => refPiece_facts (by decide) _ _ _) fun _ => ?_
  refine ite_facts (fun _ => refPiece_facts (by decide) _ _ _) fun _ => ?_
  refine ite_facts (fun _ => refPiece_facts (by decide) _ _ _) fun _ => ?_
  refine ite_facts (fun _ => between_facts (by decide) (by decide) _ _ _) fun _ => ?_
  refine ite_facts (fun _ => between_facts (by decide) (by decide) _ _ _) fun _ => ?_
  refine ite_facts (fun h16 => ⟨fun e => absurd (a := Xml.identifier = _) e (by decide), fun e => absurd (a := Xml.identifier = _) e (by decide),
    fun e => absurd (a := Xml.identifier = _) e (by decide), fun e => absurd (a := Xml.identifier = _) e (by decide),
    fun e => absurd (a := Xml.identifier = _) e (by decide), ?_⟩) fun _ => ?_
  · intro _
    cases s with
    | nil => simp at h16
    | cons c s =>
      refine ⟨⟨c, s.takeWhile Xml.nameChar, by simp [longest], by simpa using h16⟩, ?_⟩
      intro d hd
      have hd' : (s.dropWhile Xml.nameChar).head? = some d := by simpa [longest] using hd
      have := List.head?_dropWhile_not Xml.nameChar s
      rw [hd'] at this
      simpa using this
  refine ite_facts (fun _ => Dull.facts (k := Xml.exclamation) (by decide) _ _) fun _ => ?_
  refine ite_facts (fun h => mark_facts rfl h fun r hr => ⟨?_, ?_, ?_, ?_, ?_, ?_⟩) fun _ => ?_
  any_goals first | (intro; rfl) | (intro e; exact absurd e (by decide))
  refine ite_facts (fun _ => Dull.facts (k := Xml.semicolon) (by decide) _ _) fun _ => ?_
  exact Dull.facts (k := Xml.text) (by decide) _ _

theorem xmlToken_facts {k : Nat} {m rest : Str} (h : XmlToken ws (some k) m rest) : PieceFacts k m rest := by
  obtain ⟨k', hk, he⟩ := h
  cases hk
  have := xmlPiece_facts (ws := ws) (m ++ rest)
  rwa [he] at this

end

end Oaks
