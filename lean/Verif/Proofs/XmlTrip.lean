import Verif.Proofs.XmlBuild

/-! XML: documents of elements only; writing and reading back. -/
namespace Oaks
open Spec

section
variable {ws : Char → Bool}

theorem cut_step {t : Str} {qs : List (Nat × Str)} (h : Cut (XmlToken ws) t (keyed qs)) (ht : t ≠ []) :
    ∃ r, qs = ((xmlPiece ws t).1, (xmlPiece ws t).2.1) :: r ∧ Cut (XmlToken ws) (xmlPiece ws t).2.2 (keyed r) := by
  generalize hp : keyed qs = ps at h
  cases h with
  | nil => exact absurd rfl ht
  | @cons k m rest ps hm hk hr =>
    obtain ⟨kind, rfl, he⟩ := hk
    rw [he]
    cases qs with
    | nil => simp [keyed] at hp
    | cons q qs =>
      simp only [keyed, List.map_cons, List.cons.injEq, Prod.mk.injEq, Option.some.injEq] at hp
      obtain ⟨⟨h1, h2⟩, h3⟩ := hp
      refine ⟨qs, ?_, ?_⟩
      · rw [← h1, ← h2]
      · rw [keyed, h3]; exact hr

theorem xmlName_piece (hws : XmlSpaces ws) {n rest : Str} (hn : XmlName n) (hr : ∀ d, rest.head? = some d → Xml.nameChar d = false) :
    xmlPiece ws (n ++ rest) = (Xml.identifier, n, rest) := by
  obtain ⟨c, cs, rfl, hc, hcs⟩ := hn
  exact xmlPiece_name (hws.visible c (.inl (nameStart_nameChar hc))) hc hcs hr

theorem open_piece (hws : XmlSpaces ws) {n rest : Str} (hn : XmlName n) :
    xmlPiece ws ('<' :: (n ++ rest)) = (Xml.leftAngle, ['<'], n ++ rest) := by
  obtain ⟨c, cs, rfl, hc, _⟩ := hn
  have ne : ∀ d : Char, Xml.nameStart d = false → (c :: cs ++ rest).head? ≠ some d := by
    intro d hd he
    simp at he
    exact nameStart_ne hc hd he
  exact xmlPiece_open (hws.visible _ (.inr (by decide))) (ne _ (by decide)) (ne _ (by decide)) (ne _ (by decide))

/-- Elements are cut into their tokens. -/
theorem cut_cons {t m rest : Str} {k : Nat} {qs : List (Nat × Str)} (ht : t = m ++ rest) (hm : m ≠ []) (hp : xmlPiece ws t = (k, m, rest))
    (h : Cut (XmlToken ws) rest (keyed qs)) : Cut (XmlToken ws) t (keyed ((k, m) :: qs)) := by
  subst ht
  exact .cons hm ⟨k, rfl, hp⟩ h

mutual
theorem cut_item (hws : XmlSpaces ws) : ∀ (it : Item), it.Proper → ∀ {rest : Str} {qs : List (Nat × Str)}, Cut (XmlToken ws) rest (keyed qs) →
    Cut (XmlToken ws) (piecesText it.pieces ++ rest) (keyed (it.pieces ++ qs))
  | .other _ _, h, _, _, _ => by simp [Item.Proper] at h
  | .empty n, h, rest, qs, hc => by
    have hn : XmlName n := by simpa [Item.Proper] using h
    have hn0 : n ≠ [] := by obtain ⟨c, cs, rfl, _⟩ := hn; simp
    simp only [Item.pieces, piecesText_cons, piecesText_nil, List.append_nil, List.cons_append, List.nil_append, List.append_assoc]
    refine cut_cons (m := ['<']) rfl (by simp) (open_piece hws hn) ?_
    refine cut_cons (m := n) rfl hn0 (xmlName_piece hws hn (by simp; decide)) ?_
    exact cut_cons (m := ['/', '>']) rfl (by simp) (xmlPiece_empty (hws.visible _ (.inr (by decide)))) hc
  | .pair n c e, h, rest, qs, hc => by
    obtain ⟨hn, hi, he⟩ : XmlName n ∧ AllProper c ∧ XmlName e := by simpa [Item.Proper] using h
    have hn0 : n ≠ [] := by obtain ⟨c, cs, rfl, _⟩ := hn; simp
    have he0 : e ≠ [] := by obtain ⟨c, cs, rfl, _⟩ := he; simp
    simp only [Item.pieces, piecesText_cons, piecesText_nil, piecesText_append, List.append_nil, List.cons_append, List.nil_append, List.append_assoc]
    refine cut_cons (m := ['<']) rfl (by simp) (open_piece hws hn) ?_
    refine cut_cons (m := n) rfl hn0 (xmlName_piece hws hn (by simp; decide)) ?_
    refine cut_cons (m := ['>']) rfl (by simp) (xmlPiece_close (hws.visible _ (.inr (by decide)))) ?_
    refine cut_items hws c hi ?_
    refine cut_cons (m := ['<', '/']) rfl (by simp) (xmlPiece_end (hws.visible _ (.inr (by decide)))) ?_
    refine cut_cons (m := e) rfl he0 (xmlName_piece hws he (by simp; decide)) ?_
    exact cut_cons (m := ['>']) rfl (by simp) (xmlPiece_close (hws.visible _ (.inr (by decide)))) hc
theorem cut_items (hws : XmlSpaces ws) : ∀ (its : List Item), AllProper its → ∀ {rest : Str} {qs : List (Nat × Str)}, Cut (XmlToken ws) rest (keyed qs) →
    Cut (XmlToken ws) (piecesText (itemsPieces its) ++ rest) (keyed (itemsPieces its ++ qs))
  | [], _, rest, qs, hc => by simpa [itemsPieces] using hc
  | it :: its, h, rest, qs, hc => by
    have := cut_item hws it h.1 (cut_items hws its h.2 hc)
    simpa [itemsPieces] using this
end

mutual
theorem proper_inner : ∀ it : Item, it.Proper → it.Inner
  | .other _ _, h => by simp [Item.Proper] at h
  | .empty _, _ => trivial
  | .pair n c e, h => by
    rw [Item.Proper] at h
    rw [Item.Inner]
    exact allProper_inner c h.2.1
theorem allProper_inner : ∀ its : List Item, AllProper its → AllInner its
  | [], _ => trivial
  | it :: its, h => ⟨proper_inner it h.1, allProper_inner its h.2⟩
end

theorem Spec.Item.Proper.isElement {it : Item} (h : it.Proper) : it.IsElement := by
  cases it with
  | other => simp [Item.Proper] at h
  | _ => trivial

theorem allProper_topLevel {its : List Item} (h : AllProper its) : TopLevel its := by
  induction its with
  | nil => trivial
  | cons it its ih => exact (topLevel_cons h.1.isElement its).mpr ⟨proper_inner it h.1, ih h.2⟩

theorem itemsBuilt_cons {it : Item} (h : it.IsElement) (t : Str) (o : Nat) (its : List Item) :
    itemsBuilt t o (it :: its) = it.built t o :: itemsBuilt t (o + it.len) its := by
  cases it with
  | other => exact h.elim
  | _ => rw [itemsBuilt]

mutual
theorem proper_len : ∀ it : Item, it.Proper → it.len = blen (piecesText it.pieces)
  | .other _ _, h => by simp [Item.Proper] at h
  | .empty n, _ => by simp [Item.len, Item.pieces, mark_sizes]; omega
  | .pair n c e, h => by
    rw [Item.Proper] at h
    have := allProper_len c h.2.1
    simp [Item.len, Item.pieces, mark_sizes]
    omega
theorem allProper_len : ∀ its : List Item, AllProper its → itemsLen its = blen (piecesText (itemsPieces its))
  | [], _ => by simp [itemsLen, itemsPieces]
  | it :: its, h => by
    have h1 := proper_len it h.1
    have h2 := allProper_len its h.2
    simp [itemsLen, itemsPieces]
    omega
end

mutual
theorem built_value {t : Str} : ∀ it : Item, it.Proper → ∀ (l r : Str), t = l ++ piecesText it.pieces ++ r →
    it.built t (blen l) = it.value (fun _ => []) (blen l)
  | .other _ _, h, _, _, _ => by simp [Item.Proper] at h
  | .empty n, _, l, r, _ => by simp [Item.built, Item.value]
  | .pair n c e, h, l, r, ht => by
    rw [Item.Proper] at h
    rw [Item.built, Item.value]
    simp [Item.pieces] at ht
    have h1 : strGet t (blen l + 1) (blen l + 1 + blen n) = some n :=
      strGet_eq_some.mpr ⟨l ++ ['<'], '>' :: (piecesText (itemsPieces c) ++ '<' :: '/' :: (e ++ '>' :: r)), by rw [ht]; simp, by simp [mark_sizes],
        by simp [mark_sizes]⟩
    have h2 := built_values (t := t) c h.2.1 (l ++ '<' :: (n ++ ['>'])) ('<' :: '/' :: (e ++ '>' :: r)) (by rw [ht]; simp)
    have h3 : blen (l ++ '<' :: (n ++ ['>'])) = blen l + (blen n + 2) := by simp [mark_sizes]; omega
    rw [h3] at h2
    rw [h1, h2]
    rfl
theorem built_values {t : Str} : ∀ its : List Item, AllProper its → ∀ (l r : Str), t = l ++ piecesText (itemsPieces its) ++ r →
    itemsBuilt t (blen l) its = itemsValue (fun _ => []) (blen l) its
  | [], _, l, r, _ => by simp [itemsBuilt, itemsValue]
  | it :: its, h, l, r, ht => by
    simp only [itemsPieces, piecesText_append] at ht
    have h1 := built_value (t := t) it h.1 l (piecesText (itemsPieces its) ++ r) (by rw [ht]; simp)
    have h2 := built_values (t := t) its h.2 (l ++ piecesText it.pieces) r (by rw [ht]; simp)
    rw [blen_append, ← proper_len it h.1] at h2
    rw [itemsBuilt_cons h.1.isElement, itemsValue, h1, h2]
end

mutual
theorem paired_value {f g : Str → Str} : ∀ it : Item, it.Paired → ∀ o, it.value f o = it.value g o
  | .other _ _, _, _ => by rw [Item.value, Item.value]
  | .empty _, h, _ => by simp [Item.Paired] at h
  | .pair n c e, h, o => by
    rw [Item.Paired] at h
    rw [Item.value, Item.value, paired_values c h]
theorem paired_values {f g : Str → Str} : ∀ its : List Item, AllPaired its → ∀ o, itemsValue f o its = itemsValue g o its
  | [], _, _ => by rw [itemsValue, itemsValue]
  | it :: its, h, o => by
    rw [itemsValue, itemsValue, paired_value it h.1, paired_values its h.2]
end

mutual
theorem built_bare (t : Str) : ∀ it : Item, it.IsElement → ∀ o, XmlBare (it.built t o)
  | .other _ _, h, _ => h.elim
  | .empty _, _, _ => by rw [Item.built, XmlBare]; exact ⟨rfl, trivial⟩
  | .pair n c e, _, o => by rw [Item.built, XmlBare]; exact ⟨rfl, builts_bare t c _⟩
theorem builts_bare (t : Str) : ∀ its : List Item, ∀ o, AllBare (itemsBuilt t o its)
  | [], _ => by rw [itemsBuilt]; trivial
  | .other _ _ :: its, o => by rw [itemsBuilt]; exact builts_bare t its o
  | .empty n :: its, o => by rw [itemsBuilt]; exact ⟨built_bare t (.empty n) trivial o, builts_bare t its _⟩
  | .pair n c e :: its, o => by rw [itemsBuilt]; exact ⟨built_bare t (.pair n c e) trivial o, builts_bare t its _⟩
end

/-! ### Writing -/

mutual
/-- An element as it is written. -/
def Spec.itemOf : XmlVal → Item
  | .element n _ [] _ _ => .empty n
  | .element n _ (v :: vs) _ _ => .pair n (itemOf v :: itemsOf vs) n
  | _ => .other 0 []
/-- Elements as they are written. -/
def Spec.itemsOf : List XmlVal → List Item
  | [] => []
  | v :: vs => itemOf v :: itemsOf vs
end

mutual
theorem written : ∀ v : XmlVal, XmlBare v → Named v →
    Xml.toText v = piecesText (itemOf v).pieces ∧ (itemOf v).Proper ∧ ∀ o, (itemOf v).value (fun _ => []) o ≠ v
  | .text _, h, _ => by simp [XmlBare] at h
  | .comment _, h, _ => by simp [XmlBare] at h
  | .cdata _, h, _ => by simp [XmlBare] at h
  | .instruction _ _ _ _, h, _ => by simp [XmlBare] at h
  | .fragment _, h, _ => by simp [XmlBare] at h
  | .element n as [] a b, h, hn => by
    rw [XmlBare] at h
    rw [Named] at hn
    have h0 := h.1
    subst h0
    refine ⟨by rw [Xml.toText, itemOf, Item.pieces]; simp [Xml.elementText, Xml.attrsText], by rw [itemOf, Item.Proper]; exact hn.1, ?_⟩
    intro o he
    rw [itemOf, Item.value] at he
    simp only [XmlVal.element.injEq] at he
    have e1 := he.1
    obtain ⟨c, cs, e2, _⟩ := hn.1
    rw [← e1] at e2
    cases e2
  | .element n as (v :: vs) a b, h, hn => by
    rw [XmlBare] at h
    rw [Named] at hn
    obtain ⟨rfl, hb, hbs⟩ := h
    obtain ⟨hn, hv, hvs⟩ := hn
    obtain ⟨h1, h2, h3⟩ := written v hb hv
    obtain ⟨g1, g2⟩ := writtenAll vs hbs hvs
    refine ⟨?_, ?_, ?_⟩
    · rw [Xml.toText, itemOf, Item.pieces, Xml.kidsText, itemsPieces, h1, g1]; simp [Xml.elementText, Xml.attrsText]
    · rw [itemOf, Item.Proper]
      exact ⟨hn, ⟨h2, g2⟩, hn⟩
    · intro o he
      rw [itemOf, Item.value, itemsValue] at he
      simp only [XmlVal.element.injEq, List.cons.injEq] at he
      exact h3 _ he.2.2.1.1
theorem writtenAll : ∀ vs : List XmlVal, AllBare vs → AllNamed vs →
    Xml.kidsText vs = piecesText (itemsPieces (itemsOf vs)) ∧ AllProper (itemsOf vs)
  | [], _, _ => by simp [Xml.kidsText, itemsOf, itemsPieces, AllProper]
  | v :: vs, h, hn => by
    obtain ⟨h1, h2, _⟩ := written v h.1 hn.1
    obtain ⟨g1, g2⟩ := writtenAll vs h.2 hn.2
    exact ⟨by simp [Xml.kidsText, itemsOf, itemsPieces, h1, g1], by rw [itemsOf]; exact ⟨h2, g2⟩⟩
end

/-- What `parse` does with a text, by any cut of the text. -/
theorem fromText_spec (hws : XmlSpaces ws) {t : Str} {qs : List (Nat × Str)} (hc : Cut (XmlToken ws) t (keyed qs)) (hl : blen t < 2 ^ 32)
    {src : Source} (hs : Supplied src t) (hlaw : Lawful src t) :
    (∃ its, TopLevel its ∧ qs = itemsPieces its ∧ Xml.build ws src = .ok (some ((itemsBuilt t 0 its).head?.getD (.text [])), [])) ∨
      ((¬ ∃ its, TopLevel its ∧ qs = itemsPieces its) ∧ ∃ errs, Xml.build ws src = .ok (none, errs) ∧ errs ≠ []) := by
  obtain ⟨qs', h1, h2⟩ := xmlBuild_spec hws hs hlaw hl
  have he : keyed qs = keyed qs' := hc.unique (fun {k k' m m' r r'} _ _ h h' he => by
    obtain ⟨a, rfl, h1⟩ := h
    obtain ⟨b, rfl, h2⟩ := h'
    rw [he, h2] at h1
    simp only [Prod.mk.injEq] at h1
    exact ⟨by rw [h1.1], h1.2.1.symm⟩) h1
  have hinj : qs = qs' := by
    refine (List.map_inj_right ?_).mp he
    rintro ⟨a, b⟩ ⟨c, d⟩ h
    simpa using h
  rw [hinj]
  exact h2

end

/-! The items are determined by their tokens. -/
mutual
theorem item_inj : ∀ it : Item, it.IsElement → it.Inner → ∀ (it' : Item) (r r' : List (Nat × Str)), it'.IsElement → it'.Inner →
    it.pieces ++ r = it'.pieces ++ r' → it = it' ∧ r = r'
  | .other _ _, h, _, _, _, _, _, _, _ => h.elim
  | .empty n, _, _, it', r, r', h', _, he => by
    cases it' with
    | other => exact h'.elim
    | empty m =>
      simp only [Item.pieces, List.cons_append, List.nil_append, List.cons.injEq, Prod.mk.injEq, true_and] at he
      exact ⟨by rw [he.1], he.2⟩
    | pair m c e => simp [Item.pieces, Xml.slashRightAngle, Xml.rightAngle] at he
  | .pair n c e, _, hi, it', r, r', h', hi', he => by
    cases it' with
    | other => exact h'.elim
    | empty m => simp [Item.pieces, Xml.slashRightAngle, Xml.rightAngle] at he
    | pair m c' e' =>
      rw [Item.Inner] at hi hi'
      simp only [Item.pieces, List.cons_append, List.append_assoc, List.nil_append, List.cons.injEq, Prod.mk.injEq, true_and] at he
      obtain ⟨h1, h2⟩ := content_inj c hi c' _ _ hi' rfl rfl he.2
      simp only [List.cons.injEq, Prod.mk.injEq, true_and] at h2
      exact ⟨by rw [he.1, h1, h2.1], h2.2⟩
theorem content_inj : ∀ its : List Item, AllInner its → ∀ (its' : List Item) (r r' : List (Nat × Str)), AllInner its' →
    r.head?.map (·.1) = some Xml.leftAngleSlash → r'.head?.map (·.1) = some Xml.leftAngleSlash →
    itemsPieces its ++ r = itemsPieces its' ++ r' → its = its' ∧ r = r'
  | [], _, its', r, r', h', hr, hr', he => by
    cases its' with
    | nil => exact ⟨rfl, by simpa [itemsPieces] using he⟩
    | cons it' its' =>
      exfalso
      have he : r = itemsPieces (it' :: its') ++ r' := by rw [← he]; simp [itemsPieces]
      rw [he] at hr
      have hi := h'.1
      cases it' with
      | other k m => simp [itemsPieces, Item.pieces] at hr; exact hi.2 hr
      | empty m => simp [itemsPieces, Item.pieces, Xml.leftAngle, Xml.leftAngleSlash] at hr
      | pair m c e => simp [itemsPieces, Item.pieces, Xml.leftAngle, Xml.leftAngleSlash] at hr
  | it :: its, h, its', r, r', h', hr, hr', he => by
    cases its' with
    | nil =>
      exfalso
      have he : r' = itemsPieces (it :: its) ++ r := by rw [he]; simp [itemsPieces]
      rw [he] at hr'
      have hi := h.1
      cases it with
      | other k m => simp [itemsPieces, Item.pieces] at hr'; exact hi.2 hr'
      | empty m => simp [itemsPieces, Item.pieces, Xml.leftAngle, Xml.leftAngleSlash] at hr'
      | pair m c e => simp [itemsPieces, Item.pieces, Xml.leftAngle, Xml.leftAngleSlash] at hr'
    | cons it' its' =>
      rw [itemsPieces, itemsPieces, List.append_assoc, List.append_assoc] at he
      have key : it = it' ∧ itemsPieces its ++ r = itemsPieces its' ++ r' := by
        by_cases e1 : it.IsElement
        · by_cases e2 : it'.IsElement
          · exact item_inj it e1 h.1 it' _ _ e2 h'.1 he
          · cases it' with
            | other k m =>
              exfalso
              have hi := h'.1
              cases it with
              | other => exact e1
              | empty => simp [Item.pieces] at he; exact hi.1 he.1.1.symm
              | pair => simp [Item.pieces] at he; exact hi.1 he.1.1.symm
            | _ => exact absurd trivial e2
        · cases it with
          | other k m =>
            have hi := h.1
            cases it' with
            | other k' m' =>
              simp only [Item.pieces, List.cons_append, List.nil_append, List.cons.injEq, Prod.mk.injEq] at he
              exact ⟨by rw [he.1.1, he.1.2], he.2⟩
            | empty => simp [Item.pieces] at he; exact absurd he.1.1 hi.1
            | pair => simp [Item.pieces] at he; exact absurd he.1.1 hi.1
          | _ => exact absurd trivial e1
      obtain ⟨h1, h2⟩ := key
      obtain ⟨h3, h4⟩ := content_inj its h.2 its' r r' h'.2 hr hr' h2
      exact ⟨by rw [h1, h3], h4⟩
end

theorem topLevel_inj : ∀ its its' : List Item, TopLevel its → TopLevel its' → itemsPieces its = itemsPieces its' → its = its'
  | [], [], _, _, _ => rfl
  | [], it' :: its', _, _, he => by cases it' <;> simp [itemsPieces, Item.pieces] at he
  | it :: its, [], _, _, he => by cases it <;> simp [itemsPieces, Item.pieces] at he
  | it :: its, it' :: its', h, h', he => by
    rw [itemsPieces, itemsPieces] at he
    by_cases e1 : it.IsElement
    · by_cases e2 : it'.IsElement
      · have a := (topLevel_cons e1 its).mp h
        have b := (topLevel_cons e2 its').mp h'
        obtain ⟨h1, h2⟩ := item_inj it e1 a.1 it' _ _ e2 b.1 he
        rw [h1, topLevel_inj its its' a.2 b.2 h2]
      · exfalso
        cases it' with
        | other k m =>
          cases it with
          | other => exact e1
          | empty => simp [Item.pieces] at he; exact h'.1 he.1.1.symm
          | pair => simp [Item.pieces] at he; exact h'.1 he.1.1.symm
        | _ => exact e2 trivial
    · cases it with
      | other k m =>
        cases it' with
        | other k' m' =>
          simp only [Item.pieces, List.cons_append, List.nil_append, List.cons.injEq, Prod.mk.injEq] at he
          rw [he.1.1, he.1.2, topLevel_inj its its' h.2 h'.2 he.2]
        | empty => simp [Item.pieces] at he; exact absurd he.1.1 h.1
        | pair => simp [Item.pieces] at he; exact absurd he.1.1 h.1
      | _ => exact absurd trivial e1

/-- What is built of a text whose tokens are those of items. -/
theorem xmlBuild_items {ws : Char → Bool} (hws : XmlSpaces ws) {t : Str} {its : List Item} (hc : Cut (XmlToken ws) t (keyed (itemsPieces its)))
    (hp : TopLevel its) (hl : blen t < 2 ^ 32) {src : Source} (hs : Supplied src t) (hlaw : Lawful src t) :
    Xml.build ws src = .ok (some ((itemsBuilt t 0 its).head?.getD (.text [])), []) := by
  rcases fromText_spec hws hc hl hs hlaw with ⟨its', h1, h2, h3⟩ | ⟨h1, _⟩
  · rw [topLevel_inj its its' hp h1 h2]; exact h3
  · exact absurd ⟨its, hp, rfl⟩ h1

end Oaks
