import Verif.Proofs.XmlDoc
import Verif.Proofs.Diagnostic

/-! XML: from the text to the value. -/
namespace Oaks
open Spec

theorem nameStart_nameChar {c : Char} (h : Xml.nameStart c = true) : Xml.nameChar c = true := by
  unfold Xml.nameStart at h
  unfold Xml.nameChar Xml.isAlnum
  simp only [Bool.or_eq_true] at h ⊢
  rcases h with (h | h) | h
  · simp [h]
  · simp [h]
  · simp [h]

theorem cut_follow {ws : Char → Bool} {t : Str} {ps : List (Option Nat × Str)} (h : Cut (XmlToken ws) t ps) :
    ∃ qs, ps = keyed qs ∧ piecesText qs = t ∧ XmlFollow (qs ++ [(Xml.error, [])]) ∧
      ∀ k m r, qs = (k, m) :: r → PieceFacts k m (piecesText r) := by
  induction h with
  | nil => exact ⟨[], rfl, rfl, by simp [XmlFollow]; decide, by simp⟩
  | @cons k m rest ps hm hp _ ih =>
    obtain ⟨qs, rfl, h2, h3, h4⟩ := ih
    obtain ⟨kind, rfl, he⟩ := hp
    have hfacts : PieceFacts kind m rest := xmlToken_facts ⟨kind, rfl, he⟩
    refine ⟨(kind, m) :: qs, rfl, by simp [h2], ?_, ?_⟩
    · refine ⟨fun e => (hfacts.opens e).1, hfacts.ends, hfacts.empties, hfacts.closes, ?_, ?_, h3⟩
      · intro e
        cases qs with
        | nil => simp; decide
        | cons q qs =>
          obtain ⟨k', m'⟩ := q
          intro hk
          simp at hk
          obtain ⟨⟨c, cs, rfl, hc⟩, _⟩ := (h4 k' m' qs rfl).names hk
          have := (hfacts.names e).2 c (by rw [← h2]; simp)
          rw [nameStart_nameChar hc] at this
          cases this
      · intro e
        cases qs with
        | nil => simp; decide
        | cons q qs =>
          obtain ⟨k', m'⟩ := q
          intro hk
          simp at hk
          have hm' := (h4 k' m' qs rfl).asks hk
          exact (hfacts.opens e).2 (by rw [← h2, piecesText_cons]; simp [hm'])
    · intro k m r hr
      cases hr
      rw [h2]; exact hfacts

theorem itemsPieces_append (a b : List Item) : itemsPieces (a ++ b) = itemsPieces a ++ itemsPieces b := by
  induction a with
  | nil => rfl
  | cons x a ih => simp [itemsPieces, ih]

theorem topLevel_append {a b : List Item} : TopLevel (a ++ b) ↔ TopLevel a ∧ TopLevel b := by
  induction a with
  | nil => simp [TopLevel]
  | cons x a ih => cases x <;> simp [TopLevel, ih, and_assoc]

theorem items_eof {its : List Item} {qs : List (Nat × Str)} (h : itemsPieces its = qs ++ [(Xml.error, [])]) :
    ∃ its', its = its' ++ [.other Xml.error []] ∧ itemsPieces its' = qs := by
  rcases List.eq_nil_or_concat its with rfl | ⟨its', x, rfl⟩
  · simp [itemsPieces] at h
  · rw [List.concat_eq_append, itemsPieces_append] at h
    cases x with
    | other k m =>
      simp only [itemsPieces, Item.pieces, List.append_nil] at h
      obtain ⟨h1, h2⟩ := List.append_inj' h rfl
      simp only [List.cons.injEq, Prod.mk.injEq, and_true] at h2
      exact ⟨its', by rw [h2.1, h2.2]; simp, h1⟩
    | empty n =>
      have e : itemsPieces [Item.empty n] = [(Xml.leftAngle, ['<']), (Xml.identifier, n)] ++ [(Xml.slashRightAngle, ['/', '>'])] := rfl
      rw [e, ← List.append_assoc] at h
      obtain ⟨_, h2⟩ := List.append_inj' h rfl
      simp at h2
    | pair n c e =>
      have e : itemsPieces [Item.pair n c e] = ((Xml.leftAngle, ['<']) :: (Xml.identifier, n) :: (Xml.rightAngle, ['>']) ::
        (itemsPieces c ++ [(Xml.leftAngleSlash, ['<', '/']), (Xml.identifier, e)])) ++ [(Xml.rightAngle, ['>'])] := by
        simp [itemsPieces, Item.pieces]
      rw [e, ← List.append_assoc] at h
      obtain ⟨_, h2⟩ := List.append_inj' h rfl
      simp at h2

theorem itemsGreen_append (a b : List Item) : itemsGreen (a ++ b) = itemsGreen a ++ itemsGreen b := by
  induction a with
  | nil => rfl
  | cons x a ih => cases x <;> simp [itemsGreen, ih]

theorem itemsLen_append (a b : List Item) : itemsLen (a ++ b) = itemsLen a + itemsLen b := by
  induction a with
  | nil => simp [itemsLen]
  | cons x a ih => simp [itemsLen, ih, Nat.add_assoc]

/-! ### The builder -/

section
variable (ws : Char → Bool) (t : Str)

theorem xmlTextOf (a n : Nat) : Json.textOf t a n = .ok ((strGet t a (a + n)).getD []) := rfl

mutual
theorem build_item : ∀ (it : Item), it.IsElement → ∀ o, Xml.buildElement ws t o it.green = .ok (it.built t o)
  | .other _ _, h, _ => h.elim
  | .empty n, _, o => by
    rw [Item.green, Xml.buildElement]
    simp only [Xml.elementLoop, Xml.elementLeaf, Xml.tagLoop]
    rfl
  | .pair n c e, _, o => by
    rw [Item.green, Xml.buildElement, Xml.elementLoop]
    have h1 : Xml.tagLoop t o [.leaf Xml.leftAngle 1 none, .leaf Xml.identifier (blen n) none, .leaf Xml.rightAngle 1 none] ([], []) =
        .ok ((strGet t (o + 1) (o + 1 + blen n)).getD [], []) := by
      simp only [Xml.tagLoop]
      rw [if_neg (by decide), if_pos trivial, xmlTextOf]
      rfl
    rw [if_pos (.inl rfl), h1]
    simp only [run_bind_ok]
    rw [build_items c]
    have h2 : ∀ o f, Xml.elementLoop ws t o [.node Xml.endTag (blen e + 3)
        [.leaf Xml.leftAngleSlash 2 none, .leaf Xml.identifier (blen e) none, .leaf Xml.rightAngle 1 none]] f = .ok f := by
      intro o f
      rw [Xml.elementLoop, if_neg (by decide), if_neg (by decide), Xml.elementLoop]
      rfl
    rw [h2]
    simp only [run_bind_ok, Item.built, Xml.Found.value, List.nil_append]
    rfl
theorem build_items : ∀ (its : List Item) (o : Nat) (gs : List Green) (f : Xml.Found),
    Xml.elementLoop ws t o (itemsGreen its ++ gs) f =
      Xml.elementLoop ws t (o + itemsLen its) gs { f with kids := f.kids ++ itemsBuilt t o its }
  | [], o, gs, f => by simp [itemsGreen, itemsLen, itemsBuilt]
  | .other k m :: its, o, gs, f => by
    rw [itemsGreen, build_items its]; simp [itemsLen, Item.len, itemsBuilt]
  | .empty n :: its, o, gs, f => by
    have hb := build_item (.empty n) trivial o
    rw [itemsGreen, List.cons_append]
    simp only [Item.green] at hb ⊢
    rw [Xml.elementLoop, if_neg (by decide), if_pos rfl, hb]
    simp only [run_bind_ok]
    rw [build_items its]
    simp [itemsLen, Item.len, itemsBuilt, Nat.add_assoc]
  | .pair n c e :: its, o, gs, f => by
    have hb := build_item (.pair n c e) trivial o
    rw [itemsGreen, List.cons_append]
    simp only [Item.green] at hb ⊢
    rw [Xml.elementLoop, if_neg (by decide), if_pos rfl, hb]
    simp only [run_bind_ok]
    rw [build_items its]
    simp [itemsLen, Item.len, itemsBuilt, Nat.add_assoc]
end

theorem rootKids_items (its : List Item) (o : Nat) : Xml.rootKids ws t o (itemsGreen its) = .ok (itemsBuilt t o its) := by
  induction its generalizing o with
  | nil => rfl
  | cons it its ih =>
    cases it with
    | other => rw [itemsGreen, ih]; simp [itemsBuilt]
    | empty n =>
      have hb := build_item ws t (.empty n) trivial o
      rw [itemsGreen]
      simp only [Item.green] at hb ⊢
      rw [Xml.rootKids, if_pos rfl, hb]
      simp only [run_bind_ok, ih, itemsBuilt, Item.len]
      rfl
    | pair n c e =>
      have hb := build_item ws t (.pair n c e) trivial o
      rw [itemsGreen]
      simp only [Item.green] at hb ⊢
      rw [Xml.rootKids, if_pos rfl, hb]
      simp only [run_bind_ok, ih, itemsBuilt, Item.len]
      rfl

end

theorem itemsBuilt_append_other (t : Str) (o : Nat) (its : List Item) (k : Nat) (m : Str) :
    itemsBuilt t o (its ++ [.other k m]) = itemsBuilt t o its := by
  induction its generalizing o with
  | nil => simp [itemsBuilt]
  | cons x its ih => cases x <;> simp [itemsBuilt, ih]

/-- What `build` does with a text, by the cut of the text. -/
theorem xmlBuild_spec {ws : Char → Bool} (hws : XmlSpaces ws) {src : Source} {t : Str} (hs : Supplied src t) (hlaw : Lawful src t)
    (hl : blen t < 2 ^ 32) :
    ∃ qs, Cut (XmlToken ws) t (keyed qs) ∧
      ((∃ its, TopLevel its ∧ qs = itemsPieces its ∧ Xml.build ws src = .ok (some ((itemsBuilt t 0 its).head?.getD (.text [])), [])) ∨
      ((¬ ∃ its, TopLevel its ∧ qs = itemsPieces its) ∧ ∃ errs, Xml.build ws src = .ok (none, errs) ∧ errs ≠ [])) := by
  obtain ⟨ps, h1, h2⟩ := xmlLex_spec hs hws
  obtain ⟨qs, rfl, h3, h4, _⟩ := cut_follow h1
  refine ⟨qs, h1, ?_⟩
  have hkl : (tokensOf 0 (keyed qs) ++ [(⟨Xml.error, blen t, blen t⟩ : Tok)]).map Tok.kl = [] ++ klp (qs ++ [(Xml.error, [])]) := by
    rw [List.map_append, tokensOf_kl, klp_append, List.nil_append]
    congr 1
    · unfold keyed klp
      rw [List.filterMap_map]
      rw [← List.filterMap_eq_map]
      rfl
    · simp [Tok.kl, Tok.length]
  obtain ⟨s, a1, a2⟩ := PAt.new (ign := Xml.ign) hkl (by simp) (fun _ _ => rfl) src.length
  have hlt : blen (piecesText (qs ++ [(Xml.error, [])])) < 2 ^ 32 := by simp [h3, hl]
  have hbuild : ∀ r s', Xml.parseRoot s = .ok (r, s') → Xml.build ws src =
      (match r with | none => .ok (none, s'.errors) | some g => do let v ← Xml.buildRoot ws t g; pure (some v, s'.errors)) := by
    intro r s' hr
    unfold Xml.build Xml.parse
    simp only [lawful_full hlaw, run_bind_ok, h2, a1, hr, pure_bind]
    cases r <;> rfl
  rcases parseRoot_spec a2 h4 hlt with ⟨its, s', b1, b2, b3, b4⟩ | ⟨b1, s', b2, b3⟩
  · obtain ⟨its', rfl, c2⟩ := items_eof b2.symm
    refine .inl ⟨its', (topLevel_append.mp b1).1, c2.symm, ?_⟩
    rw [hbuild _ _ b3]
    simp only [Xml.buildRoot, rootKids_items, run_bind_ok, b4, itemsBuilt_append_other]
    rfl
  · refine .inr ⟨?_, s'.errors, ?_, b3⟩
    · rintro ⟨its, c1, rfl⟩
      refine b1 ⟨its ++ [.other Xml.error []], topLevel_append.mpr ⟨c1, ?_⟩, ?_⟩
      · simp [TopLevel]; decide
      · rw [itemsPieces_append]; rfl
    · rw [hbuild _ _ b2]

end Oaks
