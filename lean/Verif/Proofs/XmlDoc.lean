import Verif.Proofs.XmlParse

/-! XML: whole documents; the builder. -/
namespace Oaks
open Spec

mutual
theorem element_complete : ∀ it : Item, it.IsElement → it.Inner → ∀ {pre : List (Nat × Nat)} {rest : List (Nat × Str)} {gs : List Green}
    {errs : List PErr} {s : PState} (fuel : Nat), PAt pre (klp (it.pieces ++ rest)) gs errs s → blen (piecesText it.pieces) < 2 ^ 32 →
    2 * it.pieces.length ≤ fuel →
    ∃ s', Xml.parseElement fuel s = .ok (true, s') ∧ PAt (pre ++ klp it.pieces) (klp rest) (gs ++ [it.green]) errs s'
  | .other _ _, h, _, _, _, _, _, _, _, _, _, _ => h.elim
  | .empty n, _, _, pre, rest, gs, errs, s, fuel, hp, hl, hf => by
    obtain ⟨fuel, rfl⟩ : ∃ j, fuel = j + 1 := ⟨fuel - 1, by simp [Item.pieces] at hf; omega⟩
    exact parse_empty fuel hp (by have := len_le (.empty n); simp only [Item.len] at this; omega)
  | .pair n c e, _, hi, pre, rest, gs, errs, s, fuel, hp, hl, hf => by
    have hll := len_le (.pair n c e)
    simp only [Item.len] at hll
    obtain ⟨fuel, rfl⟩ : ∃ j, fuel = j + 1 := ⟨fuel - 1, by simp [Item.pieces] at hf; omega⟩
    have e1 : blen ['<'] = 1 := by decide
    have e2 : blen ['>'] = 1 := by decide
    have e3 : blen ['<', '/'] = 2 := by decide
    have hp' : PAt pre (klp ((Xml.leftAngle, ['<']) :: (Xml.identifier, n) :: (Xml.rightAngle, ['>']) ::
        (itemsPieces c ++ ((Xml.leftAngleSlash, ['<', '/']) :: (Xml.identifier, e) :: (Xml.rightAngle, ['>']) :: rest)))) gs errs s := by
      simpa [Item.pieces] using hp
    obtain ⟨s1, a1, b1⟩ := parse_pair fuel hp' (by omega)
    have hle : blen (piecesText (itemsPieces c)) < 2 ^ 32 := by
      simp [Item.pieces] at hl; omega
    obtain ⟨s2, a2, b2⟩ := content_complete c (by simpa [Item.Inner] using hi) fuel b1 (by simp) hle (by simp [Item.pieces] at hf; omega)
    rw [List.append_assoc gs] at b2
    obtain ⟨s3, a3, b3⟩ := endTag_ok (cp := s.checkpoint) (gs := gs) (k := blen n + 2 + itemsLen c) b2
      (by rw [PState.checkpoint, hp.sink_length]) (by simp [lenSum_append, itemsGreen_len, Green.len]) (by omega)
    refine ⟨s3, ?_, ?_⟩
    · rw [a1, andThen_true a2, a3]
    · simpa [Item.green, Item.pieces, e1, e2, e3] using b3
theorem content_complete : ∀ its : List Item, AllInner its → ∀ {pre : List (Nat × Nat)} {rest : List (Nat × Str)} {gs : List Green}
    {errs : List PErr} {s : PState} (fuel : Nat), PAt pre (klp (itemsPieces its ++ rest)) gs errs s →
    rest.head?.map (·.1) = some Xml.leftAngleSlash → blen (piecesText (itemsPieces its)) < 2 ^ 32 →
    2 * (itemsPieces its).length + 1 ≤ fuel →
    ∃ s', Xml.contentLoop fuel s = .ok (true, s') ∧ PAt (pre ++ klp (itemsPieces its)) (klp rest) (gs ++ itemsGreen its) errs s'
  | [], _, pre, rest, gs, errs, s, fuel, hp, hr, _, hf => by
    obtain ⟨fuel, rfl⟩ : ∃ j, fuel = j + 1 := ⟨fuel - 1, by omega⟩
    simp only [itemsPieces, List.nil_append] at hp
    have ha : s.atKind Xml.leftAngleSlash = true := by rw [hp.atKind, klp_head, hr]; simp
    have hne : klp rest ≠ [] := by cases rest <;> simp at hr ⊢
    refine ⟨s, ?_, by simpa [itemsPieces, itemsGreen] using hp⟩
    rw [Xml.contentLoop, pnotAtEnd hp, if_pos (by simpa using hne)]
    simp only [pskip, run_bind_ok, ha, if_true]
    rfl
  | .other k m :: its, hi, pre, rest, gs, errs, s, fuel, hp, hr, hl, hf => by
    obtain ⟨fuel, rfl⟩ : ∃ j, fuel = j + 1 := ⟨fuel - 1, by omega⟩
    simp only [itemsPieces, Item.pieces, List.cons_append, List.nil_append] at hp hl hf
    obtain ⟨s1, a1, b1⟩ := padvance hp
    simp at hl hf
    obtain ⟨s2, a2, b2⟩ := content_complete its hi.2 fuel b1 hr (by omega) (by omega)
    refine ⟨s2, ?_, by simpa [itemsPieces, itemsGreen, Item.pieces] using b2⟩
    have hat : ∀ j, s.atKind j = (k == j) := by intro j; rw [hp.atKind]; simp
    obtain ⟨⟨hk1, hk2⟩, _⟩ := hi
    rw [Xml.contentLoop, pnotAtEnd hp, if_pos (by simp)]
    simp only [pskip, run_bind_ok]
    rw [hat, hat, if_neg (by simpa using hk2), if_neg (by simpa using hk1)]
    simp only [a1, run_bind_ok, a2]
  | .empty n :: its, hi, pre, rest, gs, errs, s, fuel, hp, hr, hl, hf => by
    obtain ⟨fuel, rfl⟩ : ∃ j, fuel = j + 1 := ⟨fuel - 1, by omega⟩
    simp only [itemsPieces, List.append_assoc] at hp
    simp only [itemsPieces, piecesText_append, blen_append, List.length_append] at hl hf
    have h3 := pieces_length (it := .empty n) trivial
    obtain ⟨s1, a1, b1⟩ := element_complete (.empty n) trivial trivial fuel hp (by omega) (by omega)
    obtain ⟨s2, a2, b2⟩ := content_complete its hi.2 fuel b1 hr (by omega) (by omega)
    refine ⟨s2, ?_, by simpa [itemsPieces, itemsGreen] using b2⟩
    have hat : ∀ j, s.atKind j = (Xml.leftAngle == j) := by intro j; rw [hp.atKind]; simp [Item.pieces]
    rw [Xml.contentLoop, pnotAtEnd hp, if_pos (by simp [Item.pieces])]
    simp only [pskip, run_bind_ok]
    rw [hat, hat, if_neg (by decide), if_pos (by decide), andThen_true a1, a2]
  | .pair n c e :: its, hi, pre, rest, gs, errs, s, fuel, hp, hr, hl, hf => by
    obtain ⟨fuel, rfl⟩ : ∃ j, fuel = j + 1 := ⟨fuel - 1, by omega⟩
    simp only [itemsPieces, List.append_assoc] at hp
    simp only [itemsPieces, piecesText_append, blen_append, List.length_append] at hl hf
    have h3 := pieces_length (it := .pair n c e) trivial
    obtain ⟨s1, a1, b1⟩ := element_complete (.pair n c e) trivial hi.1 fuel hp (by omega) (by omega)
    obtain ⟨s2, a2, b2⟩ := content_complete its hi.2 fuel b1 hr (by omega) (by omega)
    refine ⟨s2, ?_, by simpa [itemsPieces, itemsGreen] using b2⟩
    have hat : ∀ j, s.atKind j = (Xml.leftAngle == j) := by intro j; rw [hp.atKind]; simp [Item.pieces]
    rw [Xml.contentLoop, pnotAtEnd hp, if_pos (by simp [Item.pieces])]
    simp only [pskip, run_bind_ok]
    rw [hat, hat, if_neg (by decide), if_pos (by decide), andThen_true a1, a2]
end

/-! ### The root -/

theorem topLevel_cons {it : Item} (h : it.IsElement) (its : List Item) : TopLevel (it :: its) ↔ it.Inner ∧ TopLevel its := by
  cases it with
  | other => exact h.elim
  | _ => rw [TopLevel]; simp

section
variable {gs : List Green} {errs : List PErr}

theorem root_sound (fuel : Nat) {pre : List (Nat × Nat)} {ps : List (Nat × Str)} {gs : List Green} {s : PState}
    (h : PAt pre (klp ps) gs errs s) (hf : XmlFollow ps) (hl : blen (piecesText ps) < 2 ^ 32)
    (hfuel : 2 * ps.length + 1 ≤ fuel) :
    (∃ its s', TopLevel its ∧ ps = itemsPieces its ∧ Xml.rootLoop fuel s = .ok (true, s') ∧
      PAt (pre ++ klp ps) [] (gs ++ itemsGreen its) errs s') ∨ Fails (Xml.rootLoop fuel s) := by
  induction fuel generalizing pre ps gs s with
  | zero => omega
  | succ fuel ih =>
    rw [Xml.rootLoop]
    cases ps with
    | nil =>
      rw [pnotAtEnd h, if_neg (by simp)]
      exact .inl ⟨[], s, trivial, rfl, rfl, by simpa [itemsGreen] using h⟩
    | cons p ps =>
      obtain ⟨k, m⟩ := p
      have hne := pnotAtEnd h
      simp only [klp_cons, ne_eq, reduceCtorEq, not_false_eq_true, decide_true] at hne
      rw [hne, if_pos rfl]
      simp only [pskip, run_bind_ok]
      have hat : ∀ j, s.atKind j = (k == j) := by intro j; rw [h.atKind]; simp
      rw [hat]
      simp only [List.length_cons] at hfuel
      by_cases hk2 : k = Xml.leftAngle
      · rw [if_pos (by simpa using hk2)]
        rcases (xml_sound fuel).1 h hf hl (by simp; omega) (by omega) with ⟨it, rest, s1, c1, c2, c3, c4, c5⟩ | hx
        · rw [andThen_true c4]
          rw [c3] at hl hf
          have hlen := congrArg List.length c3
          have := pieces_length c1
          simp at hlen
          simp only [piecesText_append, blen_append] at hl
          rcases ih c5 hf.right (by omega) (by omega) with ⟨c, s2, d1, rfl, d3, d4⟩ | hx
          · refine .inl ⟨it :: c, s2, (topLevel_cons c1 c).mpr ⟨c2, d1⟩, by rw [c3]; simp [itemsPieces], d3, ?_⟩
            rw [c3]
            simpa [itemsGreen_cons c1] using d4
          · exact .inr hx
        · exact .inr (hx.andThen _)
      · rw [if_neg (by simpa using hk2), hne, if_pos rfl]
        obtain ⟨s1, a1, b1⟩ := padvance h
        simp only [a1, run_bind_ok]
        simp only [piecesText_cons, blen_append] at hl
        rcases ih b1 hf.2.2.2.2.2.2 (by omega) (by omega) with ⟨c, s2, d1, rfl, d3, d4⟩ | hx
        · refine .inl ⟨.other k m :: c, s2, ⟨hk2, d1⟩, rfl, d3, ?_⟩
          simpa [itemsGreen] using d4
        · exact .inr hx

theorem root_complete (its : List Item) (ht : TopLevel its) (fuel : Nat) {pre : List (Nat × Nat)} {gs : List Green} {s : PState}
    (h : PAt pre (klp (itemsPieces its)) gs errs s) (hl : blen (piecesText (itemsPieces its)) < 2 ^ 32)
    (hfuel : 2 * (itemsPieces its).length + 1 ≤ fuel) :
    ∃ s', Xml.rootLoop fuel s = .ok (true, s') ∧ PAt (pre ++ klp (itemsPieces its)) [] (gs ++ itemsGreen its) errs s' := by
  induction its generalizing fuel pre gs s with
  | nil =>
    obtain ⟨fuel, rfl⟩ : ∃ j, fuel = j + 1 := ⟨fuel - 1, by omega⟩
    simp only [itemsPieces] at h
    rw [Xml.rootLoop, pnotAtEnd h, if_neg (by simp)]
    exact ⟨s, rfl, by simpa [itemsGreen, itemsPieces] using h⟩
  | cons it its ih =>
    obtain ⟨fuel, rfl⟩ : ∃ j, fuel = j + 1 := ⟨fuel - 1, by omega⟩
    rw [Xml.rootLoop]
    by_cases he : it.IsElement
    · obtain ⟨c1, c2⟩ := (topLevel_cons he its).mp ht
      have h3 := pieces_length he
      simp only [itemsPieces] at h hl hfuel
      simp only [piecesText_append, blen_append, List.length_append] at hl hfuel
      obtain ⟨s1, a1, b1⟩ := element_complete it he c1 fuel h (by omega) (by omega)
      obtain ⟨s2, a2, b2⟩ := ih c2 fuel b1 (by omega) (by omega)
      have hhead : ∃ r, it.pieces = (Xml.leftAngle, ['<']) :: r := by
        cases it with
        | other => exact he.elim
        | empty => exact ⟨_, rfl⟩
        | pair => exact ⟨_, by rw [Item.pieces]⟩
      obtain ⟨r, hr⟩ := hhead
      have ha : s.atKind Xml.leftAngle = true := by rw [h.atKind, hr]; simp
      refine ⟨s2, ?_, by simpa [itemsPieces, itemsGreen_cons he] using b2⟩
      rw [pnotAtEnd h, if_pos (by rw [hr]; simp)]
      simp only [pskip, run_bind_ok, ha, if_true]
      rw [andThen_true a1, a2]
    · cases it with
      | other k m =>
        simp only [itemsPieces, Item.pieces, List.cons_append, List.nil_append] at h hl hfuel
        obtain ⟨s1, a1, b1⟩ := padvance h
        simp at hl hfuel
        obtain ⟨s2, a2, b2⟩ := ih ht.2 fuel b1 (by omega) (by omega)
        refine ⟨s2, ?_, by simpa [itemsPieces, itemsGreen, Item.pieces] using b2⟩
        have hat : ∀ j, s.atKind j = (k == j) := by intro j; rw [h.atKind]; simp
        have hne := pnotAtEnd h
        simp only [klp_cons, ne_eq, reduceCtorEq, not_false_eq_true, decide_true] at hne
        rw [hne, if_pos rfl]
        simp only [pskip, run_bind_ok]
        rw [hat, if_neg (by simpa using ht.1), hne, if_pos rfl]
        simp only [a1, run_bind_ok, a2]
      | empty => exact absurd trivial he
      | pair => exact absurd trivial he

theorem parseRoot_spec {ps : List (Nat × Str)} {s : PState}
    (h : PAt [] (klp ps) [] [] s) (hf : XmlFollow ps) (hl : blen (piecesText ps) < 2 ^ 32) :
    (∃ its s', TopLevel its ∧ ps = itemsPieces its ∧
      Xml.parseRoot s = .ok (some (.node Xml.root (itemsLen its) (itemsGreen its)), s') ∧ s'.errors = []) ∨
    ((¬ ∃ its, TopLevel its ∧ ps = itemsPieces its) ∧ ∃ s', Xml.parseRoot s = .ok (none, s') ∧ s'.errors ≠ []) := by
  have hpro : (s.atKind Xml.leftAngle && (s.peekAt 1).map (·.kind) == some Xml.question) = false := by
    rw [h.atKind, klp_head]
    have hpk : (s.peekAt 1).map (·.kind) = (ps.drop 1).head?.map (·.1) := by
      unfold PState.peekAt
      have : (s.tokens.map Tok.kl)[s.index + 1]? = (klp ps)[1]? := by rw [h.tokens, h.index]; simp
      rw [List.getElem?_map] at this
      have h2 := congrArg (Option.map Prod.fst) this
      rw [Option.map_map] at h2
      have h3 : (s.tokens[s.index + 1]?).map (·.kind) = ((klp ps)[1]?).map Prod.fst := h2
      rw [h3]
      rcases ps with _ | ⟨p, _ | ⟨q, ps⟩⟩ <;> rfl
    rw [hpk]
    rcases ps with _ | ⟨⟨k, m⟩, ps⟩
    · rfl
    · by_cases hk : k = Xml.leftAngle
      · have := hf.2.2.2.2.2.1 hk
        simp only [List.drop_succ_cons, List.drop_zero]
        rw [Bool.and_eq_false_iff]
        exact .inr (by simpa using this)
      · rw [Bool.and_eq_false_iff]
        exact .inl (by simpa using hk)
  have key : ∀ its s1, ps = itemsPieces its → Xml.rootLoop (2 * (s.tokens.length - s.index) + 2) s = .ok (true, s1) →
      PAt ([] ++ klp ps) [] ([] ++ itemsGreen its) [] s1 →
      ∃ s', Xml.parseRoot s = .ok (some (.node Xml.root (itemsLen its) (itemsGreen its)), s') ∧ s'.errors = [] := by
    intro its s1 hp h1 h2
    have hle := itemsLen_le its
    rw [← hp] at hle
    obtain ⟨e, s', f1, f2, f3⟩ := h2.finish s.checkpoint (by rw [PState.checkpoint, h.sink_length]) Xml.root
      (by rw [itemsGreen_len]; omega)
    refine ⟨s', ?_, f3.errors⟩
    unfold Xml.parseRoot
    simp only [pskip, run_bind_ok, hpro]
    simp only [Bool.false_eq_true, if_false, pure_bind, if_true, h1, run_bind_ok, f1, f2]
    rw [itemsGreen_len]
    rfl
  have hfu : 2 * ps.length + 1 ≤ 2 * (s.tokens.length - s.index) + 2 := by
    rw [h.left]; simp [klp]
  rcases root_sound _ h hf hl hfu with ⟨its, s1, a1, a2, a3, a4⟩ | hx
  · obtain ⟨s', b1, b2⟩ := key its s1 a2 a3 a4
    exact .inl ⟨its, s', a1, a2, b1, b2⟩
  · refine .inr ⟨?_, ?_⟩
    · rintro ⟨its, a1, rfl⟩
      obtain ⟨s1, b1, b2⟩ := root_complete its a1 _ h hl hfu
      obtain ⟨s2, c1, _⟩ := hx
      rw [b1] at c1
      cases c1
    · obtain ⟨s', c1, c2⟩ := hx
      refine ⟨s', ?_, c2⟩
      unfold Xml.parseRoot
      simp only [pskip, run_bind_ok, hpro]
      simp only [Bool.false_eq_true, if_false, pure_bind, if_true, c1, run_bind_ok]
      rfl

end

end Oaks
