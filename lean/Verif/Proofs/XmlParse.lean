import Verif.Proofs.XmlPiece
import Verif.Proofs.ParserAt
import Verif.Proofs.JsonBuild
import Verif.Spec.XmlTree

/-! XML: the parser against the items of a text. -/
namespace Oaks
open Spec

/-- Kinds and lengths of tokens. -/
def klp (ps : List (Nat × Str)) : List (Nat × Nat) := ps.map (fun p => (p.1, blen p.2))

@[simp] theorem klp_nil : klp [] = [] := rfl
@[simp] theorem klp_cons (p : Nat × Str) (ps : List (Nat × Str)) : klp (p :: ps) = (p.1, blen p.2) :: klp ps := rfl
@[simp] theorem klp_append (a b : List (Nat × Str)) : klp (a ++ b) = klp a ++ klp b := by simp [klp]
@[simp] theorem piecesText_nil : piecesText [] = [] := rfl
@[simp] theorem piecesText_cons (p : Nat × Str) (ps : List (Nat × Str)) : piecesText (p :: ps) = p.2 ++ piecesText ps := rfl
@[simp] theorem piecesText_append (a b : List (Nat × Str)) : piecesText (a ++ b) = piecesText a ++ piecesText b := by simp [piecesText]

mutual
/-- The tree of an element. -/
def Spec.Item.green : Item → Green
  | .other k s => .leaf k (blen s) none
  | .empty n => .node Xml.element (blen n + 3) [.leaf Xml.leftAngle 1 none, .leaf Xml.identifier (blen n) none,
      .node Xml.selfClosingTag 2 [.leaf Xml.slashRightAngle 2 none]]
  | .pair n c e => .node Xml.element (blen n + 2 + itemsLen c + (blen e + 3))
      (.node Xml.startTag (blen n + 2) [.leaf Xml.leftAngle 1 none, .leaf Xml.identifier (blen n) none, .leaf Xml.rightAngle 1 none] ::
        (itemsGreen c ++ [.node Xml.endTag (blen e + 3)
          [.leaf Xml.leftAngleSlash 2 none, .leaf Xml.identifier (blen e) none, .leaf Xml.rightAngle 1 none]]))
/-- The trees of the elements among items. -/
def Spec.itemsGreen : List Item → List Green
  | [] => []
  | .other _ _ :: its => itemsGreen its
  | .empty n :: its => (Item.empty n).green :: itemsGreen its
  | .pair n c e :: its => (Item.pair n c e).green :: itemsGreen its
end

theorem xmlGreen_len {it : Item} (h : it.IsElement) : it.green.len = it.len := by
  cases it with
  | other => exact h.elim
  | empty n => simp [Item.green, Item.len, Green.len]
  | pair n c e => simp [Item.green, Item.len, Green.len]

theorem itemsGreen_cons {it : Item} (h : it.IsElement) (its : List Item) : itemsGreen (it :: its) = it.green :: itemsGreen its := by
  cases it with
  | other => exact h.elim
  | _ => rw [itemsGreen]

theorem itemsGreen_len (its : List Item) : lenSum (itemsGreen its) = itemsLen its := by
  induction its with
  | nil => simp [itemsGreen, itemsLen]
  | cons it its ih =>
    cases it with
    | other => simp [itemsGreen, itemsLen, Item.len, ih]
    | empty n => rw [itemsGreen, lenSum_cons, xmlGreen_len (it := .empty n) trivial, ih, itemsLen]
    | pair n c e => rw [itemsGreen, lenSum_cons, xmlGreen_len (it := .pair n c e) trivial, ih, itemsLen]

theorem mark_sizes : '<'.utf8Size = 1 ∧ '>'.utf8Size = 1 ∧ '/'.utf8Size = 1 := by decide

mutual
theorem len_le : ∀ it : Item, it.len ≤ blen (piecesText it.pieces)
  | .other _ _ => by simp [Item.len]
  | .empty n => by simp [Item.len, Item.pieces, mark_sizes]; omega
  | .pair n c e => by
    have := itemsLen_le c
    simp [Item.len, Item.pieces, mark_sizes]
    omega
theorem itemsLen_le : ∀ its : List Item, itemsLen its ≤ blen (piecesText (itemsPieces its))
  | [] => by simp [itemsLen]
  | it :: its => by
    have h1 := len_le it
    have h2 := itemsLen_le its
    simp [itemsLen, itemsPieces]
    omega
end

/-! ### Steps of the parser -/

section
variable {pre suf : List (Nat × Nat)} {gs : List Green} {errs : List PErr} {s : PState}

theorem ign_false (k : Nat) : Xml.ign k = false := rfl

theorem pskip (s : PState) : Xml.skip s = .ok s := by
  unfold Xml.skip
  unfold Xml.skipLoop
  split
  · rfl
  · simp [ign_false]

theorem pexpect {k n : Nat} (h : PAt pre ((k, n) :: suf) gs errs s) (hn : n < 2 ^ 32) :
    ∃ s', s.expect Xml.ign k = .ok (true, s') ∧ PAt (pre ++ [(k, n)]) suf (gs ++ [.leaf k n none]) errs s' := by
  obtain ⟨s', h1, h2⟩ := PAt.bump (ign := Xml.ign) (tri := []) (rest := suf) h (by simp) (fun t _ => rfl)
  refine ⟨s', ?_, ?_⟩
  · have ha : s.atKind k = true := by rw [h.atKind]; simp
    unfold PState.expect PState.eat
    simp only [ha, if_true, h1, run_bind_ok]
    rfl
  · simpa [leafOf, Nat.mod_eq_of_lt hn] using h2

theorem prefuse {k : Nat} (h : PAt pre suf gs errs s) (hk : suf.head?.map (·.1) ≠ some k) :
    ∃ s', s.expect Xml.ign k = .ok (false, s') ∧ s'.errors ≠ [] := by
  have ha : s.atKind k = false := by rw [h.atKind]; simpa using hk
  refine ⟨s.record 1, ?_, by simp [PState.record]⟩
  unfold PState.expect PState.eat
  simp only [ha]
  rfl

theorem padvance {x : Nat × Nat} (h : PAt pre (x :: suf) gs errs s) :
    ∃ s', s.advance Xml.ign = .ok s' ∧ PAt (pre ++ [x]) suf gs errs s' := by
  have h' : PAt (pre ++ [x]) ([] ++ suf) gs errs s.tokenAdvance :=
    ⟨by simp [PState.tokenAdvance, h.tokens], by simp [PState.tokenAdvance, h.index], h.sink, h.errors, h.inc⟩
  obtain ⟨s', h1, h2⟩ := h'.skipTrivia (ign := Xml.ign) (by simp) (fun t _ => rfl)
  exact ⟨s', h1, by simpa using h2⟩

theorem pnotAtEnd (h : PAt pre suf gs errs s) : Json.notAtEnd s = decide (suf ≠ []) := by
  unfold Json.notAtEnd
  rw [h.length, h.index]
  cases suf <;> simp

theorem pattributes {stop : PState → Bool} {n : Nat} (h : PAt pre suf gs errs s) (hk : suf.head?.map (·.1) ≠ some Xml.identifier) :
    Xml.attributesLoop stop (n + 1) s = .ok (true, s) := by
  have ha : s.atKind Xml.identifier = false := by rw [h.atKind]; simpa using hk
  unfold Xml.attributesLoop
  split
  · simp only [pskip, run_bind_ok, ha]; rfl
  · rfl

theorem pfinish {cs : List Green} (h : PAt pre suf (gs ++ cs) errs s) (cp : Nat × Nat) (hcp : cp.2 = gs.length)
    (kind n : Nat) (hn : lenSum cs = n) (hl : n < 2 ^ 32) :
    ∃ s', Xml.finish s cp kind = .ok (true, s') ∧ PAt pre suf (gs ++ [.node kind n cs]) errs s' := by
  subst hn
  obtain ⟨e, s', h1, _, h3⟩ := h.finish cp hcp kind hl
  refine ⟨s', ?_, h3⟩
  unfold Xml.finish
  simp only [h1, run_bind_ok]
  rfl

theorem andThen_true {x : Run (Bool × PState)} {f : PState → Run (Bool × PState)} {s' : PState} (h : x = .ok (true, s')) :
    Xml.andThen x f = f s' := by subst h; rfl

theorem andThen_false {x : Run (Bool × PState)} {f : PState → Run (Bool × PState)} {s' : PState} (h : x = .ok (false, s')) :
    Xml.andThen x f = .ok (false, s') := by subst h; rfl

end

/-- The parser gives up, with an error recorded. -/
def Fails (x : Run (Bool × PState)) : Prop := ∃ s', x = .ok (false, s') ∧ s'.errors ≠ []

theorem Fails.andThen {x : Run (Bool × PState)} (h : Fails x) (f : PState → Run (Bool × PState)) : Fails (Xml.andThen x f) := by
  obtain ⟨s', h1, h2⟩ := h
  exact ⟨s', andThen_false h1, h2⟩

section
variable {pre : List (Nat × Nat)} {ps : List (Nat × Str)} {gs : List Green} {errs : List PErr} {s : PState}

/-- The head of a start tag. -/
theorem tagHead_ok {n : Str} {rest : List (Nat × Str)}
    (h : PAt pre (klp ((Xml.leftAngle, ['<']) :: (Xml.identifier, n) :: rest)) gs errs s)
    (hn : blen n < 2 ^ 32) (hr : rest.head?.map (·.1) ≠ some Xml.identifier) :
    ∃ s', Xml.parseTagHead s = .ok (true, s') ∧
      PAt (pre ++ [(Xml.leftAngle, 1), (Xml.identifier, blen n)]) (klp rest)
        (gs ++ [.leaf Xml.leftAngle 1 none, .leaf Xml.identifier (blen n) none]) errs s' := by
  have e1 : blen ['<'] = 1 := by decide
  simp only [klp_cons, e1] at h
  obtain ⟨s1, a1, b1⟩ := pexpect h (by decide)
  obtain ⟨s2, a2, b2⟩ := pexpect b1 hn
  have hr' : (klp rest).head?.map (·.1) ≠ some Xml.identifier := by
    cases rest with
    | nil => simp
    | cons p rest => simpa using hr
  refine ⟨s2, ?_, by simpa using b2⟩
  unfold Xml.parseTagHead
  rw [andThen_true a1]
  simp only [pskip, run_bind_ok]
  rw [andThen_true a2, andThen_true (pattributes b2 hr')]
  rfl

/-- `<name/>`. -/
theorem parse_empty {n : Str} {rest : List (Nat × Str)} (fuel : Nat) (h : PAt pre (klp ((Item.empty n).pieces ++ rest)) gs errs s)
    (hl : blen n + 3 < 2 ^ 32) :
    ∃ s', Xml.parseElement (fuel + 1) s = .ok (true, s') ∧
      PAt (pre ++ klp (Item.empty n).pieces) (klp rest) (gs ++ [(Item.empty n).green]) errs s' := by
  obtain ⟨s1, a1, b1⟩ := tagHead_ok (rest := (Xml.slashRightAngle, ['/', '>']) :: rest) h (by omega) (by simp; decide)
  have e2 : blen ['/', '>'] = 2 := by decide
  simp only [klp_cons, e2] at b1
  have b1' := b1
  obtain ⟨s2, a2, b2⟩ := pexpect b1 (by decide)
  obtain ⟨s3, a3, b3⟩ := pfinish b2 s1.checkpoint (by rw [PState.checkpoint, b1'.sink_length]) Xml.selfClosingTag 2
    (by simp [lenSum, Green.len]) (by decide)
  have b3' : PAt (pre ++ [(Xml.leftAngle, 1), (Xml.identifier, blen n), (Xml.slashRightAngle, 2)]) (klp rest)
      (gs ++ [.leaf Xml.leftAngle 1 none, .leaf Xml.identifier (blen n) none,
        .node Xml.selfClosingTag 2 [.leaf Xml.slashRightAngle 2 none]]) errs s3 := by
    simpa using b3
  obtain ⟨s4, a4, b4⟩ := pfinish b3' s.checkpoint (by rw [PState.checkpoint, h.sink_length]) Xml.element (blen n + 3)
    (by simp [lenSum, Green.len]; omega) hl
  refine ⟨s4, ?_, ?_⟩
  · rw [Xml.parseElement]
    simp only []
    rw [andThen_true a1]
    have ha : s1.atKind Xml.slashRightAngle = true := by rw [b1'.atKind]; simp
    simp only [ha, if_true]
    rw [andThen_true a2, andThen_true a3, a4]
  · simpa [Item.green, Item.pieces, e2, show blen ['<'] = 1 by decide] using b4

/-- The start tag `<name>`, then `body`. -/
theorem parse_pair {n : Str} {rest : List (Nat × Str)} (fuel : Nat)
    (h : PAt pre (klp ((Xml.leftAngle, ['<']) :: (Xml.identifier, n) :: (Xml.rightAngle, ['>']) :: rest)) gs errs s)
    (hl : blen n + 2 < 2 ^ 32) :
    ∃ s', Xml.parseElement (fuel + 1) s = Xml.andThen (Xml.contentLoop fuel s') (Xml.parseEndTag s.checkpoint) ∧
      PAt (pre ++ [(Xml.leftAngle, 1), (Xml.identifier, blen n), (Xml.rightAngle, 1)]) (klp rest)
        (gs ++ [.node Xml.startTag (blen n + 2) [.leaf Xml.leftAngle 1 none, .leaf Xml.identifier (blen n) none, .leaf Xml.rightAngle 1 none]])
        errs s' := by
  obtain ⟨s1, a1, b1⟩ := tagHead_ok (rest := (Xml.rightAngle, ['>']) :: rest) h (by omega) (by simp; decide)
  have e2 : blen ['>'] = 1 := by decide
  simp only [klp_cons, e2] at b1
  have b1' := b1
  obtain ⟨s2, a2, b2⟩ := pexpect b1 (by decide)
  have b2' : PAt (pre ++ [(Xml.leftAngle, 1), (Xml.identifier, blen n), (Xml.rightAngle, 1)]) (klp rest)
      (gs ++ [.leaf Xml.leftAngle 1 none, .leaf Xml.identifier (blen n) none, .leaf Xml.rightAngle 1 none]) errs s2 := by
    simpa using b2
  obtain ⟨s3, a3, b3⟩ := pfinish b2' s.checkpoint (by rw [PState.checkpoint, h.sink_length]) Xml.startTag (blen n + 2)
    (by simp [lenSum, Green.len]; omega) hl
  refine ⟨s3, ?_, by simpa using b3⟩
  rw [Xml.parseElement]
  simp only []
  rw [andThen_true a1]
  have ha : s1.atKind Xml.slashRightAngle = false := by rw [b1'.atKind]; simp; decide
  simp only [ha]
  rw [if_neg (by simp), andThen_true a2, andThen_true a3]

/-- The end tag. -/
theorem endTag_ok {e : Str} {rest : List (Nat × Str)} {cs : List Green} {cp : Nat × Nat} {k : Nat}
    (h : PAt pre (klp ((Xml.leftAngleSlash, ['<', '/']) :: (Xml.identifier, e) :: (Xml.rightAngle, ['>']) :: rest)) (gs ++ cs) errs s)
    (hcp : cp.2 = gs.length) (hk : lenSum cs = k) (hl : k + (blen e + 3) < 2 ^ 32) :
    ∃ s', Xml.parseEndTag cp s = .ok (true, s') ∧
      PAt (pre ++ [(Xml.leftAngleSlash, 2), (Xml.identifier, blen e), (Xml.rightAngle, 1)]) (klp rest)
        (gs ++ [.node Xml.element (k + (blen e + 3)) (cs ++ [.node Xml.endTag (blen e + 3)
          [.leaf Xml.leftAngleSlash 2 none, .leaf Xml.identifier (blen e) none, .leaf Xml.rightAngle 1 none]])]) errs s' := by
  have e1 : blen ['<', '/'] = 2 := by decide
  have e2 : blen ['>'] = 1 := by decide
  simp only [klp_cons, e1, e2] at h
  obtain ⟨s1, a1, b1⟩ := pexpect h (by decide)
  obtain ⟨s2, a2, b2⟩ := pexpect b1 (by omega)
  obtain ⟨s3, a3, b3⟩ := pexpect b2 (by decide)
  have b3' : PAt (pre ++ [(Xml.leftAngleSlash, 2), (Xml.identifier, blen e), (Xml.rightAngle, 1)]) (klp rest)
      ((gs ++ cs) ++ [.leaf Xml.leftAngleSlash 2 none, .leaf Xml.identifier (blen e) none, .leaf Xml.rightAngle 1 none]) errs s3 := by
    simpa using b3
  obtain ⟨s4, a4, b4⟩ := pfinish b3' s.checkpoint (by rw [PState.checkpoint, h.sink_length]) Xml.endTag (blen e + 3)
    (by simp [lenSum, Green.len]; omega) (by omega)
  rw [List.append_assoc] at b4
  obtain ⟨s5, a5, b5⟩ := pfinish b4 cp hcp Xml.element (k + (blen e + 3))
    (by rw [lenSum_append, hk]; simp [lenSum, Green.len]) hl
  refine ⟨s5, ?_, b5⟩
  unfold Xml.parseEndTag
  simp only []
  rw [andThen_true a1]
  simp only [pskip, run_bind_ok]
  rw [andThen_true a2, andThen_true a3, andThen_true a4, a5]

/-! ### What the tokens of a text are like -/

/-- Tag marks have their texts, no name follows a name, no question mark follows `<`. -/
def XmlFollow : List (Nat × Str) → Prop
  | [] => True
  | (k, m) :: r => (k = Xml.leftAngle → m = ['<']) ∧ (k = Xml.leftAngleSlash → m = ['<', '/']) ∧
      (k = Xml.slashRightAngle → m = ['/', '>']) ∧ (k = Xml.rightAngle → m = ['>']) ∧
      (k = Xml.identifier → r.head?.map (·.1) ≠ some Xml.identifier) ∧
      (k = Xml.leftAngle → r.head?.map (·.1) ≠ some Xml.question) ∧ XmlFollow r

theorem XmlFollow.right {a b : List (Nat × Str)} (h : XmlFollow (a ++ b)) : XmlFollow b := by
  induction a with
  | nil => exact h
  | cons p a ih => exact ih h.2.2.2.2.2.2

theorem klp_head (ps : List (Nat × Str)) : (klp ps).head?.map (·.1) = ps.head?.map (·.1) := by
  cases ps <;> rfl

theorem kind_cases (ps : List (Nat × Str)) (k : Nat) : (∃ m r, ps = (k, m) :: r) ∨ ps.head?.map (·.1) ≠ some k := by
  cases ps with
  | nil => right; simp
  | cons p r =>
    obtain ⟨k', m⟩ := p
    by_cases h : k' = k
    · subst h; exact .inl ⟨m, r, rfl⟩
    · right; simpa using h

theorem fails_expect {k : Nat} (h : PAt pre (klp ps) gs errs s) (hk : ps.head?.map (·.1) ≠ some k) : Fails (s.expect Xml.ign k) :=
  prefuse h (by rw [klp_head]; exact hk)

/-- What reading an element comes to. -/
def ElementRead (pre : List (Nat × Nat)) (ps : List (Nat × Str)) (gs : List Green) (errs : List PErr) (x : Run (Bool × PState)) : Prop :=
  (∃ (it : Item) (rest : List (Nat × Str)) (s' : PState), it.IsElement ∧ it.Inner ∧ ps = it.pieces ++ rest ∧ x = .ok (true, s') ∧
    PAt (pre ++ klp it.pieces) (klp rest) (gs ++ [it.green]) errs s') ∨ Fails x

/-- What reading the content of an element comes to. -/
def ContentRead (pre : List (Nat × Nat)) (ps : List (Nat × Str)) (gs : List Green) (errs : List PErr) (x : Run (Bool × PState)) : Prop :=
  (∃ (c : List Item) (rest : List (Nat × Str)) (s' : PState), AllInner c ∧ ps = itemsPieces c ++ rest ∧ x = .ok (true, s') ∧
    PAt (pre ++ klp (itemsPieces c)) (klp rest) (gs ++ itemsGreen c) errs s') ∨ Fails x

theorem pieces_length {it : Item} (h : it.IsElement) : 3 ≤ it.pieces.length := by
  cases it with
  | other => exact h.elim
  | empty => simp [Item.pieces]
  | pair => simp [Item.pieces]

theorem endTag_fails {cp : Nat × Nat} {cs : List Green} (h : PAt pre (klp ps) (gs ++ cs) errs s) (hf : XmlFollow ps) (hl : blen (piecesText ps) < 2 ^ 32) :
    (∃ e rest, ps = (Xml.leftAngleSlash, ['<', '/']) :: (Xml.identifier, e) :: (Xml.rightAngle, ['>']) :: rest) ∨ Fails (Xml.parseEndTag cp s) := by
  unfold Xml.parseEndTag
  simp only []
  rcases kind_cases ps Xml.leftAngleSlash with ⟨m, ps1, rfl⟩ | hk
  · obtain ⟨-, hm, -, -, -, -, hf1⟩ := hf
    obtain rfl := hm rfl
    simp only [piecesText_cons, blen_append] at hl
    obtain ⟨s1, a1, b1⟩ := pexpect h (by simp only []; omega)
    rw [andThen_true a1]
    simp only [pskip, run_bind_ok]
    rcases kind_cases ps1 Xml.identifier with ⟨e, ps2, rfl⟩ | hk
    · simp only [piecesText_cons, blen_append] at hl
      obtain ⟨s2, a2, b2⟩ := pexpect b1 (by simp only []; omega)
      rw [andThen_true a2]
      rcases kind_cases ps2 Xml.rightAngle with ⟨m, ps3, rfl⟩ | hk
      · obtain ⟨-, -, -, -, -, -, -, -, -, hm, -⟩ := hf1
        obtain rfl := hm rfl
        exact .inl ⟨e, ps3, rfl⟩
      · exact .inr ((fails_expect b2 hk).andThen _)
    · exact .inr ((fails_expect b1 hk).andThen _)
  · exact .inr ((fails_expect h hk).andThen _)

theorem xml_sound (fuel : Nat) :
    (∀ {pre ps gs errs s}, PAt pre (klp ps) gs errs s → XmlFollow ps → blen (piecesText ps) < 2 ^ 32 → 2 * ps.length ≤ fuel → 1 ≤ fuel →
      ElementRead pre ps gs errs (Xml.parseElement fuel s)) ∧
    (∀ {pre ps gs errs s}, PAt pre (klp ps) gs errs s → XmlFollow ps → blen (piecesText ps) < 2 ^ 32 → 2 * ps.length + 1 ≤ fuel →
      ContentRead pre ps gs errs (Xml.contentLoop fuel s)) := by
  induction fuel with
  | zero => exact ⟨fun _ _ _ _ h => by omega, fun _ _ _ h => by omega⟩
  | succ fuel ih =>
    constructor
    · intro pre ps gs errs s h hf hl hfuel _
      rcases kind_cases ps Xml.leftAngle with ⟨m, ps1, rfl⟩ | hk
      swap
      · rw [ElementRead]; right
        rw [Xml.parseElement]
        refine Fails.andThen ?_ _
        exact (fails_expect h hk).andThen _
      obtain ⟨hm, -, -, -, -, -, hf1⟩ := hf
      obtain rfl := hm rfl
      rcases kind_cases ps1 Xml.identifier with ⟨n, ps2, rfl⟩ | hk
      swap
      · rw [ElementRead]; right
        rw [Xml.parseElement]
        refine Fails.andThen ?_ _
        unfold Xml.parseTagHead
        obtain ⟨s1, a1, b1⟩ := pexpect h (by simp; decide)
        rw [andThen_true a1]
        simp only [pskip, run_bind_ok]
        exact (fails_expect b1 hk).andThen _
      obtain ⟨-, -, -, -, hn, -, hf2⟩ := hf1
      have hn' := hn rfl
      simp only [piecesText_cons, blen_append] at hl
      have e1 : blen ['<'] = 1 := by decide
      rcases kind_cases ps2 Xml.slashRightAngle with ⟨m, ps3, rfl⟩ | hk
      · obtain ⟨-, -, hm, -, -, -, -⟩ := hf2
        obtain rfl := hm rfl
        have e2 : blen ['/', '>'] = 2 := by decide
        simp only [piecesText_cons, blen_append] at hl
        obtain ⟨s', a, b⟩ := parse_empty (n := n) (rest := ps3) fuel h (by omega)
        exact .inl ⟨.empty n, ps3, s', trivial, trivial, rfl, a, b⟩
      rcases kind_cases ps2 Xml.rightAngle with ⟨m, ps3, rfl⟩ | hk2
      · obtain ⟨-, -, -, hm, -, -, hf3⟩ := hf2
        obtain rfl := hm rfl
        have e2 : blen ['>'] = 1 := by decide
        simp only [piecesText_cons, blen_append, e1, e2] at hl
        obtain ⟨s1, a1, b1⟩ := parse_pair (n := n) (rest := ps3) fuel h (by omega)
        rw [ElementRead, a1]
        rcases ih.2 b1 hf3 (by omega) (by simp at hfuel; omega) with ⟨c, rest, s2, c1, rfl, c3, c4⟩ | hx
        · rw [andThen_true c3]
          rw [List.append_assoc gs] at c4
          have hl' := hl
          simp only [piecesText_append, blen_append] at hl'
          rcases endTag_fails (cp := s.checkpoint) c4 hf3.right (by omega) with ⟨e, rest', rfl⟩ | hx
          · have e3 : blen ['<', '/'] = 2 := by decide
            simp only [piecesText_cons, blen_append, e2, e3] at hl'
            have hil := itemsLen_le c
            obtain ⟨s3, a3, b3⟩ := endTag_ok (cp := s.checkpoint) (gs := gs) (k := blen n + 2 + itemsLen c) c4
              (by rw [PState.checkpoint, h.sink_length]) (by simp [lenSum_append, itemsGreen_len, Green.len]) (by omega)
            refine .inl ⟨.pair n c e, rest', s3, trivial, by simpa [Item.Inner] using c1, by simp [Item.pieces], a3, ?_⟩
            simpa [Item.green, Item.pieces, e1, e2, e3] using b3
          · exact .inr hx
        · exact .inr (hx.andThen _)
      · rw [ElementRead]; right
        rw [Xml.parseElement]
        obtain ⟨s1, a1, b1⟩ := tagHead_ok h (by omega) hn'
        simp only []
        rw [andThen_true a1]
        have ha : s1.atKind Xml.slashRightAngle = false := by rw [b1.atKind, klp_head]; simpa using hk
        simp only [ha]
        rw [if_neg (by simp)]
        exact (fails_expect b1 hk2).andThen _
    · intro pre ps gs errs s h hf hl hfuel
      rw [ContentRead, Xml.contentLoop]
      cases ps with
      | nil =>
        rw [pnotAtEnd h, if_neg (by simp)]
        exact .inl ⟨[], [], s, trivial, rfl, rfl, by simpa [itemsPieces, itemsGreen] using h⟩
      | cons p ps =>
        obtain ⟨k, m⟩ := p
        rw [pnotAtEnd h, if_pos (by simp)]
        simp only [pskip, run_bind_ok]
        have hat : ∀ j, s.atKind j = (k == j) := by intro j; rw [h.atKind]; simp
        rw [hat, hat]
        by_cases hk : k = Xml.leftAngleSlash
        · rw [if_pos (by simpa using hk)]
          exact .inl ⟨[], (k, m) :: ps, s, trivial, rfl, rfl, by simpa [itemsPieces, itemsGreen] using h⟩
        rw [if_neg (by simpa using hk)]
        simp only [List.length_cons] at hfuel
        by_cases hk2 : k = Xml.leftAngle
        · rw [if_pos (by simpa using hk2)]
          rcases ih.1 h hf hl (by simp; omega) (by omega) with ⟨it, rest, s1, c1, c2, c3, c4, c5⟩ | hx
          · rw [andThen_true c4]
            rw [c3] at hl hf
            have hlen := congrArg List.length c3
            have := pieces_length c1
            simp at hlen
            simp only [piecesText_append, blen_append] at hl
            rcases ih.2 c5 hf.right (by omega) (by omega) with ⟨c, rest', s2, d1, rfl, d3, d4⟩ | hx
            · refine .inl ⟨it :: c, rest', s2, ⟨c2, d1⟩, by rw [c3]; simp [itemsPieces], d3, ?_⟩
              simpa [itemsPieces, itemsGreen_cons c1] using d4
            · exact .inr hx
          · exact .inr (hx.andThen _)
        · rw [if_neg (by simpa using hk2)]
          obtain ⟨s1, a1, b1⟩ := padvance h
          simp only [a1, run_bind_ok]
          simp only [piecesText_cons, blen_append] at hl
          rcases ih.2 b1 hf.2.2.2.2.2.2 (by omega) (by omega) with ⟨c, rest', s2, d1, rfl, d3, d4⟩ | hx
          · refine .inl ⟨.other k m :: c, rest', s2, ⟨⟨hk2, hk⟩, d1⟩, rfl, d3, ?_⟩
            simpa [itemsPieces, itemsGreen, Item.pieces] using d4
          · exact .inr hx

end

end Oaks
