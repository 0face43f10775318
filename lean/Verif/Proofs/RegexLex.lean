import Verif.Spec.Regex
import Verif.Proofs.ScanEval
import Verif.Proofs.ScanRuns

/-! The lexer of regular expressions cuts a text into the rows of pieces of the specification. -/
namespace Oaks
open Spec Scn

namespace Scn

/-- A text cut into rows of pieces, each of which is one turn, is cut so by the lexer. -/
theorem cut_rows {step : Scn Next} {B : List (Option Nat × Str) → Str → Prop}
    (hB : ∀ {row r}, row.flatMap (·.2) ≠ [] → B row r → turn step (row.flatMap (·.2) ++ r) = some (row, r)) {t : Str}
    {ps : List (Option Nat × Str)} (h : Rows B t ps) : cut step t = some (ps, []) := by
  unfold cut
  induction h with
  | nil => unfold cutLoop; simp
  | cons hm hb _ ih =>
    rename_i row rest ps _
    have h1 := hB hm hb
    have h2 := cutLoop_turn (fuel := rest.length) (by simp only [ne_eq, List.append_eq_nil_iff, not_and]; exact fun h => absurd h hm) h1 ih
    have hl := List.length_pos_iff.mpr hm
    exact cutLoop_more h2 (by rw [List.length_append]; omega)

theorem turn_again {step : Scn Next} {r r' : Str} {ps : List (Option Nat × Str)}
    (h : step.eval ⟨[], [], r⟩ = some (.again, ⟨ps, [], r'⟩)) : turn step r = some (ps, r') := by
  simp [turn, h]

theorem firstOf_hit {q : Scn Bool} {qs : List (Scn Bool)} {r : Str} {st : PSt} (h : q.eval ⟨[], [], r⟩ = some (true, st)) :
    (firstOf (q :: qs)).eval ⟨[], [], r⟩ = some (.again, st) := by
  rw [firstOf, eval_bind, eval_here]
  simp only [Option.bind_some, gap_nil, List.append_nil]
  rw [eval_bind, h]
  rfl

theorem firstOf_miss {q : Scn Bool} {qs : List (Scn Bool)} {r : Str} (h : q.eval ⟨[], [], r⟩ = some (false, ⟨[], [], r⟩)) :
    (firstOf (q :: qs)).eval ⟨[], [], r⟩ = (firstOf qs).eval ⟨[], [], r⟩ := by
  rw [firstOf, eval_bind, eval_here]
  simp only [Option.bind_some, gap_nil, List.append_nil]
  rw [eval_bind, h]
  rfl

end Scn

namespace Regex

theorem space_no {ws : Char → Bool} {c : Char} {s : Str} (h : ws c = false) :
    (skipWhitespace ws).eval ⟨[], [], c :: s⟩ = some (false, ⟨[], [], c :: s⟩) := by
  simp [skipWhitespace, eval, h]

theorem space_nil {ws : Char → Bool} : (skipWhitespace ws).eval ⟨[], [], []⟩ = some (false, ⟨[], [], []⟩) := by
  simp [skipWhitespace, eval]

theorem blank_eval {ws : Char → Bool} {c : Char} {s : Str} (hc : ws c = true) :
    (step ws).eval ⟨[], [], c :: s⟩ = some (.again, ⟨[(some whitespace, (c :: s).takeWhile ws)], [], (c :: s).dropWhile ws⟩) := by
  have : (skipWhitespace ws).eval ⟨[], [], c :: s⟩ =
      some (true, ⟨[(some whitespace, (c :: s).takeWhile ws)], [], (c :: s).dropWhile ws⟩) := by
    simp [skipWhitespace, eval, hc]
  unfold step firstOf
  scan [this]

theorem class_loop {row : List (Option Nat × Str)} (h : ClassRow row) (d : List (Option Nat × Str)) (s : Str) :
    (while_ 0 classTurn).eval ⟨d, [], row.flatMap (·.2) ++ ']' :: s⟩ = some (1, ⟨d ++ row ++ [(some rbrack, [']'])], [], s⟩) := by
  induction h generalizing d with
  | nil =>
    rw [eval_while, classTurn]
    scan [List.flatMap_nil, eval_skip_one]
  | plain h1 h2 _ ih =>
    rw [eval_while, classTurn]
    scan [List.flatMap_cons, eval_skip_one, h1, h2, ih]
  | escaped _ ih =>
    rw [eval_while, classTurn]
    scan [List.flatMap_cons, eval_skip_one, oneMore, ih]
    rw [if_pos (by omega)]

theorem brace_loop {row : List (Option Nat × Str)} (h : BraceRow row) (d : List (Option Nat × Str)) (s : Str) :
    (while_ 0 braceTurn).eval ⟨d, [], row.flatMap (·.2) ++ '}' :: s⟩ = some (1, ⟨d ++ row ++ [(some rbrace, ['}'])], [], s⟩) := by
  induction h generalizing d with
  | nil =>
    rw [eval_while, braceTurn]
    scan [List.flatMap_nil, eval_skip_one]
  | @digit c _ h1 h2 _ ih =>
    have h3 : c ≠ '}' := by rintro rfl; exact absurd h2 (by decide)
    have h4 := size_one (digit_ascii ⟨h1, h2⟩)
    rw [eval_while, braceTurn]
    scan [List.flatMap_cons, eval_skip_one, h3, h4, h1, h2, ih, and_self]
  | comma _ ih =>
    rw [eval_while, braceTurn]
    scan [List.flatMap_cons, eval_skip_one, ih]

theorem comment_no {c : Char} {s : Str} (h : c ≠ '#') : skipComment.eval ⟨[], [], c :: s⟩ = some (false, ⟨[], [], c :: s⟩) := by
  unfold skipComment
  have : List.isPrefixOf ['#'] (c :: s) = false := by simp [List.isPrefixOf]; exact fun e => h e.symm
  scan [this]

theorem class_no {c : Char} {s : Str} (h : c ≠ '[') : lexClass.eval ⟨[], [], c :: s⟩ = some (false, ⟨[], [], c :: s⟩) := by
  unfold lexClass
  scan [Option.some.injEq, h]

theorem quantifier_no {c : Char} {s : Str} (h1 : c ≠ '*') (h2 : c ≠ '+') (h3 : c ≠ '?') (h4 : c ≠ '{') :
    lexQuantifier.eval ⟨[], [], c :: s⟩ = some (false, ⟨[], [], c :: s⟩) := by
  unfold lexQuantifier
  scan [h1, h2, h3, h4]

theorem single_no {c ch : Char} {k : Nat} {s : Str} (h : c ≠ ch) : (single ch k).eval ⟨[], [], c :: s⟩ = some (false, ⟨[], [], c :: s⟩) := by
  unfold single
  scan [Option.some.injEq, h]

theorem single_yes {c : Char} {k : Nat} {s : Str} (h : c.utf8Size = 1) :
    (single c k).eval ⟨[], [], c :: s⟩ = some (true, ⟨[(some k, [c])], [], s⟩) := by
  unfold single
  scan [eval_skip_one h]

theorem escape_no {c : Char} {s : Str} (h : c ≠ '\\') : lexEscape.eval ⟨[], [], c :: s⟩ = some (false, ⟨[], [], c :: s⟩) := by
  unfold lexEscape
  scan [Option.some.injEq, h]

theorem character_no {c : Char} {s : Str} (h : notPlain c = true) :
    lexCharacter.eval ⟨[], [], c :: s⟩ = some (false, ⟨[], [], c :: s⟩) := by
  unfold lexCharacter
  scan [h]

section
variable {ws : Char → Bool} (hw : RegexWs ws)
include hw

theorem comment_eval (s : Str) :
    (step ws).eval ⟨[], [], '#' :: s⟩ = some (.again, ⟨[(some comment, '#' :: s.takeWhile (fun c => !(c == '\n')))], [],
      s.dropWhile (fun c => !(c == '\n'))⟩) := by
  unfold step
  rw [firstOf_miss (space_no (hw '#' (by decide)))]
  refine firstOf_hit ?_
  unfold skipComment
  have : List.isPrefixOf ['#'] ('#' :: s) = true := by simp [List.isPrefixOf]
  scan [this, eval_skip_one, eval_whilePeek _ _ (fun _ _ => rfl)]

theorem class_eval {row : List (Option Nat × Str)} (h : ClassRow row) (hh : row.head? ≠ some (some character, ['^'])) (s : Str) :
    (step ws).eval ⟨[], [], '[' :: (row.flatMap (·.2) ++ ']' :: s)⟩ =
      some (.again, ⟨(some lbrack, ['[']) :: row ++ [(some rbrack, [']'])], [], s⟩) := by
  unfold step
  rw [firstOf_miss (space_no (hw '[' (by decide))), firstOf_miss (comment_no (by decide))]
  refine firstOf_hit ?_
  have hn : (row.flatMap (·.2) ++ ']' :: s).head? ≠ some '^' := by
    cases h with
    | nil => simp
    | plain => simpa using hh
    | escaped => simp
  have : classRest.eval ⟨[], [], '[' :: (row.flatMap (·.2) ++ ']' :: s)⟩ =
      some (true, ⟨(some lbrack, ['[']) :: row ++ [(some rbrack, [']'])], [], s⟩) := by
    unfold classRest negation
    scan [eval_skip_one, hn, class_loop h, beq_self_eq_true]
  unfold lexClass
  scan [eval_covered, this]

theorem notClass_eval {row : List (Option Nat × Str)} (h : ClassRow row) (s : Str) :
    (step ws).eval ⟨[], [], '[' :: '^' :: (row.flatMap (·.2) ++ ']' :: s)⟩ =
      some (.again, ⟨(some lbrack, ['[']) :: (some hat, ['^']) :: row ++ [(some rbrack, [']'])], [], s⟩) := by
  unfold step
  rw [firstOf_miss (space_no (hw '[' (by decide))), firstOf_miss (comment_no (by decide))]
  refine firstOf_hit ?_
  have : classRest.eval ⟨[], [], '[' :: '^' :: (row.flatMap (·.2) ++ ']' :: s)⟩ =
      some (true, ⟨(some lbrack, ['[']) :: (some hat, ['^']) :: row ++ [(some rbrack, [']'])], [], s⟩) := by
    unfold classRest negation
    scan [eval_skip_one, class_loop h, beq_self_eq_true]
  unfold lexClass
  scan [eval_covered, this]

theorem brace_eval {row : List (Option Nat × Str)} (h : BraceRow row) (s : Str) :
    (step ws).eval ⟨[], [], '{' :: (row.flatMap (·.2) ++ '}' :: s)⟩ =
      some (.again, ⟨(some lbrace, ['{']) :: row ++ [(some rbrace, ['}'])], [], s⟩) := by
  unfold step
  rw [firstOf_miss (space_no (hw '{' (by decide))), firstOf_miss (comment_no (by decide)), firstOf_miss (class_no (by decide))]
  refine firstOf_hit ?_
  have : braceRest.eval ⟨[], [], '{' :: (row.flatMap (·.2) ++ '}' :: s)⟩ =
      some (true, ⟨(some lbrace, ['{']) :: row ++ [(some rbrace, ['}'])], [], s⟩) := by
    unfold braceRest
    scan [eval_skip_one, brace_loop h, beq_self_eq_true]
  unfold lexQuantifier
  scan [eval_covered, this]

theorem mark_eval {c : Char} {k : Nat} (h : (c, k) ∈ regexMarks) (s : Str) :
    (step ws).eval ⟨[], [], c :: s⟩ = some (.again, ⟨[(some k, [c])], [], s⟩) := by
  unfold step
  simp only [regexMarks, List.mem_cons, List.not_mem_nil, or_false, Prod.mk.injEq] at h
  rcases h with ⟨rfl, rfl⟩ | ⟨rfl, rfl⟩ | ⟨rfl, rfl⟩ | ⟨rfl, rfl⟩ | ⟨rfl, rfl⟩ | ⟨rfl, rfl⟩ | ⟨rfl, rfl⟩ | ⟨rfl, rfl⟩ | ⟨rfl, rfl⟩
  all_goals rw [firstOf_miss (space_no (hw _ (by decide))), firstOf_miss (comment_no (by decide)), firstOf_miss (class_no (by decide))]
  iterate 3 (refine firstOf_hit ?_; unfold lexQuantifier; scan [eval_skip_one])
  all_goals rw [firstOf_miss (quantifier_no (by decide) (by decide) (by decide) (by decide))]
  · exact firstOf_hit (single_yes (by decide))
  · rw [firstOf_miss (single_no (by decide))]
    exact firstOf_hit (single_yes (by decide))
  · rw [firstOf_miss (single_no (by decide)), firstOf_miss (single_no (by decide))]
    exact firstOf_hit (single_yes (by decide))
  · rw [firstOf_miss (single_no (by decide)), firstOf_miss (single_no (by decide)), firstOf_miss (single_no (by decide))]
    exact firstOf_hit (single_yes (by decide))
  all_goals rw [firstOf_miss (single_no (by decide)), firstOf_miss (single_no (by decide)), firstOf_miss (single_no (by decide)),
    firstOf_miss (single_no (by decide)), firstOf_miss (escape_no (by decide))]
  · exact firstOf_hit (single_yes (by decide))
  · rw [firstOf_miss (single_no (by decide)), firstOf_miss (character_no (by decide))]
    exact firstOf_hit (single_yes (by decide))

theorem escape_eval (s : Str) :
    (step ws).eval ⟨[], [], '\\' :: s⟩ = match s with
      | [] => some (.again, ⟨[(some backslash, ['\\'])], [], []⟩)
      | c :: s => some (.again, ⟨[(some backslash, ['\\']), (some character, [c])], [], s⟩) := by
  unfold step
  rw [firstOf_miss (space_no (hw _ (by decide))), firstOf_miss (comment_no (by decide)), firstOf_miss (class_no (by decide)),
    firstOf_miss (quantifier_no (by decide) (by decide) (by decide) (by decide)), firstOf_miss (single_no (by decide)),
    firstOf_miss (single_no (by decide)), firstOf_miss (single_no (by decide)), firstOf_miss (single_no (by decide))]
  cases s with
  | nil =>
    refine firstOf_hit ?_
    unfold lexEscape oneMore
    scan [eval_skip_one]
  | cons c s =>
    refine firstOf_hit ?_
    unfold lexEscape oneMore
    scan [eval_skip_one]

omit hw in
theorem plain_eval {c : Char} (h1 : ws c = false) (h2 : c ∉ "#[*+?{()^$\\.|},".toList) (s : Str) :
    (step ws).eval ⟨[], [], c :: s⟩ = some (.again, ⟨[(some character, [c])], [], s⟩) := by
  have h : c ≠ '#' ∧ c ≠ '[' ∧ c ≠ '*' ∧ c ≠ '+' ∧ c ≠ '?' ∧ c ≠ '{' ∧ c ≠ '(' ∧ c ≠ ')' ∧ c ≠ '^' ∧ c ≠ '$' ∧ c ≠ '\\' ∧ c ≠ '.' ∧
      c ≠ '|' ∧ c ≠ '}' ∧ c ≠ ',' := by simpa using h2
  obtain ⟨g1, g2, g3, g4, g5, g6, g7, g8, g9, g10, g11, g12, g13, g14, g15⟩ := h
  unfold step
  rw [firstOf_miss (space_no h1), firstOf_miss (comment_no g1), firstOf_miss (class_no g2), firstOf_miss (quantifier_no g3 g4 g5 g6),
    firstOf_miss (single_no g7), firstOf_miss (single_no g8), firstOf_miss (single_no g9), firstOf_miss (single_no g10),
    firstOf_miss (escape_no g11), firstOf_miss (single_no g12)]
  refine firstOf_hit ?_
  have : notPlain c = false := by simp [notPlain, *]
  unfold lexCharacter
  scan [this]

theorem lost_eval {c : Char} (h : c = '}' ∨ c = ',') (s : Str) :
    (step ws).eval ⟨[], [], c :: s⟩ = some (.guard, ⟨[], [], c :: s⟩) := by
  unfold step
  rcases h with rfl | rfl
  all_goals
    rw [firstOf_miss (space_no (hw _ (by decide))), firstOf_miss (comment_no (by decide)), firstOf_miss (class_no (by decide)),
      firstOf_miss (quantifier_no (by decide) (by decide) (by decide) (by decide)), firstOf_miss (single_no (by decide)),
      firstOf_miss (single_no (by decide)), firstOf_miss (single_no (by decide)), firstOf_miss (single_no (by decide)),
      firstOf_miss (escape_no (by decide)), firstOf_miss (single_no (by decide)), firstOf_miss (character_no (by decide)),
      firstOf_miss (single_no (by decide))]
    rfl

/-- A row of the specification is a turn of the lexer. -/
theorem row_turn {row : List (Option Nat × Str)} {r : Str} (hb : RegexRow ws row r) :
    turn (step ws) (row.flatMap (·.2) ++ r) = some (row, r) := by
  cases hb with
  | @blank m _ hm h =>
    obtain ⟨h1, h2⟩ := longRun_take (p := ws) (fun _ => Iff.rfl) h
    obtain ⟨c, m', rfl⟩ := List.exists_cons_of_ne_nil hm
    refine turn_again ?_
    have := blank_eval (s := m' ++ r) (h.1 c List.mem_cons_self)
    rw [← List.cons_append, h1, h2] at this
    simpa using this
  | @comment m _ h =>
    obtain ⟨h1, h2⟩ := longRun_take (p := fun c => !(c == '\n')) (fun _ => by simp) h
    refine turn_again ?_
    have := comment_eval hw (m ++ r)
    simpa [h1, h2] using this
  | mark h => exact turn_again (by simpa using mark_eval hw h r)
  | @cls row _ h1 h2 => exact turn_again (by simpa using class_eval hw h1 h2 r)
  | @notCls row _ h1 => exact turn_again (by simpa using notClass_eval hw h1 r)
  | @brace row _ h1 => exact turn_again (by simpa using brace_eval hw h1 r)
  | @escape c _ => exact turn_again (by simpa using escape_eval hw (c :: r))
  | last => exact turn_again (by simpa using escape_eval hw [])
  | plain h1 h2 => exact turn_again (by simpa using plain_eval h1 h2 r)
  | lost h =>
    have := lost_eval hw h r
    simp [turn, this, gap]

omit hw in
/-- Where neither a class nor a repetition begins, every text has a first row. -/
theorem row_exists {t : Str} (h0 : t ≠ []) (hg : ∀ c ∈ t, c ≠ '[' ∧ c ≠ '{') :
    ∃ row r, t = row.flatMap (·.2) ++ r ∧ row.flatMap (·.2) ≠ [] ∧ RegexRow ws row r := by
  obtain ⟨c, s, rfl⟩ := List.exists_cons_of_ne_nil h0
  by_cases h1 : ws c = true
  · refine ⟨[(some whitespace, (c :: s).takeWhile ws)], (c :: s).dropWhile ws, by simp [List.takeWhile_append_dropWhile], by simp [h1], ?_⟩
    exact .blank (by simp [h1]) (longRun_span ws (c :: s))
  rw [Bool.not_eq_true] at h1
  by_cases h2 : c = '#'
  · subst h2
    refine ⟨[(some comment, '#' :: s.takeWhile (fun c => !(c == '\n')))], s.dropWhile (fun c => !(c == '\n')), ?_, by simp, .comment ?_⟩
    · simp [List.takeWhile_append_dropWhile]
    · simpa [LongRun] using longRun_span (fun c => !(c == '\n')) s
  by_cases h3 : c = '\\'
  · subst h3
    cases s with
    | nil => exact ⟨[(some backslash, ['\\'])], [], by simp, by simp, .last⟩
    | cons d s => exact ⟨[(some backslash, ['\\']), (some character, [d])], s, by simp, by simp, .escape⟩
  by_cases h4 : c ∈ regexMarks.map (·.1)
  · obtain ⟨⟨a, k⟩, hm, rfl⟩ := List.mem_map.mp h4
    exact ⟨[(some k, [a])], s, by simp, by simp, .mark hm⟩
  by_cases h5 : c = '}' ∨ c = ','
  · exact ⟨[(none, [c])], s, by simp, by simp, .lost h5⟩
  · refine ⟨[(some character, [c])], s, by simp, by simp, .plain h1 ?_⟩
    have := hg c List.mem_cons_self
    simp [regexMarks] at h4
    simp at h5
    simp [*]

end

theorem rows_exist {B : List (Option Nat × Str) → Str → Prop} {G : Str → Prop} (hG : ∀ m r, G (m ++ r) → G r)
    (h : ∀ t, t ≠ [] → G t → ∃ row r, t = row.flatMap (·.2) ++ r ∧ row.flatMap (·.2) ≠ [] ∧ B row r) {t : Str} (ht : G t) :
    ∃ ps, Rows B t ps := by
  induction hn : t.length using Nat.strongRecOn generalizing t with
  | _ n ih =>
    by_cases h0 : t = []
    · subst h0; exact ⟨[], .nil⟩
    · obtain ⟨row, r, rfl, hm, hp⟩ := h t h0 ht
      have hl := List.length_pos_iff.mpr hm
      obtain ⟨ps, hps⟩ := ih r.length (by rw [List.length_append] at hn; omega) (hG _ r ht) rfl
      exact ⟨row ++ ps, .cons hm hp hps⟩

end Regex
end Oaks
