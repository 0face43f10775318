import Verif.Spec.Ini
import Verif.Proofs.Toml
import Verif.Proofs.RegexLex

/-! The INI lexer cuts a text into the pieces of the specification. -/
namespace Oaks
open Spec Scn

namespace Ini

theorem isBlank_iff (c : Char) : isBlank c = true ↔ IniBlank c := by simp [isBlank, IniBlank, or_assoc]
theorem isDigit_iff (c : Char) : isDigit c = true ↔ AsciiDigit c := by simp [isDigit, AsciiDigit]
theorem nameStart_iff (c : Char) : nameStart c = true ↔ TomlKeyStart c := by simp [nameStart, TomlKeyStart, AsciiLetter]
theorem nameChar_iff (c : Char) : nameChar c = true ↔ TomlKeyChar c := by
  simp [nameChar, nameStart, TomlKeyChar, isDigit_iff, AsciiLetter]
  tauto

theorem isDigit_size {c : Char} (h : isDigit c = true) : c.utf8Size = 1 := size_one (digit_ascii ((isDigit_iff c).mp h))
theorem nameChar_size (c : Char) (h : nameChar c = true) : 1 = c.utf8Size := by
  rcases (nameChar_iff c).mp h with h | h | rfl | rfl
  · exact (size_one (letter_ascii h)).symm
  · exact (size_one (digit_ascii h)).symm
  · rfl
  · rfl
theorem nameStart_size {c : Char} (h : nameStart c = true) : c.utf8Size = 1 :=
  (nameChar_size c (by simp [nameChar, h])).symm

/-! ### What does not begin here -/

theorem blank_no {c : Char} {s : Str} (h : isBlank c = false) : skipWhitespace.eval ⟨[], [], c :: s⟩ = some (false, ⟨[], [], c :: s⟩) := by
  unfold skipWhitespace
  scan [eval_whilePeek _ _ (fun _ _ => rfl), List.takeWhile_cons, List.dropWhile_cons, h]

theorem newline_no {c : Char} {s : Str} (h : c ≠ '\n') : lexNewline.eval ⟨[], [], c :: s⟩ = some (false, ⟨[], [], c :: s⟩) := by
  unfold lexNewline
  scan [Option.some.injEq, h]

theorem comment_no {c : Char} {s : Str} (h : ¬ (c = ';' ∨ c = '#')) : skipComment.eval ⟨[], [], c :: s⟩ = some (false, ⟨[], [], c :: s⟩) := by
  unfold skipComment
  scan [h]

theorem string_no {c : Char} {s : Str} (h : ¬ (c = '"' ∨ c = '\'')) : lexString.eval ⟨[], [], c :: s⟩ = some (false, ⟨[], [], c :: s⟩) := by
  unfold lexString
  scan [h]

theorem number_no {c : Char} {s : Str} (h : isDigit c = false) (h' : c = '+' ∨ c = '-' → ∀ d ∈ s.head?, isDigit d = false) :
    lexNumber.eval ⟨[], [], c :: s⟩ = some (false, ⟨[], [], c :: s⟩) := by
  unfold lexNumber
  by_cases hs : c = '-' ∨ c = '+'
  · have h1 : c.utf8Size = 1 := by rcases hs with rfl | rfl <;> rfl
    have h2 := h' hs.symm
    have h3 : splitBytes 1 (c :: s) = some ([c], s) := by rw [splitBytes]; simp [h1, splitBytes]
    cases s with
    | nil => scan [h, hs, eval_lookN, h3]
    | cons d s => scan [h, hs, eval_lookN, h3, h2 d (by simp)]
  · scan [h, hs]

theorem identifier_no {c : Char} {s : Str} (h : nameStart c = false) : lexIdentifier.eval ⟨[], [], c :: s⟩ = some (false, ⟨[], [], c :: s⟩) := by
  unfold lexIdentifier
  scan [h]

theorem punctuation_no {c : Char} {s : Str} (h : markKind c = none) : lexPunctuation.eval ⟨[], [], c :: s⟩ = some (false, ⟨[], [], c :: s⟩) := by
  unfold lexPunctuation
  have h1 : List.isPrefixOf ['[', '['] (c :: s) = false := by
    have : c ≠ '[' := by rintro rfl; simp [markKind] at h
    simp [List.isPrefixOf, Ne.symm this]
  have h2 : List.isPrefixOf [']', ']'] (c :: s) = false := by
    have : c ≠ ']' := by rintro rfl; simp [markKind] at h
    simp [List.isPrefixOf, Ne.symm this]
  scan [h1, h2, h]

/-! ### What begins here -/

theorem string_loop {q : Char} (hq : q = '"' ∨ q = '\'') {s rest : Str} (h : IniString q s rest) (d : List (Option Nat × Str)) (m : Str) :
    (while_ 0 (stringTurn q)).eval ⟨d, m, s ++ rest⟩ = some (0, ⟨d, m ++ s, rest⟩) := by
  have hb : ('\\' : Char) ≠ q := by rcases hq with rfl | rfl <;> decide
  have hs : q.utf8Size = 1 := by rcases hq with rfl | rfl <;> rfl
  induction h generalizing m with
  | close => rw [eval_while, stringTurn]; scan [eval_skip_one hs]
  | open_ => rw [eval_while, stringTurn]; scan
  | last =>
    rw [eval_while, stringTurn]
    scan [eval_skip_one, hb]
    rw [eval_while, stringTurn]
    scan
  | escaped ha _ ih =>
    rw [eval_while, stringTurn]
    scan [eval_skip_one, hb, eval_skip_one (size_one ha)]
    rw [if_pos (by omega), ih]
    simp
  | plain h1 h2 _ ih =>
    rw [eval_while, stringTurn]
    scan [h1, h2, eval_skip_char]
    rw [ih]
    simp

theorem digits_loop {ds : Str} (h : Digits ds) (i : Nat) (d : List (Option Nat × Str)) (m rest : Str) :
    (while_ i numberTurn).eval ⟨d, m, ds ++ rest⟩ = (while_ i numberTurn).eval ⟨d, m ++ ds, rest⟩ := by
  induction ds generalizing m with
  | nil => simp
  | cons c ds ih =>
    have hc := (isDigit_iff c).mpr (h c (by simp))
    rw [eval_while, numberTurn]
    scan [hc, eval_skip_one (isDigit_size hc)]
    rw [ih (fun c hc => h c (by simp [hc]))]
    simp

/-- Which number it is so far: 0 digits, 1 with a point, 2 with an exponent. -/
def phase (fraction exponent : Str) : Nat := if exponent = [] then if fraction = [] then 0 else 1 else 2

theorem number_stop {fraction exponent rest : Str} (h : IniNumberEnds fraction exponent rest) (d : List (Option Nat × Str)) (m : Str) :
    (while_ (phase fraction exponent) numberTurn).eval ⟨d, m, rest⟩ = some (phase fraction exponent, ⟨d, m, rest⟩) := by
  rw [eval_while, numberTurn]
  cases rest with
  | nil => scan
  | cons c s =>
    obtain ⟨h1, h2, h3, h4⟩ := h c (by simp)
    have hd : isDigit c = false := by rw [Bool.eq_false_iff]; exact fun e => h1 ((isDigit_iff c).mp e)
    have hp : ¬ (c = '.' ∧ phase fraction exponent = 0) := by
      rintro ⟨rfl, hz⟩
      unfold phase at hz
      split at hz
      · split at hz
        · exact h2 ‹_› ‹_› rfl
        · cases hz
      · cases hz
    have he : ¬ ((c = 'e' ∨ c = 'E') ∧ phase fraction exponent ≠ 2) := by
      rintro ⟨hc, hz⟩
      unfold phase at hz
      split at hz
      · obtain ⟨a, b⟩ := h3 ‹_›
        rcases hc with hc | hc <;> contradiction
      · exact hz rfl
    scan [hd, hp, he]

theorem exponent_loop {fraction exponent rest : Str} (he : IniExponent exponent) (h : IniNumberEnds fraction exponent rest)
    (d : List (Option Nat × Str)) (m : Str) : (while_ (phase fraction []) numberTurn).eval ⟨d, m, exponent ++ rest⟩ =
      some (phase fraction exponent, ⟨d, m ++ exponent, rest⟩) := by
  rcases he with rfl | ⟨e, sign, ds, hc, hsign, rfl, hds⟩
  · simpa using number_stop h d m
  · have hp : phase fraction [] ≠ 2 := by unfold phase; rw [if_pos rfl]; split <;> simp
    have h2 : phase fraction (e :: (sign ++ ds)) = 2 := by simp [phase]
    have hd : isDigit e = false := by rcases hc with rfl | rfl <;> decide
    have hdot : ¬ (e = '.' ∧ phase fraction [] = 0) := by rintro ⟨rfl, _⟩; simp at hc
    have hsz : e.utf8Size = 1 := by rcases hc with rfl | rfl <;> rfl
    have key : exponentSign.eval ⟨d, m ++ [e], sign ++ (ds ++ rest)⟩ = some ((), ⟨d, m ++ e :: sign, ds ++ rest⟩) := by
      unfold exponentSign
      rcases hsign with rfl | rfl | rfl
      · cases ds with
        | nil =>
          cases rest with
          | nil => scan
          | cons c s =>
            obtain ⟨_, _, _, h4⟩ := h c (by simp)
            obtain ⟨a, b⟩ := h4 rfl
            have : ¬ (c = '+' ∨ c = '-') := by simp [a, b]
            scan [this]
        | cons c ds =>
          have hc := hds c (by simp)
          have : ¬ (c = '+' ∨ c = '-') := by rintro (rfl | rfl) <;> exact absurd hc (by decide)
          scan [this]
      · scan [eval_skip_one]
      · scan [eval_skip_one]
    have hlen : (ds ++ rest).length < (e :: (sign ++ ds) ++ rest).length := by simp; omega
    rw [eval_while, numberTurn]
    simp only [List.cons_append, List.append_assoc] at hlen ⊢
    scan [hd, hdot, hc, hp, eval_skip_one hsz, key]
    rw [if_pos (by simp only [List.length_append]; omega), digits_loop hds]
    have := number_stop h d (m ++ e :: sign ++ ds)
    rw [h2] at this
    rw [h2]
    simpa using this

theorem fraction_loop {fraction exponent rest : Str} (hf : IniFraction fraction) (he : IniExponent exponent)
    (h : IniNumberEnds fraction exponent rest) (d : List (Option Nat × Str)) (m : Str) :
    (while_ 0 numberTurn).eval ⟨d, m, fraction ++ (exponent ++ rest)⟩ = some (phase fraction exponent, ⟨d, m ++ (fraction ++ exponent), rest⟩) := by
  rcases hf with rfl | ⟨ds, rfl, hds⟩
  · exact exponent_loop (fraction := []) he h d m
  · rw [eval_while, numberTurn]
    scan [show isDigit '.' = false by decide, eval_skip_one]
    rw [digits_loop hds]
    have := exponent_loop he h d (m ++ '.' :: ds)
    simp [phase] at this ⊢
    exact this

theorem number_rest {c : Char} {tail fraction exponent rest : Str} (hsz : c.utf8Size = 1) (hds : Digits tail)
    (hc : isDigit c = true ∨ tail ≠ []) (hf : IniFraction fraction) (he : IniExponent exponent) (h : IniNumberEnds fraction exponent rest) :
    numberRest.eval ⟨[], [], c :: (tail ++ (fraction ++ (exponent ++ rest)))⟩ = some (true,
      ⟨[(some (if fraction = [] ∧ exponent = [] then integer else float), c :: (tail ++ (fraction ++ exponent)))], [], rest⟩) := by
  unfold numberRest
  have h1 : (while_ 0 numberTurn).eval ⟨[], [c], tail ++ (fraction ++ (exponent ++ rest))⟩ =
      some (phase fraction exponent, ⟨[], c :: (tail ++ (fraction ++ exponent)), rest⟩) := by
    rw [digits_loop hds, fraction_loop hf he h]; simp
  have h2 : ¬ (c :: (tail ++ (fraction ++ exponent)) = ['-'] ∨ c :: (tail ++ (fraction ++ exponent)) = ['+'] ∨
      c :: (tail ++ (fraction ++ exponent)) = ['.']) := by
    rcases hc with hc | hc
    · have : c ≠ '-' ∧ c ≠ '+' ∧ c ≠ '.' := by refine ⟨?_, ?_, ?_⟩ <;> (rintro rfl; exact absurd hc (by decide))
      simp [this]
    · simp [hc]
  scan [eval_skip_one hsz, h1, h2]
  by_cases hz : fraction = [] ∧ exponent = []
  · rw [if_pos (by simp [phase, hz]), if_pos hz]
  · rw [if_neg (by unfold phase; split <;> (try split) <;> simp_all), if_neg hz]

theorem number_yes {sign ds fraction exponent rest : Str} (hs : sign = [] ∨ sign = ['+'] ∨ sign = ['-']) (h0 : ds ≠ []) (hds : Digits ds)
    (hf : IniFraction fraction) (he : IniExponent exponent) (h : IniNumberEnds fraction exponent rest) :
    lexNumber.eval ⟨[], [], sign ++ (ds ++ (fraction ++ (exponent ++ rest)))⟩ = some (true,
      ⟨[(some (if fraction = [] ∧ exponent = [] then integer else float), sign ++ (ds ++ (fraction ++ exponent)))], [], rest⟩) := by
  obtain ⟨c, tail, rfl⟩ := List.exists_cons_of_ne_nil h0
  have hc := (isDigit_iff c).mpr (hds c (by simp))
  unfold lexNumber
  have signed : ∀ x : Char, x = '-' ∨ x = '+' → (do
      match ← look with
      | some c =>
        if isDigit c then numberRest
        else if c = '-' ∨ c = '+' then
          match ← lookN 1 with
          | some d => if isDigit d then numberRest else return false
          | none => return false
        else return false
      | none => return false : Scn Bool).eval ⟨[], [], x :: (c :: tail ++ (fraction ++ (exponent ++ rest)))⟩ = some (true,
      ⟨[(some (if fraction = [] ∧ exponent = [] then integer else float), x :: (c :: tail ++ (fraction ++ exponent)))], [], rest⟩) := by
    intro x hx
    have hsz : x.utf8Size = 1 := by rcases hx with rfl | rfl <;> rfl
    have hd : isDigit x = false := by rcases hx with rfl | rfl <;> decide
    have h3 : splitBytes 1 (x :: (c :: (tail ++ (fraction ++ (exponent ++ rest))))) = some ([x], c :: (tail ++ (fraction ++ (exponent ++ rest)))) := by
      rw [splitBytes]; simp [hsz, splitBytes]
    have := number_rest hsz hds (.inr (by simp)) hf he h
    simp only [List.cons_append] at this ⊢
    scan [hd, hx, eval_lookN, h3, hc, this]
  rcases hs with rfl | rfl | rfl
  · have := number_rest (isDigit_size hc) (tail := tail) (fun x hx => hds x (List.mem_cons_of_mem _ hx)) (.inl hc) hf he h
    simp only [List.nil_append, List.cons_append] at this ⊢
    scan [hc, this]
  · exact signed '+' (.inr rfl)
  · exact signed '-' (.inl rfl)

theorem digit_not {c : Char} (h : isDigit c = true) : isBlank c = false ∧ c ≠ '\n' ∧ ¬ (c = ';' ∨ c = '#') ∧ ¬ (c = '"' ∨ c = '\'') := by
  have key : ∀ d : Char, isDigit d = false → c ≠ d := by rintro d hd rfl; rw [h] at hd; cases hd
  refine ⟨?_, key _ (by decide), ?_, ?_⟩
  · simp [isBlank, key ' ' (by decide), key '\t' (by decide), key '\r' (by decide)]
  · simp [key ';' (by decide), key '#' (by decide)]
  · simp [key '"' (by decide), key '\'' (by decide)]

theorem number_eval {c : Char} {s : Str} (hc : isDigit c = true ∨ c = '+' ∨ c = '-') {st : PSt}
    (h : lexNumber.eval ⟨[], [], c :: s⟩ = some (true, st)) : step.eval ⟨[], [], c :: s⟩ = some (.again, st) := by
  have : isBlank c = false ∧ c ≠ '\n' ∧ ¬ (c = ';' ∨ c = '#') ∧ ¬ (c = '"' ∨ c = '\'') := by
    rcases hc with hc | rfl | rfl
    · exact digit_not hc
    · decide
    · decide
  obtain ⟨h1, h2, h3, h4⟩ := this
  unfold step
  rw [firstOf_miss (blank_no h1), firstOf_miss (newline_no h2), firstOf_miss (comment_no h3), firstOf_miss (string_no h4)]
  exact firstOf_hit h

theorem start_not {c : Char} (h : nameStart c = true) : isBlank c = false ∧ c ≠ '\n' ∧ ¬ (c = ';' ∨ c = '#') ∧ ¬ (c = '"' ∨ c = '\'') ∧
    isDigit c = false ∧ ¬ (c = '+' ∨ c = '-') := by
  obtain ⟨t1, t2, ⟨t3, t4⟩, ⟨t5, t6, t7⟩, _, _⟩ := Toml.letter_tests ((nameStart_iff c).mp h)
  have key : ∀ d : Char, nameStart d = false → c ≠ d := by rintro d hd rfl; rw [h] at hd; cases hd
  refine ⟨?_, key _ (by decide), ?_, ?_, t5, ?_⟩
  · simp [isBlank, key ' ' (by decide), key '\t' (by decide), key '\r' (by decide)]
  · simp [key ';' (by decide), key '#' (by decide)]
  · simp [key '"' (by decide), key '\'' (by decide)]
  · simp [key '+' (by decide), key '-' (by decide)]

theorem no_colon {m rest : Str} (h : LongRun TomlKeyChar m rest) : ':' ∉ m := by
  intro hm
  have := h.1 _ hm
  exact absurd this (by decide)

theorem word_eval {c : Char} {m rest : Str} (hc : TomlKeyStart c) (h : LongRun TomlKeyChar (c :: m) rest) :
    step.eval ⟨[], [], c :: (m ++ rest)⟩ = some (.again, ⟨[(some (if IniBoolean (c :: m) then boolean else identifier), c :: m)], [], rest⟩) := by
  have hs := (nameStart_iff c).mpr hc
  obtain ⟨h1, h2, h3, h4, h5, h6⟩ := start_not hs
  obtain ⟨t1, t2⟩ := longRun_take (m := m) (rest := rest) nameChar_iff ⟨fun x hx => h.1 x (by simp [hx]), h.2⟩
  have hk : wordKind (c :: m) = if IniBoolean (c :: m) then boolean else identifier := by
    unfold wordKind
    have := no_colon h
    by_cases hb : IniBoolean (c :: m)
    · rw [if_pos hb]; exact if_pos hb
    · rw [if_neg hb]; exact (if_neg hb).trans (if_neg fun h => this h.2)
  unfold step
  rw [firstOf_miss (blank_no h1), firstOf_miss (newline_no h2), firstOf_miss (comment_no h3), firstOf_miss (string_no h4),
    firstOf_miss (number_no h5 (fun h => absurd h h6))]
  refine firstOf_hit ?_
  unfold lexIdentifier
  scan [hs, eval_skip_one (nameStart_size hs), eval_whilePeek _ _ nameChar_size, t1, t2, hk]

theorem mark_not {c : Char} {k : Nat} (h : markKind c = some k) : isBlank c = false ∧ c ≠ '\n' ∧ ¬ (c = ';' ∨ c = '#') ∧
    ¬ (c = '"' ∨ c = '\'') ∧ isDigit c = false ∧ ¬ (c = '+' ∨ c = '-') ∧ nameStart c = false ∧ c.utf8Size = 1 := by
  have : c ∈ "{}[],.=".toList := by
    unfold markKind at h
    simp
    (repeat' split at h) <;> simp_all
  simp at this
  rcases this with rfl | rfl | rfl | rfl | rfl | rfl | rfl <;> decide

theorem punctuation_eval {c : Char} {k : Nat} {s : Str} (h : markKind c = some k) {st : PSt}
    (hp : lexPunctuation.eval ⟨[], [], c :: s⟩ = some (true, st)) : step.eval ⟨[], [], c :: s⟩ = some (.again, st) := by
  obtain ⟨h1, h2, h3, h4, h5, h6, h7, _⟩ := mark_not h
  unfold step
  rw [firstOf_miss (blank_no h1), firstOf_miss (newline_no h2), firstOf_miss (comment_no h3), firstOf_miss (string_no h4),
    firstOf_miss (number_no h5 (fun h => absurd h h6)), firstOf_miss (identifier_no h7)]
  exact firstOf_hit hp

theorem single_eval {c : Char} {k : Nat} {s : Str} (h : markKind c = some k) (h1 : List.isPrefixOf ['[', '['] (c :: s) = false)
    (h2 : List.isPrefixOf [']', ']'] (c :: s) = false) : step.eval ⟨[], [], c :: s⟩ = some (.again, ⟨[(some k, [c])], [], s⟩) := by
  refine punctuation_eval h ?_
  unfold lexPunctuation
  scan [h1, h2, h]

theorem other_eval {c : Char} {s : Str} (h1 : ¬ IniBlank c) (h2 : ¬ TomlKeyStart c) (h3 : ¬ AsciiDigit c) (h4 : c ∉ "\n;#\"'[]{},.=".toList)
    (h5 : c = '+' ∨ c = '-' → ∀ d ∈ s.head?, ¬ AsciiDigit d) : step.eval ⟨[], [], c :: s⟩ = some (.guard, ⟨[], [], c :: s⟩) := by
  have f : ∀ {b : Bool} {P : Prop}, (b = true ↔ P) → ¬ P → b = false := by
    intro b P hb hp; rw [Bool.eq_false_iff]; exact fun h => hp (hb.mp h)
  have h : c ≠ '\n' ∧ c ≠ ';' ∧ c ≠ '#' ∧ c ≠ '"' ∧ c ≠ '\'' ∧ c ≠ '[' ∧ c ≠ ']' ∧ c ≠ '{' ∧ c ≠ '}' ∧ c ≠ ',' ∧ c ≠ '.' ∧ c ≠ '=' := by
    simpa using h4
  obtain ⟨g1, g2, g3, g4, g5, g6, g7, g8, g9, g10, g11, g12⟩ := h
  unfold step
  rw [firstOf_miss (blank_no (f (isBlank_iff c) h1)), firstOf_miss (newline_no g1), firstOf_miss (comment_no (by simp [g2, g3])),
    firstOf_miss (string_no (by simp [g4, g5])),
    firstOf_miss (number_no (f (isDigit_iff c) h3) (fun hs d hd => f (isDigit_iff d) (h5 hs d hd))),
    firstOf_miss (identifier_no (f (nameStart_iff c) h2)), firstOf_miss (punctuation_no (by simp [markKind, *]))]
  rfl

/-- Every piece of the specification is one turn of the lexer. -/
theorem token_turn {k : Option Nat} {m rest : Str} (_ : m ≠ []) (h : IniToken k m rest) : turn step (m ++ rest) = some ([(k, m)], rest) := by
  cases h with
  | blank hm h =>
    obtain ⟨c, m, rfl⟩ := List.exists_cons_of_ne_nil hm
    obtain ⟨h1, h2⟩ := longRun_take isBlank_iff h
    refine turn_again ?_
    unfold step
    refine firstOf_hit ?_
    unfold skipWhitespace
    rw [List.cons_append] at h1 h2 ⊢
    scan [eval_whilePeek _ _ (fun _ _ => rfl), h1, h2]
  | newline =>
    refine turn_again ?_
    unfold step
    rw [List.singleton_append, firstOf_miss (blank_no (by decide))]
    refine firstOf_hit ?_
    unfold lexNewline
    scan [eval_skip_one]
  | comment hc h =>
    obtain ⟨h1, h2⟩ := longRun_take (p := fun c => !(c == '\n')) (by simp) h
    refine turn_again ?_
    unfold step
    rw [List.cons_append]
    have hs : ∀ {c : Char}, c = ';' ∨ c = '#' → isBlank c = false ∧ c ≠ '\n' ∧ c.utf8Size = 1 := by rintro c (rfl | rfl) <;> decide
    rw [firstOf_miss (blank_no (hs hc).1), firstOf_miss (newline_no (hs hc).2.1)]
    refine firstOf_hit ?_
    unfold skipComment
    scan [hc, eval_skip_one (hs hc).2.2, eval_whilePeek _ _ (fun _ _ => rfl), h1, h2]
  | string hq h =>
    refine turn_again ?_
    unfold step
    rw [List.cons_append]
    have hs : ∀ {c : Char}, c = '"' ∨ c = '\'' → isBlank c = false ∧ c ≠ '\n' ∧ ¬ (c = ';' ∨ c = '#') ∧ c.utf8Size = 1 := by
      rintro c (rfl | rfl) <;> decide
    obtain ⟨s1, s2, s3, s4⟩ := hs hq
    rw [firstOf_miss (blank_no s1), firstOf_miss (newline_no s2), firstOf_miss (comment_no s3)]
    refine firstOf_hit ?_
    unfold lexString
    scan [hq, eval_skip_one s4, string_loop hq h]
  | number hs h0 hds hf he h =>
    refine turn_again ?_
    have := number_yes hs h0 hds hf he h
    simp only [List.append_assoc]
    obtain ⟨c, tail, rfl⟩ := List.exists_cons_of_ne_nil h0
    have hc := (isDigit_iff c).mpr (hds c (by simp))
    rcases hs with rfl | rfl | rfl
    · exact number_eval (.inl hc) this
    · exact number_eval (.inr (.inl rfl)) this
    · exact number_eval (.inr (.inr rfl)) this
  | word hc h => exact turn_again (word_eval hc h)
  | open2 =>
    refine turn_again (punctuation_eval (c := '[') (k := leftBracket) (s := '[' :: rest) rfl ?_)
    have : List.isPrefixOf ['[', '['] ('[' :: '[' :: rest) = true := by simp [List.isPrefixOf]
    have h2 : splitBytes 2 ('[' :: '[' :: rest) = some (['[', '['], rest) := by
      have hz : ('[' : Char).utf8Size = 1 := rfl
      simp [splitBytes, hz]
    unfold lexPunctuation
    scan [this, eval_skip, h2]
  | open1 h =>
    refine turn_again (single_eval (c := '[') rfl ?_ (by simp [List.isPrefixOf]))
    cases rest with
    | nil => rfl
    | cons c s => simp [List.isPrefixOf]; simpa [eq_comm] using h
  | close2 =>
    refine turn_again (punctuation_eval (c := ']') (k := rightBracket) (s := ']' :: rest) rfl ?_)
    have h1 : List.isPrefixOf ['[', '['] (']' :: ']' :: rest) = false := by simp [List.isPrefixOf]
    have : List.isPrefixOf [']', ']'] (']' :: ']' :: rest) = true := by simp [List.isPrefixOf]
    have h2 : splitBytes 2 (']' :: ']' :: rest) = some ([']', ']'], rest) := by
      have hz : (']' : Char).utf8Size = 1 := rfl
      simp [splitBytes, hz]
    unfold lexPunctuation
    scan [h1, this, eval_skip, h2]
  | close1 h =>
    refine turn_again (single_eval (c := ']') rfl (by simp [List.isPrefixOf]) ?_)
    cases rest with
    | nil => rfl
    | cons c s => simp [List.isPrefixOf]; simpa [eq_comm] using h
  | mark h =>
    simp only [iniMarks, List.mem_cons, Prod.mk.injEq, List.not_mem_nil, or_false] at h
    rcases h with ⟨rfl, rfl⟩ | ⟨rfl, rfl⟩ | ⟨rfl, rfl⟩ | ⟨rfl, rfl⟩ | ⟨rfl, rfl⟩ <;>
      exact turn_again (single_eval rfl (by simp [List.isPrefixOf]) (by simp [List.isPrefixOf]))
  | other h1 h2 h3 h4 h5 =>
    have := other_eval h1 h2 h3 h4 h5
    simp [turn, this, gap]

theorem ini_string_exists {q : Char} (hq : q ≠ '\\') : ∀ (n : Nat) (s : Str), s.length ≤ n → IniEscapes s → ∃ m r, s = m ++ r ∧ IniString q m r := by
  have tail : ∀ (c : Char) (s : Str), IniEscapes (c :: s) → IniEscapes s := by
    intro c s h a e b hs
    exact h (c :: a) e b (by rw [hs]; rfl)
  intro n
  induction n with
  | zero =>
    intro s hs _
    obtain rfl : s = [] := by cases s <;> simp at hs ⊢
    exact ⟨[], [], rfl, .open_⟩
  | succ n ih =>
    intro s hs he
    cases s with
    | nil => exact ⟨[], [], rfl, .open_⟩
    | cons c s =>
      by_cases h1 : c = q
      · subst h1; exact ⟨[c], s, rfl, .close⟩
      by_cases h2 : c = '\\'
      · subst h2
        cases s with
        | nil => exact ⟨_, [], (List.append_nil _).symm, .last⟩
        | cons e s =>
          obtain ⟨m, r, rfl, hm⟩ := ih s (by simp at hs; omega) (tail e s (tail _ _ he))
          exact ⟨'\\' :: e :: m, r, rfl, .escaped (he [] e _ rfl) hm⟩
      · obtain ⟨m, r, rfl, hm⟩ := ih s (by simp at hs; omega) (tail c s he)
        exact ⟨c :: m, r, rfl, .plain h1 h2 hm⟩

theorem run_exists (p : Char → Bool) {P : Char → Prop} (hp : ∀ c, p c = true ↔ P c) (s : Str) :
    ∃ m r, s = m ++ r ∧ LongRun P m r := by
  refine ⟨s.takeWhile p, s.dropWhile p, List.takeWhile_append_dropWhile.symm, ?_⟩
  have := longRun_span p s
  rwa [show (fun c => p c = true) = P from funext fun c => propext (hp c)] at this

/-- Where digits begin there is a number. -/
theorem number_exists {s : Str} {c : Char} (hc : s.head? = some c) (hd : AsciiDigit c) : ∃ ds fraction exponent r,
    s = ds ++ (fraction ++ (exponent ++ r)) ∧ ds ≠ [] ∧ Digits ds ∧ IniFraction fraction ∧ IniExponent exponent ∧
      IniNumberEnds fraction exponent r := by
  obtain ⟨ds, r, rfl, h1, h2⟩ := run_exists isDigit isDigit_iff s
  have h0 : ds ≠ [] := by
    rintro rfl
    exact h2 c hc hd
  obtain ⟨fraction, r', rfl, hf, hfe⟩ : ∃ fraction r', r = fraction ++ r' ∧ IniFraction fraction ∧
      ∀ c ∈ r'.head?, ¬ AsciiDigit c ∧ (fraction = [] → c ≠ '.') := by
    by_cases hp : r.head? = some '.'
    · obtain ⟨t, rfl⟩ : ∃ t, r = '.' :: t := by cases r <;> simp_all
      obtain ⟨fs, r', rfl, g1, g2⟩ := run_exists isDigit isDigit_iff t
      exact ⟨'.' :: fs, r', rfl, .inr ⟨fs, rfl, g1⟩, fun c hc => ⟨g2 c hc, by simp⟩⟩
    · refine ⟨[], r, rfl, .inl rfl, fun c hc => ⟨h2 c hc, fun _ e => hp ?_⟩⟩
      rw [← e]; exact hc
  by_cases he : r'.head? = some 'e' ∨ r'.head? = some 'E'
  · obtain ⟨e, t, rfl, hE⟩ : ∃ e t, r' = e :: t ∧ (e = 'e' ∨ e = 'E') := by
      cases r' with
      | nil => simp at he
      | cons e t => exact ⟨e, t, rfl, by simpa using he⟩
    obtain ⟨sign, u, rfl, hs, hu⟩ : ∃ sign u, t = sign ++ u ∧ (sign = [] ∨ sign = ['+'] ∨ sign = ['-']) ∧
        (sign = [] → ∀ c ∈ u.head?, c ≠ '+' ∧ c ≠ '-') := by
      cases t with
      | nil => exact ⟨[], [], rfl, .inl rfl, by simp⟩
      | cons x u =>
        by_cases hx : x = '+' ∨ x = '-'
        · exact ⟨[x], u, rfl, by rcases hx with rfl | rfl <;> simp, by simp⟩
        · exact ⟨[], x :: u, rfl, .inl rfl, fun _ c hc => by simp at hc; subst hc; simpa using hx⟩
    obtain ⟨es, r'', rfl, g1, g2⟩ := run_exists isDigit isDigit_iff u
    refine ⟨ds, fraction, e :: (sign ++ es), r'', by simp, h0, h1, hf, .inr ⟨e, sign, es, hE, hs, rfl, g1⟩, fun x hx => ⟨g2 x hx, by simp, by simp, ?_⟩⟩
    intro hl
    obtain ⟨rfl, rfl⟩ : sign = [] ∧ es = [] := by simpa [and_comm] using hl
    exact hu rfl x hx
  · refine ⟨ds, fraction, [], r', by simp, h0, h1, hf, .inl rfl, fun c hc => ⟨(hfe c hc).1, fun h _ => (hfe c hc).2 h, fun _ => ?_, by simp⟩⟩
    constructor
    · rintro rfl; exact he (.inl hc)
    · rintro rfl; exact he (.inr hc)

/-- Every text without escaped characters of several bytes begins with a piece. -/
theorem token_exists {t : Str} (h0 : t ≠ []) (he : IniEscapes t) : ∃ k m r, t = m ++ r ∧ m ≠ [] ∧ IniToken k m r := by
  obtain ⟨c, s, rfl⟩ := List.exists_cons_of_ne_nil h0
  by_cases h1 : IniBlank c
  · obtain ⟨m, r, hm, hl⟩ := run_exists isBlank isBlank_iff (c :: s)
    have : m ≠ [] := by
      rintro rfl
      obtain rfl : r = c :: s := by simpa using hm.symm
      exact hl.2 c rfl h1
    exact ⟨_, m, r, hm, this, .blank this hl⟩
  by_cases h2 : c = '\n'
  · subst h2; exact ⟨_, ['\n'], s, rfl, by simp, .newline⟩
  by_cases h3 : c = ';' ∨ c = '#'
  · obtain ⟨m, r, rfl, hl⟩ := run_exists (fun c => !(c == '\n')) (P := fun c => c ≠ '\n') (by simp) s
    exact ⟨_, c :: m, r, rfl, by simp, .comment h3 hl⟩
  by_cases h4 : c = '"' ∨ c = '\''
  · obtain ⟨m, r, rfl, hm⟩ := ini_string_exists (q := c) (by rcases h4 with rfl | rfl <;> decide) s.length s (Nat.le_refl _)
      (fun a e b hs => he (c :: a) e b (by rw [hs]; rfl))
    exact ⟨_, c :: m, r, rfl, by simp, .string h4 hm⟩
  by_cases h5 : AsciiDigit c
  · obtain ⟨ds, f, e, r, hs, g0, g1, g2, g3, g4⟩ := number_exists (s := c :: s) rfl h5
    exact ⟨_, [] ++ (ds ++ (f ++ e)), r, by rw [hs]; simp, by simp [g0], .number (.inl rfl) g0 g1 g2 g3 g4⟩
  by_cases h6 : (c = '+' ∨ c = '-') ∧ ∃ d, s.head? = some d ∧ AsciiDigit d
  · obtain ⟨hs, d, hd, hdd⟩ := h6
    obtain ⟨ds, f, e, r, rfl, g0, g1, g2, g3, g4⟩ := number_exists hd hdd
    exact ⟨_, [c] ++ (ds ++ (f ++ e)), r, by simp, by simp, .number (by rcases hs with rfl | rfl <;> simp) g0 g1 g2 g3 g4⟩
  by_cases h7 : TomlKeyStart c
  · obtain ⟨m, r, rfl, hl⟩ := run_exists nameChar nameChar_iff s
    refine ⟨_, c :: m, r, rfl, by simp, .word h7 ⟨?_, hl.2⟩⟩
    intro x hx
    rcases List.mem_cons.mp hx with rfl | hx
    · rcases h7 with h | h
      · exact .inl h
      · exact .inr (.inr (.inl h))
    · exact hl.1 x hx
  by_cases h8 : c = '['
  · subst h8
    by_cases hh : s.head? = some '['
    · obtain ⟨t, rfl⟩ : ∃ t, s = '[' :: t := by cases s <;> simp_all
      exact ⟨_, ['[', '['], t, rfl, by simp, .open2⟩
    · exact ⟨_, ['['], s, rfl, by simp, .open1 hh⟩
  by_cases h9 : c = ']'
  · subst h9
    by_cases hh : s.head? = some ']'
    · obtain ⟨t, rfl⟩ : ∃ t, s = ']' :: t := by cases s <;> simp_all
      exact ⟨_, [']', ']'], t, rfl, by simp, .close2⟩
    · exact ⟨_, [']'], s, rfl, by simp, .close1 hh⟩
  by_cases h10 : c ∈ iniMarks.map (·.1)
  · obtain ⟨⟨a, k⟩, hm, rfl⟩ := List.mem_map.mp h10
    exact ⟨_, [a], s, rfl, by simp, .mark hm⟩
  refine ⟨_, [c], s, rfl, by simp, .other h1 h7 h5 ?_ ?_⟩
  · simp [iniMarks] at h10
    simp at h3 h4
    simp [*]
  · intro hs d hd hdd
    exact h6 ⟨hs, d, hd, hdd⟩

end Ini
end Oaks
