import Verif.Spec.Toml
import Verif.Proofs.ScanEval
import Verif.Proofs.ScanRuns

/-! The TOML lexer cuts a text into the pieces of the specification. -/
namespace Oaks
open Spec Scn

namespace Toml

theorem isBlank_iff (c : Char) : isBlank c = true ↔ TomlBlank c := by
  simp [isBlank, TomlBlank, or_assoc]
theorem isDigit_iff (c : Char) : isDigit c = true ↔ AsciiDigit c := by simp [isDigit, AsciiDigit]
theorem isLetter_iff (c : Char) : isLetter c = true ↔ AsciiLetter c := by simp [isLetter, AsciiLetter]
theorem keyChar_iff (c : Char) : keyChar c = true ↔ TomlKeyChar c := by
  simp [keyChar, TomlKeyChar, isDigit_iff, isLetter_iff, or_assoc]

theorem isBlank_size (c : Char) (h : isBlank c = true) : 1 = c.utf8Size := by
  simp [isBlank] at h; rcases h with ((rfl | rfl) | rfl) | rfl <;> rfl
theorem isDigit_size (c : Char) (h : isDigit c = true) : 1 = c.utf8Size :=
  (size_one (digit_ascii ((isDigit_iff c).mp h))).symm
theorem keyChar_size (c : Char) (h : keyChar c = true) : 1 = c.utf8Size := by
  rcases (keyChar_iff c).mp h with h | h | rfl | rfl
  · exact (size_one (letter_ascii h)).symm
  · exact (size_one (digit_ascii h)).symm
  · rfl
  · rfl

theorem blank_eval {c : Char} {s : Str} (hc : isBlank c = true) :
    step.eval ⟨[], [], c :: s⟩ = some (.again, ⟨[(some whitespace, (c :: s).takeWhile isBlank)], [], (c :: s).dropWhile isBlank⟩) := by
  unfold step skipWhitespace
  scan [hc, eval_whilePeek _ _ isBlank_size, List.takeWhile_cons]

theorem comment_eval (s : Str) :
    step.eval ⟨[], [], '#' :: s⟩ = some (.again, ⟨[(some comment, '#' :: s.takeWhile (fun c => !(c == '\n' || c == '\r')))], [],
      s.dropWhile (fun c => !(c == '\n' || c == '\r'))⟩) := by
  unfold step skipComment
  scan [eval_skip_one, eval_whilePeek _ _ (fun _ _ => rfl)]

theorem basic_loop (d : List (Option Nat × Str)) (m s : Str) (h : ∀ c ∈ (litSpan '"' (some '\\') s).1, Ascii c) :
    (while_ 0 basicTurn).eval ⟨d, m, s⟩ = some (0, ⟨d, m ++ (litSpan '"' (some '\\') s).1, (litSpan '"' (some '\\') s).2⟩) := by
  fun_induction litSpan '"' (some '\\') s generalizing m with
  | case1 => rw [eval_while, basicTurn]; scan
  | case2 c h0 =>
    obtain rfl : c = '\\' := by simpa using h0
    rw [eval_while, basicTurn]
    scan [eval_skip_one]
    rw [eval_while, basicTurn]
    scan
  | case3 c h0 e s p ih =>
    obtain rfl : c = '\\' := by simpa using h0
    have he := size_one (h e (by simp))
    rw [eval_while, basicTurn]
    scan [eval_skip_one, he]
    rw [if_pos (by omega), ih _ (fun c hc => h c (by simp [p, hc]))]
    simp [p]
  | case4 s h0 =>
    rw [eval_while, basicTurn]
    scan [eval_skip_one]
  | case5 c s h1 h2 p ih =>
    have h3 : c ≠ '\\' := fun e => h1 (by rw [e])
    have he := size_one (h c (by simp))
    rw [eval_while, basicTurn]
    scan [h2, h3, he, eval_skip_one]
    rw [ih _ (fun c hc => h c (by simp [p, hc]))]
    simp [p]

theorem literal_loop (d : List (Option Nat × Str)) (m s : Str) (h : ∀ c ∈ (litSpan '\'' none s).1, Ascii c) :
    (while_ 0 literalTurn).eval ⟨d, m, s⟩ = some (0, ⟨d, m ++ (litSpan '\'' none s).1, (litSpan '\'' none s).2⟩) := by
  fun_induction litSpan '\'' none s generalizing m with
  | case1 => rw [eval_while, literalTurn]; scan
  | case2 c h0 => simp at h0
  | case3 c h0 e s p ih => simp at h0
  | case4 s h0 =>
    rw [eval_while, literalTurn]
    scan [eval_skip_one]
  | case5 c s h1 h2 p ih =>
    have he := size_one (h c (by simp))
    rw [eval_while, literalTurn]
    scan [h2, he, eval_skip_one]
    rw [ih _ (fun c hc => h c (by simp [p, hc]))]
    simp [p]

theorem basic_eval {s : Str} (h : ∀ c ∈ (litSpan '"' (some '\\') s).1, Ascii c) :
    step.eval ⟨[], [], '"' :: s⟩ = some (.again, ⟨[(some basicString, '"' :: (litSpan '"' (some '\\') s).1)], [],
      (litSpan '"' (some '\\') s).2⟩) := by
  unfold step lexString
  scan [eval_skip_one, basic_loop _ _ _ h]

theorem literal_eval {s : Str} (h : ∀ c ∈ (litSpan '\'' none s).1, Ascii c) :
    step.eval ⟨[], [], '\'' :: s⟩ = some (.again, ⟨[(some literalString, '\'' :: (litSpan '\'' none s).1)], [],
      (litSpan '\'' none s).2⟩) := by
  unfold step lexString
  scan [eval_skip_one, literal_loop _ _ _ h]

theorem integer_tail {d : List (Option Nat × Str)} {m ds rest : Str} (h : LongRun AsciiDigit ds rest) (hr : rest.head? ≠ some '.') :
    numberTail.eval ⟨d, m, ds ++ rest⟩ = some (true, ⟨d ++ [(some integer, m ++ ds)], [], rest⟩) := by
  obtain ⟨h1, h2⟩ := longRun_take isDigit_iff h
  unfold numberTail
  cases rest with
  | nil =>
    rw [List.append_nil] at h1 h2
    scan [eval_whilePeek _ _ isDigit_size, h1, h2]
  | cons c s =>
    have : c ≠ '.' := by simpa using hr
    scan [eval_whilePeek _ _ isDigit_size, h1, h2, this]

theorem float_tail {d : List (Option Nat × Str)} {m ds fs rest : Str} (h : ∀ c ∈ ds, AsciiDigit c) (hf : LongRun AsciiDigit fs rest) :
    numberTail.eval ⟨d, m, ds ++ '.' :: (fs ++ rest)⟩ = some (true, ⟨d ++ [(some float, m ++ (ds ++ '.' :: fs))], [], rest⟩) := by
  obtain ⟨h1, h2⟩ := longRun_take isDigit_iff (m := ds) (rest := '.' :: (fs ++ rest)) ⟨h, by simp [AsciiDigit]⟩
  obtain ⟨h3, h4⟩ := longRun_take isDigit_iff hf
  unfold numberTail
  scan [eval_whilePeek _ _ isDigit_size, h1, h2, h3, h4, eval_skip_one]

theorem notBlank_digit {c : Char} (h : isDigit c = true) : isBlank c = false := by
  rw [Bool.eq_false_iff]; intro hb
  simp [isBlank] at hb; rcases hb with ((rfl | rfl) | rfl) | rfl <;> simp [isDigit] at h

theorem digit_ne {c : Char} (h : isDigit c = true) (d : Char) (hd : isDigit d = false := by decide) : (c == d) = false := by
  simp only [beq_eq_false_iff_ne]; rintro rfl; rw [h] at hd; cases hd

theorem number_eval {sign body : Str} {st : PSt} (hs : sign = [] ∧ (∃ c s, body = c :: s ∧ AsciiDigit c) ∨ sign = ['+'] ∨ sign = ['-'])
    (h : numberTail.eval ⟨[], sign, body⟩ = some (true, st)) : step.eval ⟨[], [], sign ++ body⟩ = some (.again, st) := by
  unfold step lexNumber
  rcases hs with ⟨rfl, c, s, rfl, hc⟩ | rfl | rfl
  · have hc := (isDigit_iff c).mpr hc
    scan [notBlank_digit hc, digit_ne hc '#', digit_ne hc '"', digit_ne hc '\'', digit_ne hc '-', digit_ne hc '+', hc, h, Bool.or_self, Bool.true_or,
      Bool.or_false]
  · scan [eval_skip_one, h]
  · scan [eval_skip_one, h]

theorem letter_tests {c : Char} (h : TomlKeyStart c) : isBlank c = false ∧ (c == '#') = false ∧ ((c == '"') = false ∧ (c == '\'') = false) ∧
    (isDigit c = false ∧ (c == '+') = false ∧ (c == '-') = false) ∧ c ∉ "[]{},.=".toList ∧ (isLetter c || c == '_') = true ∧ keyChar c = true := by
  rcases h with h | rfl
  · have hl := (isLetter_iff c).mpr h
    have key : ∀ d : Char, isLetter d = false → (c == d) = false := by
      intro d hd; simp only [beq_eq_false_iff_ne]; rintro rfl; rw [hl] at hd; cases hd
    refine ⟨?_, key _ (by decide), ⟨key _ (by decide), key _ (by decide)⟩, ⟨?_, key _ (by decide), key _ (by decide)⟩, ?_, by simp [hl],
      by simp [keyChar, hl]⟩
    · simp [isBlank, key]
      refine ⟨⟨⟨?_, ?_⟩, ?_⟩, ?_⟩ <;> (rintro rfl; exact absurd hl (by decide))
    · rw [Bool.eq_false_iff]
      intro hd
      have h1 := (isDigit_iff c).mp hd
      have h2 : c.val ≤ 57 := h1.2
      rcases h with h | h
      · have h3 : (97 : UInt32) ≤ c.val := h.1
        have := UInt32.le_trans h3 h2; exact absurd this (by decide)
      · have h3 : (65 : UInt32) ≤ c.val := h.1
        have := UInt32.le_trans h3 h2; exact absurd this (by decide)
    · intro hm
      simp at hm
      rcases hm with rfl | rfl | rfl | rfl | rfl | rfl | rfl <;> exact absurd hl (by decide)
  · decide

theorem word_eval {c : Char} {m rest : Str} (hc : TomlKeyStart c) (h : LongRun TomlKeyChar (c :: m) rest) :
    step.eval ⟨[], [], c :: (m ++ rest)⟩ = some (.again, ⟨[(some (if c :: m = "true".toList ∨ c :: m = "false".toList then boolean else bareKey), c :: m)], [], rest⟩) := by
  obtain ⟨h1, h2⟩ := longRun_take keyChar_iff h
  obtain ⟨t1, t2, ⟨t3, t4⟩, ⟨t5, t6, t7⟩, t8, t9, t10⟩ := letter_tests hc
  unfold step lexIdentifier
  scan [t1, t2, t3, t4, t5, t6, t7, t8, t9, Bool.or_self, eval_whilePeek _ _ keyChar_size]
  rw [← List.cons_append, h1, h2]
  by_cases hw : c :: m = "true".toList ∨ c :: m = "false".toList
  · rw [if_pos hw, if_pos hw]; scan
  · rw [if_neg hw, if_neg hw]; scan

theorem other_eval {c : Char} {s : Str} (ha : Ascii c) (h1 : ¬ TomlBlank c) (h2 : ¬ TomlKeyStart c) (h3 : ¬ AsciiDigit c)
    (h4 : c ∉ "#\"'+-[]{},.=".toList) : step.eval ⟨[], [], c :: s⟩ = some (.again, ⟨[], [c], s⟩) := by
  have b1 : isBlank c = false := by rw [Bool.eq_false_iff]; intro h; exact h1 ((isBlank_iff c).mp h)
  have b3 : isDigit c = false := by rw [Bool.eq_false_iff]; intro h; exact h3 ((isDigit_iff c).mp h)
  have b2 : isLetter c = false := by rw [Bool.eq_false_iff]; intro h; exact h2 (.inl ((isLetter_iff c).mp h))
  have b4 : c ≠ '_' := fun e => h2 (.inr e)
  simp at h4
  obtain ⟨n1, n2, n3, n4, n5, n6, n7, n8, n9, n10, n11, n12⟩ := h4
  have hp : ∀ st : PSt, st.r.head? = some c → lexPunctuation.eval st = some (false, st) := by
    intro st hst
    unfold lexPunctuation
    rw [eval_bind, eval_look, hst]
    simp only [Option.bind_some]
    split <;> first | rfl | (rename_i heq; simp at heq; contradiction)
  unfold step
  scan [b1, b2, b3, hp, Bool.or_self, beq_eq_false_iff_ne.mpr n1, beq_eq_false_iff_ne.mpr n2, beq_eq_false_iff_ne.mpr n3, beq_eq_false_iff_ne.mpr n4,
    beq_eq_false_iff_ne.mpr n5, beq_eq_false_iff_ne.mpr b4]
  rw [if_neg (by simp; exact ⟨n6, n7, n8, n9, n10, n11, n12⟩), hp _ rfl]
  scan [eval_skip_one (size_one ha)]

theorem turn_again {r r' : Str} {k : Nat} {m : Str} (h : step.eval ⟨[], [], r⟩ = some (.again, ⟨[(some k, m)], [], r'⟩)) :
    turn step r = some ([(some k, m)], r') := by
  unfold turn; rw [h]; simp

/-- Every piece of the specification is one turn of the lexer. -/
theorem token_turn {k : Option Nat} {m rest : Str} (hm : m ≠ []) (h : TomlToken k m rest) : turn step (m ++ rest) = some ([(k, m)], rest) := by
  cases h with
  | blank h0 h =>
    obtain ⟨c, m, rfl⟩ := List.exists_cons_of_ne_nil hm
    obtain ⟨h1, h2⟩ := longRun_take isBlank_iff h
    refine turn_again ?_
    rw [List.cons_append] at h1 h2 ⊢
    rw [blank_eval ((isBlank_iff c).mpr (h.1 c (by simp))), h1, h2]
  | comment h =>
    obtain ⟨h1, h2⟩ := longRun_take (p := fun c => !(c == '\n' || c == '\r')) (by simp) h
    refine turn_again ?_
    rw [List.cons_append, comment_eval, h1, h2]
  | basic h ha =>
    obtain ⟨x, s, rfl, h1, h2⟩ := literal_span (by decide) h
    refine turn_again ?_
    rw [h1, basic_eval (by rw [h2]; exact fun c hc => ha c (List.mem_cons_of_mem _ hc)), h2]
  | literal h ha =>
    obtain ⟨x, s, rfl, h1, h2⟩ := literal_span (by decide) h
    refine turn_again ?_
    rw [h1, literal_eval (by rw [h2]; exact fun c hc => ha c (List.mem_cons_of_mem _ hc)), h2]
  | integer hs h hr =>
    refine turn_again ?_
    rw [List.append_assoc]
    refine number_eval ?_ (by rw [integer_tail h hr]; rfl)
    rcases hs with ⟨rfl, h0⟩ | h0
    · obtain ⟨c, s, rfl⟩ := List.exists_cons_of_ne_nil h0
      exact .inl ⟨rfl, c, _, rfl, h.1 c (by simp)⟩
    · exact .inr h0
  | float hs h hf =>
    refine turn_again ?_
    rw [List.append_assoc, List.append_assoc, List.cons_append]
    refine number_eval ?_ (by rw [float_tail h hf]; rfl)
    rcases hs with ⟨rfl, h0⟩ | h0
    · obtain ⟨c, s, rfl⟩ := List.exists_cons_of_ne_nil h0
      exact .inl ⟨rfl, c, _, rfl, h c (by simp)⟩
    · exact .inr h0
  | open2 => refine turn_again ?_; unfold step lexPunctuation; scan [eval_skip_one]
  | open1 h =>
    refine turn_again ?_; unfold step lexPunctuation
    cases rest with
    | nil => scan [eval_skip_one]
    | cons c s => have : c ≠ '[' := by simpa using h
                  scan [eval_skip_one, this]
  | close2 => refine turn_again ?_; unfold step lexPunctuation; scan [eval_skip_one]
  | close1 h =>
    refine turn_again ?_; unfold step lexPunctuation
    cases rest with
    | nil => scan [eval_skip_one]
    | cons c s => have : c ≠ ']' := by simpa using h
                  scan [eval_skip_one, this]
  | mark h =>
    simp only [tomlMarks, List.mem_cons, Prod.mk.injEq, List.not_mem_nil, or_false] at h
    rcases h with ⟨rfl, rfl⟩ | ⟨rfl, rfl⟩ | ⟨rfl, rfl⟩ | ⟨rfl, rfl⟩ | ⟨rfl, rfl⟩ <;>
      (refine turn_again ?_; unfold step lexPunctuation; scan [eval_skip_one])
  | word hc h => exact turn_again (word_eval hc h)
  | other ha h1 h2 h3 h4 =>
    unfold turn
    rw [List.singleton_append, other_eval ha h1 h2 h3 h4]
    simp [gap]

/-- Every text of ASCII characters begins with a piece. -/
theorem token_exists {t : Str} (h0 : t ≠ []) (ha : ∀ c ∈ t, Ascii c) : ∃ k m r, t = m ++ r ∧ m ≠ [] ∧ TomlToken k m r := by
  obtain ⟨c, s, rfl⟩ := List.exists_cons_of_ne_nil h0
  have lr : ∀ (p : Char → Bool) {P : Char → Prop} (_ : ∀ c, p c = true ↔ P c) (s : Str), LongRun P (s.takeWhile p) (s.dropWhile p) := by
    intro p P hp s
    have := longRun_span p s
    rwa [show (fun c => p c = true) = P from funext fun c => propext (hp c)] at this
  by_cases h1 : TomlBlank c
  · refine ⟨_, (c :: s).takeWhile isBlank, (c :: s).dropWhile isBlank, List.takeWhile_append_dropWhile.symm, ?_, .blank ?_ (lr _ isBlank_iff _)⟩ <;>
      simp [(isBlank_iff c).mpr h1]
  by_cases h2 : c = '#'
  · subst h2
    exact ⟨_, '#' :: s.takeWhile (fun c => !(c == '\n' || c == '\r')), s.dropWhile (fun c => !(c == '\n' || c == '\r')), by simp, by simp, .comment (lr _ (by simp) _)⟩
  by_cases h3 : c = '"'
  · subst h3
    obtain ⟨b, hb⟩ := span_literal (q := '"') (esc := some '\\') (by decide) s
    refine ⟨_, _, _, ?_, ?_, .basic hb ?_⟩
    · rw [List.cons_append, litSpan_text]
    · simp
    · intro c hc; apply ha
      rcases List.mem_cons.mp hc with rfl | hc
      · simp
      · rw [← litSpan_text '"' (some '\\') s]; simp [hc]
  by_cases h4 : c = '\''
  · subst h4
    obtain ⟨b, hb⟩ := span_literal (q := '\'') (esc := none) (by decide) s
    refine ⟨_, _, _, ?_, ?_, .literal hb ?_⟩
    · rw [List.cons_append, litSpan_text]
    · simp
    · intro c hc; apply ha
      rcases List.mem_cons.mp hc with rfl | hc
      · simp
      · rw [← litSpan_text '\'' none s]; simp [hc]
  have num : ∀ sign body : Str, sign = [] ∧ (∃ c s, body = c :: s ∧ AsciiDigit c) ∨ sign = ['+'] ∨ sign = ['-'] →
      ∃ k m r, sign ++ body = m ++ r ∧ m ≠ [] ∧ TomlToken k m r := by
    intro sign body hs
    have hs' : sign = [] ∧ body.takeWhile isDigit ≠ [] ∨ sign = ['+'] ∨ sign = ['-'] := by
      rcases hs with ⟨rfl, c, s, rfl, hc⟩ | h
      · exact .inl ⟨rfl, by simp [(isDigit_iff c).mpr hc]⟩
      · exact .inr h
    have hne : sign ++ body.takeWhile isDigit ≠ [] := by
      rcases hs' with ⟨rfl, h⟩ | rfl | rfl <;> simp_all
    have hl := lr _ isDigit_iff body
    have ht := (List.takeWhile_append_dropWhile (p := isDigit) (l := body))
    by_cases hd : (body.dropWhile isDigit).head? = some '.'
    · obtain ⟨x, hx⟩ : ∃ x, body.dropWhile isDigit = '.' :: x := by
        cases h : body.dropWhile isDigit with
        | nil => simp [h] at hd
        | cons a b => rw [h] at hd; simp at hd; exact ⟨b, by rw [hd]⟩
      refine ⟨_, sign ++ (body.takeWhile isDigit ++ '.' :: x.takeWhile isDigit), x.dropWhile isDigit, ?_, ?_, .float hs' hl.1 (lr _ isDigit_iff x)⟩
      · nth_rewrite 1 [← ht]; rw [hx]; simp
      · simp
    · exact ⟨_, sign ++ body.takeWhile isDigit, body.dropWhile isDigit, by rw [List.append_assoc, ht], hne, .integer hs' hl hd⟩
  by_cases h5 : AsciiDigit c
  · simpa using num [] (c :: s) (.inl ⟨rfl, c, s, rfl, h5⟩)
  by_cases h6 : c = '+'
  · subst h6; simpa using num ['+'] s (by simp)
  by_cases h7 : c = '-'
  · subst h7; simpa using num ['-'] s (by simp)
  by_cases h8 : c = '['
  · subst h8
    by_cases hh : s.head? = some '['
    · cases s with
      | nil => simp at hh
      | cons d s => simp at hh; subst hh; exact ⟨_, ['[', '['], s, rfl, by simp, .open2⟩
    · exact ⟨_, ['['], s, rfl, by simp, .open1 hh⟩
  by_cases h9 : c = ']'
  · subst h9
    by_cases hh : s.head? = some ']'
    · cases s with
      | nil => simp at hh
      | cons d s => simp at hh; subst hh; exact ⟨_, [']', ']'], s, rfl, by simp, .close2⟩
    · exact ⟨_, [']'], s, rfl, by simp, .close1 hh⟩
  by_cases h10 : ∃ k, (c, k) ∈ tomlMarks
  · obtain ⟨k, hk⟩ := h10
    exact ⟨_, [c], s, rfl, by simp, .mark hk⟩
  by_cases h11 : TomlKeyStart c
  · have hk : keyChar c = true := (letter_tests h11).2.2.2.2.2.2
    have := lr _ keyChar_iff (c :: s)
    rw [List.takeWhile_cons, List.dropWhile_cons, if_pos hk, if_pos hk] at this
    exact ⟨_, c :: s.takeWhile keyChar, s.dropWhile keyChar, by simp, by simp, .word h11 this⟩
  · refine ⟨_, [c], s, rfl, by simp, .other (ha c (by simp)) h1 h11 h5 ?_⟩
    simp [tomlMarks] at h10
    simp [h2, h3, h4, h6, h7, h8, h9]
    exact ⟨fun h => h10 _ |>.1 h rfl, fun h => h10 _ |>.2.1 h rfl, fun h => h10 _ |>.2.2.1 h rfl, fun h => h10 _ |>.2.2.2.1 h rfl, fun h => h10 _ |>.2.2.2.2 h rfl⟩

end Toml
end Oaks
