import Verif.Spec.Json
import Verif.Proofs.CsvLex

/-! A JSON text is cut into tokens in one way only. -/
namespace Oaks
open Spec

theorem longRun_unique {p : Char → Prop} {m m' r r' : Str} (h : LongRun p m r) (h' : LongRun p m' r') (he : m ++ r = m' ++ r') :
    m = m' := span_unique he h.1 h'.1 h.2 h'.2

theorem hexPrefix_length {cfg : JsonCfg} {x : Str} (h : HexPrefix cfg x) : x.length = 2 := by
  rcases h.2 with rfl | rfl <;> rfl

theorem append_inj_length {a a' b b' : Str} (h : a ++ b = a' ++ b') (hl : a.length = a'.length) : a = a' ∧ b = b' :=
  List.append_inj h hl

theorem fraction_unique {m ds r m' ds' r' : Str} (h : Fraction m ds r) (h' : Fraction m' ds' r') (he : m ++ r = m' ++ r') :
    m = m' ∧ ds = ds' := by
  rcases h with ⟨rfl, h⟩ | ⟨rfl, rfl, h⟩ <;> rcases h' with ⟨rfl, h'⟩ | ⟨rfl, rfl, h'⟩
  · simp only [List.cons_append, List.cons.injEq, true_and] at he
    have := longRun_unique h h' he
    exact ⟨by rw [this], this⟩
  · simp only [List.cons_append, List.nil_append] at he
    rw [← he] at h'
    simp at h'
  · simp only [List.cons_append, List.nil_append] at he
    rw [he] at h
    simp at h
  · exact ⟨rfl, rfl⟩

theorem exponent_unique {m r m' r' : Str} (h : Exponent m r) (h' : Exponent m' r') (he : m ++ r = m' ++ r') : m = m' := by
  rcases h with ⟨e, sg, ds, h1, rfl, h3, h4⟩ | ⟨rfl, h1, h2⟩ <;> rcases h' with ⟨e', sg', ds', h1', rfl, h3', h4'⟩ | ⟨rfl, h1', h2'⟩
  · simp only [List.cons_append, List.cons.injEq, List.append_assoc] at he
    obtain ⟨rfl, he⟩ := he
    have hsg : sg = sg' := by
      rcases h4 with rfl | rfl | ⟨rfl, a, b⟩ <;> rcases h4' with rfl | rfl | ⟨rfl, a', b'⟩ <;> try rfl
      all_goals simp only [List.cons_append, List.nil_append, List.cons.injEq] at he
      · exact absurd he.1 (by decide)
      · rw [← he] at a'; simp at a'
      · exact absurd he.1 (by decide)
      · rw [← he] at b'; simp at b'
      · rw [he] at a; simp at a
      · rw [he] at b; simp at b
    subst hsg
    rw [List.append_cancel_left_eq] at he
    rw [longRun_unique h3 h3' he]
  · simp only [List.cons_append, List.nil_append] at he
    rw [← he] at h1' h2'
    rcases h1 with rfl | rfl
    · simp at h1'
    · simp at h2'
  · simp only [List.cons_append, List.nil_append] at he
    rw [he] at h1 h2
    rcases h1' with rfl | rfl
    · simp at h1
    · simp at h2
  · rfl

theorem decimal_unique {int frac ds exp r int' frac' ds' exp' r' : Str}
    (h1 : LongRun isJsonDigit int (frac ++ (exp ++ r))) (h2 : Fraction frac ds (exp ++ r)) (h3 : Exponent exp r)
    (h1' : LongRun isJsonDigit int' (frac' ++ (exp' ++ r'))) (h2' : Fraction frac' ds' (exp' ++ r')) (h3' : Exponent exp' r')
    (he : int ++ (frac ++ (exp ++ r)) = int' ++ (frac' ++ (exp' ++ r'))) :
    int = int' ∧ frac = frac' ∧ ds = ds' ∧ exp = exp' := by
  have e1 := longRun_unique h1 h1' he
  subst e1
  rw [List.append_cancel_left_eq] at he
  obtain ⟨rfl, rfl⟩ := fraction_unique h2 h2' he
  rw [List.append_cancel_left_eq] at he
  exact ⟨rfl, rfl, rfl, exponent_unique h3 h3' he⟩

theorem numBody_unique {cfg : JsonCfg} {k k' : Option Nat} {m m' r r' : Str} (h : NumBody cfg k m r) (h' : NumBody cfg k' m' r')
    (he : m ++ r = m' ++ r') : k = k' ∧ m = m' := by
  have cross : ∀ {x ds r x' int frac exp r' : Str}, HexPrefix cfg x → ds ≠ [] → LongRun isJsonHex ds r →
      (x' = [] ∧ (∀ y z, HexPrefix cfg y → int ++ (frac ++ (exp ++ r')) ≠ y ++ z) ∨
        HexPrefix cfg x' ∧ ∀ c, (int ++ (frac ++ (exp ++ r'))).head? = some c → ¬ isJsonHex c) →
      (x ++ ds) ++ r = (x' ++ (int ++ (frac ++ exp))) ++ r' → False := by
    intro x ds r x' int frac exp r' hx hd hl hp he
    simp only [List.append_assoc] at he
    rcases hp with ⟨rfl, hp⟩ | ⟨hx', hp⟩
    · exact hp x (ds ++ r) hx (by rw [List.nil_append] at he; exact he.symm)
    · obtain ⟨_, he⟩ := append_inj_length he (by rw [hexPrefix_length hx, hexPrefix_length hx'])
      obtain ⟨d, ds, rfl⟩ := List.exists_cons_of_ne_nil hd
      exact hp d (by rw [← he]; rfl) (hl.1 d List.mem_cons_self)
  cases h with
  | hex hx hd hl =>
    cases h' with
    | hex hx' hd' hl' =>
      simp only [List.append_assoc] at he
      obtain ⟨rfl, he'⟩ := append_inj_length he (by rw [hexPrefix_length hx, hexPrefix_length hx'])
      exact ⟨rfl, by rw [longRun_unique hl hl' he']⟩
    | decimal hp _ _ _ => exact (cross hx hd hl hp he).elim
  | decimal hp h1 h2 h3 =>
    cases h' with
    | hex hx hd hl => exact (cross hx hd hl hp he.symm).elim
    | @decimal x' int' frac' ds' exp' _ hp' h1' h2' h3' =>
      simp only [List.append_assoc] at he
      have key := fun he => decimal_unique h1 h2 h3 h1' h2' h3' he
      rcases hp with ⟨rfl, hp⟩ | ⟨hx, hp⟩ <;> rcases hp' with ⟨rfl, hp'⟩ | ⟨hx', hp'⟩
      · obtain ⟨rfl, rfl, rfl, rfl⟩ := key (by simpa using he)
        exact ⟨rfl, rfl⟩
      · exact absurd (by simpa using he) (hp _ _ hx')
      · exact absurd (by simpa using he.symm) (hp' _ _ hx)
      · obtain ⟨rfl, he'⟩ := append_inj_length he (by rw [hexPrefix_length hx, hexPrefix_length hx'])
        obtain ⟨rfl, rfl, rfl, rfl⟩ := key he'
        exact ⟨rfl, rfl⟩

/-- What a rule says of the first character. -/
theorem firstRule_char {cfg : JsonCfg} {cc : CharClass} {c : Char} {R : JsonRule} (h : firstRule cfg cc c = R) :
    (R = .slash → c = '/' ∧ cfg.comments = true) ∧ (R = .number → c = '-' ∨ Json.isDigit c = true) ∧
      (R = .word → c = 't' ∨ c = 'f' ∨ c = 'n') := by
  subst h
  unfold firstRule
  by_cases h : isJsonSpace c
  · rw [if_pos h]; exact ⟨nofun, nofun, nofun⟩
  rw [if_neg h]; clear h
  by_cases h : c = '"'
  · rw [if_pos h]; exact ⟨nofun, nofun, nofun⟩
  rw [if_neg h]; clear h
  by_cases h : c = '/' ∧ cfg.comments = true
  · rw [if_pos h]; exact ⟨fun _ => h, nofun, nofun⟩
  rw [if_neg h]; clear h
  by_cases h : c = '-' ∨ Json.isDigit c = true
  · rw [if_pos h]; exact ⟨nofun, fun _ => h, nofun⟩
  rw [if_neg h]; clear h
  by_cases h : c = '{'
  · rw [if_pos h]; exact ⟨nofun, nofun, nofun⟩
  rw [if_neg h]; clear h
  by_cases h : c = '}'
  · rw [if_pos h]; exact ⟨nofun, nofun, nofun⟩
  rw [if_neg h]; clear h
  by_cases h : c = '['
  · rw [if_pos h]; exact ⟨nofun, nofun, nofun⟩
  rw [if_neg h]; clear h
  by_cases h : c = ']'
  · rw [if_pos h]; exact ⟨nofun, nofun, nofun⟩
  rw [if_neg h]; clear h
  by_cases h : c = ','
  · rw [if_pos h]; exact ⟨nofun, nofun, nofun⟩
  rw [if_neg h]; clear h
  by_cases h : c = ':'
  · rw [if_pos h]; exact ⟨nofun, nofun, nofun⟩
  rw [if_neg h]; clear h
  by_cases h : c = 't' ∨ c = 'f' ∨ c = 'n'
  · rw [if_pos h]; exact ⟨nofun, nofun, fun _ => h⟩
  rw [if_neg h]; clear h
  by_cases h : c = '\'' ∧ cfg.singleQuotes = true
  · rw [if_pos h]; exact ⟨nofun, nofun, nofun⟩
  rw [if_neg h]; clear h
  by_cases h : cfg.bareKeys = true ∧ (cc.alpha c = true ∨ c = '_' ∨ c = '$')
  · rw [if_pos h]; exact ⟨nofun, nofun, nofun⟩
  rw [if_neg h]; clear h
  exact ⟨nofun, nofun, nofun⟩

theorem keyword_head {c : Char} {s s' r r' : Str} {k k' : Nat} (h : isKeyword (c :: s) k) (h' : isKeyword (c :: s') k')
    (_ : s ++ r = s' ++ r') : k = k' ∧ s = s' := by
  rcases h with ⟨h, rfl⟩ | ⟨h, rfl⟩ | ⟨h, rfl⟩ <;> rcases h' with ⟨h', rfl⟩ | ⟨h', rfl⟩ | ⟨h', rfl⟩ <;>
    simp at h h' <;> obtain ⟨rfl, rfl⟩ := h <;> obtain ⟨h', rfl⟩ := h' <;> first | exact ⟨rfl, rfl⟩ | exact absurd h' (by decide)

theorem jsonToken_unique {cfg : JsonCfg} {cc : CharClass} {k k' : Option Nat} {m m' r r' : Str}
    (h : JsonToken cfg cc k m r) (h' : JsonToken cfg cc k' m' r') (he : m ++ r = m' ++ r') : k = k' ∧ m = m' := by
  obtain ⟨c, s, rfl, h⟩ := h
  obtain ⟨c', s', rfl, h'⟩ := h'
  simp only [List.cons_append, List.cons.injEq] at he
  obtain ⟨rfl, he⟩ := he
  suffices k = k' ∧ s = s' from ⟨this.1, by rw [this.2]⟩
  generalize firstRule cfg cc c = R at h h'
  cases R with
  | space => exact ⟨h.1.trans h'.1.symm, longRun_unique h.2 h'.2 he⟩
  | quote =>
    rw [ruleHolds] at h h'
    rw [he] at h
    rcases h with ⟨rfl, h⟩ | ⟨rfl, h⟩ <;> rcases h' with ⟨rfl, h'⟩ | ⟨rfl, h'⟩ <;>
      have := literal_unique (by decide) h h' <;> simp at this
    · exact ⟨rfl, this⟩
    · exact ⟨rfl, this⟩
  | slash =>
    rw [ruleHolds] at h h'
    have hline : ∀ {k : Nat} {s r : Str} {m : Str}, LineComment "//".toList (c :: (s ++ r)) m → c = '/' ∧ (s ++ r).head? = some '/' := by
      rintro _ s r m ⟨b, x, h, _⟩
      simp at h
      rw [h.2]; exact ⟨h.1, rfl⟩
    have hblock : ∀ {k : Nat} {s r : Str} {m : Str}, BlockComment "/*".toList "*/".toList (c :: (s ++ r)) m → c = '/' ∧ (s ++ r).head? = some '*' := by
      rintro _ s r m ⟨a, h, _⟩
      simp at h
      rw [h.2]; exact ⟨h.1, rfl⟩
    rw [he] at h
    rcases h with ⟨rfl, h | h⟩ | ⟨rfl, rfl, n1, n2⟩ <;> rcases h' with ⟨rfl, h' | h'⟩ | ⟨rfl, rfl, n1', n2'⟩
    · have := lineComment_unique h h'; simp at this; exact ⟨rfl, this⟩
    · have a := (hline (k := 0) h).2; rw [(hblock (k := 0) h').2] at a; simp at a
    · have a := (hline (k := 0) h).2; simp at a; exact absurd a n1'
    · have a := (hline (k := 0) h').2; rw [(hblock (k := 0) h).2] at a; simp at a
    · have := blockComment_unique h h'; simp at this; exact ⟨rfl, this⟩
    · have a := (hblock (k := 0) h).2; simp at a; exact absurd a n2'
    · have a := (hline (k := 0) h').2; rw [← he] at a; simp at a; exact absurd a n1
    · have a := (hblock (k := 0) h').2; rw [← he] at a; simp at a; exact absurd a n2
    · exact ⟨rfl, rfl⟩
  | number =>
    rw [ruleHolds] at h h'
    split at h
    · rename_i hc
      rw [if_pos hc] at h'
      exact numBody_unique h h' he
    · rename_i hc
      rw [if_neg hc] at h'
      have := numBody_unique h h' (by simp [he])
      simpa using this
  | mark k0 => exact ⟨h.1.trans h'.1.symm, h.2.trans h'.2.symm⟩
  | word =>
    rw [ruleHolds] at h h'
    rcases h with ⟨w, h, rfl⟩ | ⟨n, h⟩ <;> rcases h' with ⟨w', h', rfl⟩ | ⟨n', h'⟩
    · obtain ⟨rfl, rfl⟩ := keyword_head h h' he
      exact ⟨rfl, rfl⟩
    · exact absurd (by rw [← he]; rfl) (n' _ w r h)
    · exact absurd (by rw [he]; rfl) (n _ w' r' h')
    · split at h
      · rename_i hb
        rw [if_pos hb] at h'
        exact ⟨h.1.trans h'.1.symm, longRun_unique h.2 h'.2 he⟩
      · rename_i hb
        rw [if_neg hb] at h'
        exact ⟨h.1.trans h'.1.symm, h.2.trans h'.2.symm⟩
  | single =>
    rw [ruleHolds] at h h'
    obtain ⟨rfl, b, h⟩ := h
    obtain ⟨rfl, b', h'⟩ := h'
    rw [he] at h
    have := (literal_unique (by decide) h h').1
    simp at this
    exact ⟨rfl, this⟩
  | key => exact ⟨h.1.trans h'.1.symm, longRun_unique h.2 h'.2 he⟩
  | other => exact ⟨h.1.trans h'.1.symm, h.2.trans h'.2.symm⟩

end Oaks
