import Verif.Proofs.JsonUnique

/-! The JSON lexer cuts every text into pieces as specified. -/
namespace Oaks
open Spec

/-- The token of a piece, if it has one. -/
def pieceToks (k : Option Nat) (pos : Nat) (m : Str) : List Tok :=
  match k with
  | some k => [⟨k, pos, pos + blen m⟩]
  | none => []

theorem tokensOf_cons (pos : Nat) (k : Option Nat) (m : Str) (ps : List (Option Nat × Str)) :
    tokensOf pos ((k, m) :: ps) = pieceToks k pos m ++ tokensOf (pos + blen m) ps := by
  cases k <;> rfl

section
variable {src : Source} {t : Str} (hs : Supplied src t) {l r : Str} {toks : List Tok} {st : Lex}
include hs

theorem peekNext_at {c : Char} (h : LexAt src t l (c :: r) toks st) : st.peekNextN src c.utf8Size = .ok r.head? := by
  unfold Lex.peekNextN Cur.peekNextN
  have hlen := h.len hs
  have ho := h.cur.offset
  simp only [ho]
  have htx : t = (l ++ [c]) ++ r := by rw [h.cur.text]; simp
  by_cases hend : blen l + c.utf8Size ≥ src.length
  · rw [if_pos hend]
    have : r = [] := blen_eq_zero.mp (by simp at hlen; omega)
    rw [this]; rfl
  · rw [if_neg hend]
    by_cases hin : (decide (blen l + c.utf8Size ≥ st.cur.chunk.start) && decide (blen l + c.utf8Size < st.cur.chunk.stop)) = true
    · rw [if_pos hin]
      simp at hin
      have hat : CurAt (Linked src t 0) t (l ++ [c]) r { st.cur with offset := blen (l ++ [c]) } :=
        ⟨htx, rfl, h.cur.chunk, h.cur.good⟩
      obtain ⟨k, m, r', hci⟩ := curIn_of_contains hat (by simp; omega) (by simp; omega) (fun _ => by simp; omega)
      have hp := hci.pos
      simp at hp
      have : blen l + c.utf8Size - st.cur.chunk.start = blen k := by omega
      rw [this, hci.split, strFrom_append]
      simp [hci.head?]
    · rw [if_neg hin]
      have := getCharAt_spec hs htx
      simpa using this

theorem takeLong_at (h : LexAt src t l r toks st) (p : Char → Bool) :
    ∃ st' m r', st.takeWhile src p = .ok st' ∧ r = m ++ r' ∧ LongRun (fun c => p c = true) m r' ∧ LexAt src t (l ++ m) r' toks st' := by
  obtain ⟨st', h1, h2⟩ := takeWhile_at hs h p
  refine ⟨st', _, _, h1, List.takeWhile_append_dropWhile.symm, ⟨fun c hc => of_mem_takeWhile hc, ?_⟩, h2⟩
  intro c hc
  have := List.head?_dropWhile_not p r
  rw [hc] at this
  simpa using this

theorem stringLoop_at (fuel : Nat) (escaped : Bool) (h : LexAt src t l r toks st) (hf : blen r < fuel) :
    ∃ st' b m r', Json.stringLoop src fuel escaped st = .ok (st', b) ∧ r = m ++ r' ∧ LexAt src t (l ++ m) r' toks st' ∧
      if escaped then (r = [] ∧ m = [] ∧ b = false) ∨ (∃ d s m0, r = d :: s ∧ m = d :: m0 ∧ Closes '"' (some '\\') s m0 b)
      else Closes '"' (some '\\') r m b := by
  induction fuel generalizing l r st escaped with
  | zero => omega
  | succ fuel ih =>
    obtain ⟨st1, h1, h2⟩ := peek_at hs h
    unfold Json.stringLoop
    simp only [h1, run_bind_ok]
    cases r with
    | nil =>
      refine ⟨st1, false, [], [], rfl, rfl, by simpa using h2, ?_⟩
      cases escaped
      · exact closes_nil
      · exact .inl ⟨rfl, rfl, rfl⟩
    | cons c s =>
      simp only [List.head?_cons]
      have hcp := utf8Size_pos c
      have hadv := advance_char hs h2
      have hf' : blen s < fuel := by simp at hf; omega
      cases escaped with
      | true =>
        rw [if_pos rfl]
        obtain ⟨st', b, m, r', g1, g2, g3, g4⟩ := ih false hadv hf'
        exact ⟨st', b, c :: m, r', g1, by rw [g2]; rfl, by simpa using g3, .inr ⟨c, s, m, rfl, rfl, g4⟩⟩
      | false =>
        rw [if_neg (by simp)]
        by_cases hb : c = '\\'
        · subst hb
          rw [if_pos rfl]
          obtain ⟨st', b, m, r', g1, g2, g3, g4⟩ := ih true hadv hf'
          refine ⟨st', b, '\\' :: m, r', g1, by rw [g2]; rfl, by simpa using g3, ?_⟩
          rcases g4 with ⟨rfl, rfl, rfl⟩ | ⟨d, s', m0, rfl, rfl, g4⟩
          · exact closes_escape_end rfl (by decide)
          · exact closes_escaped rfl (by decide) g4
        · rw [if_neg hb]
          by_cases hq : c = '"'
          · subst hq
            rw [if_pos rfl]
            exact ⟨_, true, ['"'], s, rfl, rfl, hadv, closes_quote s⟩
          · rw [if_neg hq]
            obtain ⟨st', b, m, r', g1, g2, g3, g4⟩ := ih false hadv hf'
            exact ⟨st', b, c :: m, r', g1, by rw [g2]; rfl, by simpa using g3, closes_plain hq (by simpa using hb) g4⟩

theorem lexString_at (h : LexAt src t l ('"' :: r) toks st) :
    ∃ st' b k m r', Json.lexStringFast src st = .ok (st', b) ∧ r = m ++ r' ∧
      ((k = Json.stringLiteral ∧ Literal '"' (some '\\') ('"' :: (m ++ r')) ('"' :: m) true) ∨
        (k = Json.error ∧ Literal '"' (some '\\') ('"' :: (m ++ r')) ('"' :: m) false)) ∧
      LexAt src t (l ++ '"' :: m) r' (toks ++ [⟨k, blen l, blen l + blen ('"' :: m)⟩]) st' := by
  unfold Json.lexStringFast
  rcases consumeIf_at hs h ['"'] with ⟨r1, h1, s1, h2, h3⟩ | ⟨h1, _⟩
  swap
  · exact absurd ⟨r, rfl⟩ h1
  simp only [List.cons_append, List.nil_append, List.cons.injEq, true_and] at h1
  subst h1
  simp only [h2, run_bind_ok, if_true]
  obtain ⟨s2, b, m, r', g1, rfl, g3, g4⟩ := stringLoop_at hs (src.length + 1) false h3 (by rw [h3.len hs]; omega)
  simp only [g1, run_bind_ok]
  have hl := literal_of_closes g4
  rw [List.append_assoc] at g3
  cases b with
  | true => exact ⟨_, _, _, m, r', rfl, rfl, .inl ⟨rfl, hl⟩, record_at h.pos g3 _⟩
  | false => exact ⟨_, _, _, m, r', rfl, rfl, .inr ⟨rfl, hl⟩, record_at h.pos g3 _⟩

theorem fraction_at (h : LexAt src t l r toks st) :
    ∃ st' m ds r', Json.fraction src st = .ok (st', decide (ds ≠ [])) ∧ r = m ++ r' ∧ Fraction m ds r' ∧
      LexAt src t (l ++ m) r' toks st' := by
  unfold Json.fraction
  rcases consumeIf_at hs h ['.'] with ⟨r1, rfl, s1, h2, h3⟩ | ⟨h1, s1, h2, h3⟩
  · simp only [h2, run_bind_ok, if_true]
    obtain ⟨s2, ds, r', g1, rfl, g3, g4⟩ := takeLong_at hs h3 Json.isDigit
    simp only [g1, run_bind_ok, run_pure]
    refine ⟨s2, '.' :: ds, ds, r', ?_, rfl, .inl ⟨rfl, g3⟩, by simpa using g4⟩
    congr 2
    rw [decide_eq_decide, g4.pos, h3.pos, pos_lt]
  · simp only [h2, run_bind_ok, Bool.false_eq_true, if_false, run_pure]
    refine ⟨s1, [], [], r, rfl, rfl, .inr ⟨rfl, rfl, ?_⟩, by simpa using h3⟩
    intro hh
    cases r with
    | nil => simp at hh
    | cons c r => simp at hh; exact h1 ⟨r, by rw [hh]; rfl⟩

theorem exponentSign_at (h : LexAt src t l r toks st) :
    ∃ st' sg r', Json.exponentSign src st = .ok st' ∧ r = sg ++ r' ∧ LexAt src t (l ++ sg) r' toks st' ∧
      (sg = ['+'] ∨ sg = ['-'] ∨ sg = [] ∧ r'.head? ≠ some '+' ∧ r'.head? ≠ some '-') := by
  unfold Json.exponentSign
  obtain ⟨s1, h1, h2⟩ := peek_at hs h
  simp only [h1, run_bind_ok]
  cases r with
  | nil => exact ⟨s1, [], [], rfl, rfl, by simpa using h2, .inr (.inr ⟨rfl, by simp, by simp⟩)⟩
  | cons c r =>
    simp only [List.head?_cons]
    split
    · rename_i hc
      have hsz : c.utf8Size = 1 := by rcases hc with rfl | rfl <;> rfl
      have := advance_char hs h2
      rw [hsz] at this
      exact ⟨_, [c], r, rfl, rfl, this, by rcases hc with rfl | rfl <;> simp⟩
    · rename_i hc
      rw [not_or] at hc
      exact ⟨s1, [], c :: r, rfl, rfl, by simpa using h2, .inr (.inr ⟨rfl, by simpa using hc.1, by simpa using hc.2⟩)⟩

theorem exponent_at (h : LexAt src t l r toks st) :
    ∃ st' m r', Json.exponent src st = .ok st' ∧ r = m ++ r' ∧ Exponent m r' ∧ LexAt src t (l ++ m) r' toks st' := by
  unfold Json.exponent
  obtain ⟨s1, h1, h2⟩ := peek_at hs h
  simp only [h1, run_bind_ok]
  cases r with
  | nil => exact ⟨s1, [], [], rfl, rfl, .inr ⟨rfl, by simp, by simp⟩, by simpa using h2⟩
  | cons c r =>
    simp only [List.head?_cons]
    split
    · rename_i hc
      have hsz : c.utf8Size = 1 := by rcases hc with rfl | rfl <;> rfl
      have h3 := advance_char hs h2
      rw [hsz] at h3
      obtain ⟨s2, sg, r1, g1, rfl, g3, g4⟩ := exponentSign_at hs h3
      simp only [g1, run_bind_ok]
      obtain ⟨s3, ds, r', k1, rfl, k3, k4⟩ := takeLong_at hs g3 Json.isDigit
      exact ⟨s3, c :: (sg ++ ds), r', k1, by simp, .inl ⟨c, sg, ds, hc, rfl, k3, g4⟩, by simpa using k4⟩
    · rename_i hc
      rw [not_or] at hc
      exact ⟨s1, [], c :: r, rfl, rfl, .inr ⟨rfl, by simpa using hc.1, by simpa using hc.2⟩, by simpa using h2⟩

theorem decimal_at (start : Nat) (h : LexAt src t l r toks st) :
    ∃ st' int frac ds exp r', Json.decimal src start st = .ok st' ∧ r = int ++ (frac ++ (exp ++ r')) ∧
      LongRun isJsonDigit int (frac ++ (exp ++ r')) ∧ Fraction frac ds (exp ++ r') ∧ Exponent exp r' ∧
      LexAt src t (l ++ (int ++ (frac ++ exp))) r'
        (toks ++ if int = [] ∧ ds = [] then [] else [⟨Json.numberLiteral, start, blen (l ++ (int ++ (frac ++ exp)))⟩]) st' := by
  unfold Json.decimal
  obtain ⟨s1, int, r1, a1, rfl, a3, a4⟩ := takeLong_at hs h Json.isDigit
  simp only [a1, run_bind_ok]
  obtain ⟨s2, frac, ds, r2, b1, rfl, b3, b4⟩ := fraction_at hs a4
  simp only [b1, run_bind_ok]
  obtain ⟨s3, exp, r', c1, rfl, c3, c4⟩ := exponent_at hs b4
  simp only [c1, run_bind_ok]
  simp only [List.append_assoc] at c4
  have hi : decide (s1.pos > st.pos) = decide (int ≠ []) := by rw [decide_eq_decide, a4.pos, h.pos, pos_lt]
  rw [hi]
  by_cases hn : int = [] ∧ ds = []
  · obtain ⟨rfl, rfl⟩ := hn
    exact ⟨s3, [], frac, [], exp, r', rfl, by simp, a3, b3, c3, by simpa using c4⟩
  · rw [if_pos (by simp only [Bool.or_eq_true, decide_eq_true_eq]; by_cases hi : int = [] <;> simp_all)]
    refine ⟨_, int, frac, ds, exp, r', rfl, by simp, a3, b3, c3, ?_⟩
    rw [if_neg hn, ← c4.pos]
    exact addToken_at c4 _ _ _

theorem hexAhead_at (cfg : JsonCfg) (h : LexAt src t l r toks st) :
    ∃ st' b, Json.hexAhead cfg src st = .ok (st', b) ∧ LexAt src t l r toks st' ∧
      ((b = true ∧ ∃ x r', HexPrefix cfg x ∧ r = x ++ r') ∨ (b = false ∧ ∀ y z, HexPrefix cfg y → r ≠ y ++ z)) := by
  unfold Json.hexAhead
  split
  · rename_i hc
    obtain ⟨s1, h1, h2⟩ := startsWith_at hs h ['0']
    simp only [h1, run_bind_ok]
    cases hb : ['0'].isPrefixOf r with
    | false =>
      refine ⟨s1, false, rfl, h2, .inr ⟨rfl, ?_⟩⟩
      rintro y z ⟨_, rfl | rfl⟩ rfl <;> simp at hb
    | true =>
      obtain ⟨r1, rfl⟩ := isPrefixOf_iff.mp hb
      have hp : s1.peekNextN src 1 = .ok r1.head? := peekNext_at hs (c := '0') h2
      simp only [if_true, hp, run_bind_ok, run_pure]
      refine ⟨s1, _, rfl, h2, ?_⟩
      cases r1 with
      | nil =>
        refine .inr ⟨rfl, ?_⟩
        rintro y z ⟨_, rfl | rfl⟩ hh <;> simp at hh
      | cons d r1 =>
        by_cases hd : d = 'x'
        · subst hd
          exact .inl ⟨rfl, ['0', 'x'], r1, ⟨hc, .inl rfl⟩, rfl⟩
        · by_cases hd' : d = 'X'
          · subst hd'
            exact .inl ⟨rfl, ['0', 'X'], r1, ⟨hc, .inr rfl⟩, rfl⟩
          · refine .inr ⟨by simp [hd, hd'], ?_⟩
            rintro y z ⟨_, rfl | rfl⟩ hh <;> simp at hh
            · exact hd hh.1
            · exact hd' hh.1
  · rename_i hc
    exact ⟨st, false, rfl, h, .inr ⟨rfl, fun y z hy => absurd hy.1 hc⟩⟩

theorem hexNumber_at (cfg : JsonCfg) (start : Nat) (h : LexAt src t l r toks st) :
    ∃ st' b x r', Json.hexNumber cfg src start st = .ok (st', b) ∧ r = x ++ r' ∧
      ((b = true ∧ ∃ y ds, x = y ++ ds ∧ HexPrefix cfg y ∧ ds ≠ [] ∧ LongRun isJsonHex ds r' ∧
          LexAt src t (l ++ x) r' (toks ++ [⟨Json.numberLiteral, start, blen (l ++ x)⟩]) st') ∨
        (b = false ∧ LexAt src t (l ++ x) r' toks st' ∧
          (x = [] ∧ (∀ y z, HexPrefix cfg y → r' ≠ y ++ z) ∨ HexPrefix cfg x ∧ ∀ c, r'.head? = some c → ¬ isJsonHex c))) := by
  unfold Json.hexNumber
  obtain ⟨s1, b, h1, h2, h3⟩ := hexAhead_at hs cfg h
  simp only [h1, run_bind_ok]
  rcases h3 with ⟨rfl, x, r1, hx, rfl⟩ | ⟨rfl, hn⟩
  · rw [if_pos rfl]
    have hb : blen x = 2 := by rcases hx.2 with rfl | rfl <;> rfl
    have h4 := advance_at hs h2
    rw [hb] at h4
    obtain ⟨s2, ds, r', g1, rfl, g3, g4⟩ := takeLong_at hs h4 (fun c => Json.isHexDigit c || c == '_')
    simp only [g1, run_bind_ok]
    have g3' : LongRun isJsonHex ds r' := by
      constructor
      · intro c hc; simpa [isJsonHex] using g3.1 c hc
      · intro c hc; simpa [isJsonHex] using g3.2 c hc
    rw [List.append_assoc] at g4
    by_cases hd : ds = []
    · subst hd
      rw [if_neg (by rw [g4.pos, h4.pos]; simp)]
      refine ⟨s2, false, x, r', rfl, rfl, .inr ⟨rfl, by simpa using g4, .inr ⟨hx, g3'.2⟩⟩⟩
    · rw [if_pos (by rw [g4.pos, h4.pos, ← List.append_assoc, pos_lt]; exact hd)]
      refine ⟨_, true, x ++ ds, r', rfl, by simp, .inl ⟨rfl, x, ds, rfl, hx, hd, g3', ?_⟩⟩
      rw [← g4.pos]
      exact addToken_at g4 _ _ _
  · rw [if_neg (by simp)]
    exact ⟨s1, false, [], r, rfl, rfl, .inr ⟨rfl, by simpa using h2, .inl ⟨rfl, hn⟩⟩⟩

/-- A number after its sign; `start` is where the sign is. -/
theorem numBody_at (cfg : JsonCfg) (start : Nat) (h : LexAt src t l r toks st) :
    ∃ st' k m r', (do
        let (st, done) ← Json.hexNumber cfg src start st
        if done then pure st else Json.decimal src start st) = (.ok st' : Run Lex) ∧ r = m ++ r' ∧ NumBody cfg k m r' ∧
      LexAt src t (l ++ m) r' (toks ++ match k with | some k => [⟨k, start, blen (l ++ m)⟩] | none => []) st' := by
  obtain ⟨s1, b, x, r1, h1, rfl, h3⟩ := hexNumber_at hs cfg start h
  simp only [h1, run_bind_ok]
  rcases h3 with ⟨rfl, y, ds, rfl, hy, hd, hl, h4⟩ | ⟨rfl, h4, h5⟩
  · exact ⟨s1, _, y ++ ds, r1, rfl, rfl, .hex hy hd hl, h4⟩
  · rw [if_neg (by simp)]
    obtain ⟨s2, int, frac, ds, exp, r', g1, rfl, g3, g4, g5, g6⟩ := decimal_at hs start h4
    refine ⟨s2, _, x ++ (int ++ (frac ++ exp)), r', g1, by simp, .decimal h5 g3 g4 g5, ?_⟩
    rw [← List.append_assoc]
    split at g6 <;> rename_i hc
    · rw [if_pos hc]; exact g6
    · rw [if_neg hc]; exact g6

theorem lexNumber_at (cfg : JsonCfg) {c : Char} (hc : c = '-' ∨ Json.isDigit c = true) (h : LexAt src t l (c :: r) toks st) :
    ∃ st' k s r', Json.lexNumber cfg src st = .ok st' ∧ r = s ++ r' ∧
      (if c = '-' then NumBody cfg k s r' else NumBody cfg k (c :: s) r') ∧
      LexAt src t (l ++ c :: s) r' (toks ++ pieceToks k (blen l) (c :: s)) st' := by
  unfold Json.lexNumber
  have fin : ∀ (k : Option Nat) (m : Str), (match k with | some k => [⟨k, blen l, blen (l ++ m)⟩] | none => ([] : List Tok)) =
      pieceToks k (blen l) m := by
    intro k m; cases k <;> simp [pieceToks]
  rcases consumeIf_at hs h ['-'] with ⟨r1, h1, s1, h2, h3⟩ | ⟨h1, s1, h2, h3⟩
  · simp only [List.cons_append, List.nil_append, List.cons.injEq] at h1
    obtain ⟨rfl, rfl⟩ := h1
    obtain ⟨s2, k, m, r', g1, rfl, g3, g4⟩ := numBody_at hs cfg st.pos h3
    simp only [h2, run_bind_ok]
    refine ⟨s2, k, m, r', g1, rfl, by simpa using g3, ?_⟩
    rw [h.pos] at g4
    simp only [List.append_assoc, List.cons_append, List.nil_append] at g4
    rw [fin] at g4
    exact g4
  · have hne : c ≠ '-' := fun hh => h1 ⟨r, by rw [hh]; rfl⟩
    obtain ⟨s2, k, m, r', g1, g2, g3, g4⟩ := numBody_at hs cfg st.pos h3
    simp only [h2, run_bind_ok]
    have hd : Json.isDigit c = true := by rcases hc with hc | hc; exact absurd hc hne; exact hc
    cases m with
    | nil =>
      exfalso
      rw [List.nil_append] at g2
      subst g2
      generalize hm : ([] : Str) = m0 at g3
      cases g3 with
      | hex hx hd' _ =>
        have := congrArg List.length hm
        have := hexPrefix_length hx
        simp at *; omega
      | @decimal x int frac ds exp _ _ hl _ _ =>
        have e1 : int = [] := by
          simp only [List.nil_eq, List.append_eq_nil_iff] at hm
          exact hm.2.1
        have e2 : frac = [] := by
          simp only [List.nil_eq, List.append_eq_nil_iff] at hm
          exact hm.2.2.1
        have e3 : exp = [] := by
          simp only [List.nil_eq, List.append_eq_nil_iff] at hm
          exact hm.2.2.2
        subst e1 e2 e3
        exact hl.2 c rfl hd
    | cons d m =>
      simp only [List.cons_append, List.cons.injEq] at g2
      obtain ⟨rfl, rfl⟩ := g2
      refine ⟨s2, k, m, r', g1, rfl, by rw [if_neg hne]; exact g3, ?_⟩
      rw [h.pos, fin] at g4
      exact g4

theorem word_at (w : Str) (k : Nat) (h : LexAt src t l r toks st) :
    (∃ r', r = w ++ r' ∧ ∃ st', Json.word src st w k = .ok (st', true) ∧ LexAt src t (l ++ w) r' (toks ++ [⟨k, blen l, blen l + blen w⟩]) st') ∨
    ((∀ r', r ≠ w ++ r') ∧ ∃ st', Json.word src st w k = .ok (st', false) ∧ LexAt src t l r toks st') := by
  unfold Json.word
  rcases consumeIf_at hs h w with ⟨r1, h1, s1, h2, h3⟩ | ⟨h1, s1, h2, h3⟩
  · exact .inl ⟨r1, h1, _, by simp only [h2, run_bind_ok]; rfl, record_at h.pos h3 _⟩
  · exact .inr ⟨fun r' hr => h1 ⟨r', hr⟩, s1, by simp only [h2, run_bind_ok]; rfl, h3⟩

theorem keyword_at (h : LexAt src t l r toks st) :
    (∃ w k r', isKeyword w k ∧ r = w ++ r' ∧ ∃ st', Json.lexKeyword src st = .ok (st', true) ∧
      LexAt src t (l ++ w) r' (toks ++ [⟨k, blen l, blen l + blen w⟩]) st') ∨
    ((∀ w k x, isKeyword w k → r ≠ w ++ x) ∧ ∃ st', Json.lexKeyword src st = .ok (st', false) ∧ LexAt src t l r toks st') := by
  unfold Json.lexKeyword
  rcases word_at hs "true".toList Json.booleanLiteral h with ⟨r', h1, s1, h2, h3⟩ | ⟨h1, s1, h2, h3⟩
  · exact .inl ⟨_, _, r', .inl ⟨rfl, rfl⟩, h1, s1, by simp only [h2, run_bind_ok]; rfl, h3⟩
  rcases word_at hs "false".toList Json.booleanLiteral h3 with ⟨r', g1, s2, g2, g3⟩ | ⟨g1, s2, g2, g3⟩
  · exact .inl ⟨_, _, r', .inr (.inl ⟨rfl, rfl⟩), g1, s2, by simp only [h2, run_bind_ok, Bool.false_eq_true, if_false, g2]; rfl, g3⟩
  rcases word_at hs "null".toList Json.nullLiteral g3 with ⟨r', k1, s3, k2, k3⟩ | ⟨k1, s3, k2, k3⟩
  · exact .inl ⟨_, _, r', .inr (.inr ⟨rfl, rfl⟩), k1, s3,
      by simp only [h2, run_bind_ok, Bool.false_eq_true, if_false, g2, k2], k3⟩
  · refine .inr ⟨?_, s3, by simp only [h2, run_bind_ok, Bool.false_eq_true, if_false, g2, k2], k3⟩
    rintro w k x (⟨rfl, _⟩ | ⟨rfl, _⟩ | ⟨rfl, _⟩)
    · exact h1 x
    · exact g1 x
    · exact k1 x

theorem bareKey_at (cc : CharClass) {c : Char} (hc : cc.alpha c = true ∨ c = '_' ∨ c = '$') (h : LexAt src t l (c :: r) toks st) :
    ∃ st' s r', Json.lexBareKey cc src st = .ok (st', true) ∧ r = s ++ r' ∧ LongRun (isJsonKey cc) s r' ∧
      LexAt src t (l ++ c :: s) r' (toks ++ [⟨Json.bareKey, blen l, blen l + blen (c :: s)⟩]) st' := by
  unfold Json.lexBareKey
  obtain ⟨s1, h1, h2⟩ := peek_at hs h
  simp only [h1, run_bind_ok, List.head?_cons]
  rw [if_pos (by simp [Json.keyStart]; rcases hc with h | h | h <;> simp [h])]
  obtain ⟨s2, s, r', g1, rfl, g3, g4⟩ := takeLong_at hs (advance_char hs h2) (Json.keyChar cc)
  simp only [g1, run_bind_ok]
  rw [List.append_assoc] at g4
  refine ⟨_, s, r', rfl, rfl, ?_, record_at h.pos g4 _⟩
  constructor
  · intro d hd; have := g3.1 d hd; simpa [Json.keyChar, isJsonKey, or_assoc] using this
  · intro d hd; have := g3.2 d hd; simpa [Json.keyChar, isJsonKey, not_or, and_assoc] using this

end

/-- What one arm does: it consumes a piece, or nothing where the piece is one character without a token. -/
def ArmDone (src : Source) (t l r : Str) (toks : List Tok) (cfg : JsonCfg) (cc : CharClass) (st : Lex) : Prop :=
  (∃ k m r', r = m ++ r' ∧ JsonToken cfg cc k m r' ∧ LexAt src t (l ++ m) r' (toks ++ pieceToks k (blen l) m) st) ∨
    (∃ c r', r = c :: r' ∧ JsonToken cfg cc none [c] r' ∧ LexAt src t l r toks st)

theorem punctuation_rule {cfg : JsonCfg} {cc : CharClass} {c : Char} (h1 : ¬ isJsonSpace c) (h2 : c ≠ '"')
    (h3 : ¬ (c = '/' ∧ cfg.comments = true)) (h4 : ¬ (c = '-' ∨ Json.isDigit c = true)) :
    (∀ k, Json.punctuation c = some k → firstRule cfg cc c = .mark k) ∧
    (Json.punctuation c = none → firstRule cfg cc c =
      if c = 't' ∨ c = 'f' ∨ c = 'n' then .word
      else if c = '\'' ∧ cfg.singleQuotes = true then .single
      else if cfg.bareKeys = true ∧ (cc.alpha c = true ∨ c = '_' ∨ c = '$') then .key
      else .other) := by
  unfold firstRule
  rw [if_neg h1, if_neg h2, if_neg h3, if_neg h4]
  unfold Json.punctuation
  constructor
  · intro k hk
    split at hk <;> simp at hk <;> subst hk <;> rfl
  · intro hk
    split at hk <;> simp at hk
    rename_i a b c' d e f
    rw [if_neg a, if_neg b, if_neg c', if_neg d, if_neg e, if_neg f]

section
variable {src : Source} {t : Str} (hs : Supplied src t) {l r : Str} {toks : List Tok} {st : Lex}
include hs

theorem arm_at (cfg : JsonCfg) {cc : CharClass} (hcc : SoundClasses cc) {c : Char} (h : LexAt src t l (c :: r) toks st) :
    ∃ st', Json.arm cfg cc src c st = .ok st' ∧ ArmDone src t l (c :: r) toks cfg cc st' := by
  unfold Json.arm
  by_cases h1 : c = ' ' ∨ c = '\t' ∨ c = '\n' ∨ c = '\r'
  · rw [if_pos h1]
    unfold Json.skipWhitespaceFast
    obtain ⟨s1, m, r', g1, g2, g3, g4⟩ := takeLong_at hs h cc.ws
    simp only [g1, run_bind_ok]
    cases m with
    | nil =>
      rw [List.nil_append] at g2
      subst g2
      exact absurd (hcc.space c h1) (g3.2 c rfl)
    | cons d m =>
      simp only [List.cons_append, List.cons.injEq] at g2
      obtain ⟨rfl, rfl⟩ := g2
      rw [if_pos (by rw [g4.pos, h.pos, pos_lt]; simp)]
      refine ⟨_, rfl, .inl ⟨some Json.whitespace, c :: m, r', rfl, ⟨c, m, rfl, ?_⟩, record_at h.pos g4 _⟩⟩
      rw [firstRule, if_pos (show isJsonSpace c from h1)]
      exact ⟨rfl, fun d hd => g3.1 d (List.mem_cons_of_mem _ hd), g3.2⟩
  rw [if_neg h1]
  by_cases h2 : c = '"'
  · subst h2
    rw [if_pos rfl]
    obtain ⟨s1, b, k, m, r', g1, rfl, g3, g4⟩ := lexString_at hs h
    simp only [g1, run_bind_ok]
    refine ⟨_, rfl, .inl ⟨some k, '"' :: m, r', rfl, ⟨'"', m, rfl, ?_⟩, g4⟩⟩
    rw [firstRule, if_neg (show ¬ isJsonSpace '"' from h1), if_pos rfl]
    rcases g3 with ⟨rfl, g⟩ | ⟨rfl, g⟩
    · exact .inl ⟨rfl, g⟩
    · exact .inr ⟨rfl, g⟩
  rw [if_neg h2]
  by_cases h3 : c = '/' ∧ cfg.comments = true
  · rw [if_pos h3]
    have hrule : firstRule cfg cc c = .slash := by rw [firstRule, if_neg (show ¬ isJsonSpace c from h1), if_neg h2, if_pos h3]
    obtain ⟨rfl, hco⟩ := h3
    obtain ⟨s1, b, m, r', new, g1, g2, g3, g4⟩ := comment_at hs h Json.commentCfg Json.comment Json.comment
    simp only [g1, run_bind_ok]
    refine ⟨s1, rfl, ?_⟩
    have hm : ∀ {P : Prop}, m ≠ [] → (∀ s, m = '/' :: s → P) → P := by
      intro P hne hP
      obtain ⟨d, s, rfl⟩ := List.exists_cons_of_ne_nil hne
      simp only [List.cons_append, List.cons.injEq] at g2
      exact hP s (by rw [← g2.1])
    cases g4 with
    | line _ hl =>
      refine hm (by obtain ⟨b, x, _, rfl, _⟩ := hl; simp [Json.commentCfg]) ?_
      rintro s rfl
      rw [g2] at hl
      exact .inl ⟨some Json.comment, _, r', g2, ⟨'/', s, rfl, by rw [hrule]; exact .inl ⟨rfl, .inl hl⟩⟩, g3⟩
    | block _ _ _ _ hb =>
      refine hm (by obtain ⟨a, rfl', ⟨b, x, _, rfl, _⟩ | ⟨_, rfl⟩⟩ := hb <;> simp [Json.commentCfg]) ?_
      rintro s rfl
      rw [g2] at hb
      exact .inl ⟨some Json.comment, _, r', g2, ⟨'/', s, rfl, by rw [hrule]; exact .inl ⟨rfl, .inr hb⟩⟩, g3⟩
    | nested _ _ _ hn => simp [Json.commentCfg] at hn
    | unclosable _ _ _ hn => simp [Json.commentCfg] at hn
    | absent ha hb =>
      rw [List.nil_append] at g2
      subst g2
      refine .inr ⟨'/', r, rfl, ⟨'/', [], rfl, ?_⟩, by simpa using g3⟩
      rw [hrule]
      refine .inr ⟨rfl, rfl, ?_, ?_⟩
      · rintro hh
        cases r with
        | nil => simp at hh
        | cons d r => simp at hh; subst hh; simp [Json.commentCfg] at ha
      · rintro hh
        cases r with
        | nil => simp at hh
        | cons d r => simp at hh; subst hh; simp [Json.commentCfg] at hb
  rw [if_neg h3]
  by_cases h4 : c = '-' ∨ Json.isDigit c = true
  · rw [if_pos h4]
    obtain ⟨s1, k, s, r', g1, rfl, g3, g4⟩ := lexNumber_at hs cfg h4 h
    refine ⟨s1, g1, .inl ⟨k, c :: s, r', rfl, ⟨c, s, rfl, ?_⟩, g4⟩⟩
    rw [firstRule, if_neg (show ¬ isJsonSpace c from h1), if_neg h2, if_neg h3, if_pos h4]
    exact g3
  rw [if_neg h4]
  obtain ⟨hsome, hnone⟩ := punctuation_rule (cc := cc) h1 h2 h3 h4
  by_cases h5 : (Json.punctuation c).isSome = true
  · rw [if_pos h5]
    obtain ⟨k, hk⟩ := Option.isSome_iff_exists.mp h5
    unfold Json.lexOperator
    obtain ⟨s1, g1, g2⟩ := peek_at hs h
    simp only [g1, run_bind_ok, List.head?_cons, hk]
    refine ⟨_, rfl, .inl ⟨some k, [c], r, rfl, ⟨c, [], rfl, ?_⟩, record_at h.pos (advance_char hs g2) _⟩⟩
    rw [hsome k hk]
    exact ⟨rfl, rfl⟩
  rw [if_neg h5]
  have hrule := hnone (by simpa using h5)
  by_cases h6 : c = 't' ∨ c = 'f' ∨ c = 'n'
  · rw [if_pos h6] at hrule ⊢
    unfold Json.lexWord
    rcases keyword_at hs h with ⟨w, k, r', hk, g2, s1, g3, g4⟩ | ⟨hn, s1, g1, g2⟩
    · simp only [g3, run_bind_ok, if_true, run_pure]
      refine ⟨s1, rfl, ?_⟩
      cases w with
      | nil => rcases hk with ⟨hk, _⟩ | ⟨hk, _⟩ | ⟨hk, _⟩ <;> simp at hk
      | cons d w =>
        simp only [List.cons_append, List.cons.injEq] at g2
        obtain ⟨rfl, rfl⟩ := g2
        exact .inl ⟨some k, c :: w, r', rfl, ⟨c, w, rfl, by rw [hrule]; exact .inl ⟨k, hk, rfl⟩⟩, g4⟩
    · simp only [g1, run_bind_ok, Bool.false_eq_true, if_false]
      by_cases hb : cfg.bareKeys = true
      · rw [if_pos hb]
        obtain ⟨s2, s, r', k1, rfl, k3, k4⟩ := bareKey_at hs cc (.inl (hcc.letters c (by rcases h6 with rfl | rfl | rfl <;> simp))) g2
        simp only [k1, run_bind_ok]
        refine ⟨_, rfl, .inl ⟨some Json.bareKey, c :: s, r', rfl, ⟨c, s, rfl, ?_⟩, k4⟩⟩
        rw [hrule]
        exact .inr ⟨hn, by rw [if_pos hb]; exact ⟨rfl, k3⟩⟩
      · rw [if_neg hb]
        refine ⟨s1, rfl, .inr ⟨c, r, rfl, ⟨c, [], rfl, ?_⟩, g2⟩⟩
        rw [hrule]
        exact .inr ⟨hn, by rw [if_neg hb]; exact ⟨rfl, rfl⟩⟩
  rw [if_neg h6] at hrule ⊢
  by_cases h7 : c = '\'' ∧ cfg.singleQuotes = true
  · rw [if_pos h7] at hrule ⊢
    obtain ⟨s1, b, m, r', new, g1, g2, g3, g4⟩ := string_at hs h Json.singleCfg Json.stringLiteral
    simp only [g1, run_bind_ok]
    refine ⟨s1, rfl, ?_⟩
    rcases g4 with ⟨_, ⟨q, s0, e1, _, e3⟩, hne, rfl⟩ | ⟨_, hn, _⟩
    · obtain ⟨d, s, rfl⟩ := List.exists_cons_of_ne_nil hne
      simp only [List.cons_append, List.cons.injEq] at g2 e1
      obtain ⟨rfl, rfl⟩ := g2
      obtain ⟨rfl, rfl⟩ := e1
      obtain ⟨rfl, hsq⟩ := h7
      obtain ⟨cl, hcl⟩ := e3 (by simp [Json.singleCfg])
      exact .inl ⟨some Json.stringLiteral, '\'' :: s, r', rfl, ⟨'\'', s, rfl, by rw [hrule]; exact ⟨rfl, cl, hcl⟩⟩, g3⟩
    · exact absurd (by rw [h7.1]; simp [Json.singleCfg]) (hn c r rfl)
  rw [if_neg h7] at hrule ⊢
  unfold Json.lexOther
  have hother : ∀ (hr : firstRule cfg cc c = .other), ∃ st', (.ok ((st.advance src c.utf8Size).addToken Json.error st.pos (st.advance src c.utf8Size).pos) : Run Lex) = .ok st' ∧
      ArmDone src t l (c :: r) toks cfg cc st' := by
    intro hr
    exact ⟨_, rfl, .inl ⟨some Json.error, [c], r, rfl, ⟨c, [], rfl, by rw [hr]; exact ⟨rfl, rfl⟩⟩, record_at h.pos (advance_char hs h) _⟩⟩
  by_cases h8 : cfg.bareKeys = true ∧ (cc.alpha c = true ∨ c = '_' ∨ c = '$')
  · rw [if_pos h8] at hrule
    rw [if_pos (by simp [Json.keyStart, h8.1, or_assoc]; exact h8.2)]
    obtain ⟨s2, s, r', k1, rfl, k3, k4⟩ := bareKey_at hs cc h8.2 h
    simp only [k1, run_bind_ok]
    refine ⟨_, rfl, .inl ⟨some Json.bareKey, c :: s, r', rfl, ⟨c, s, rfl, ?_⟩, k4⟩⟩
    rw [hrule]
    exact ⟨rfl, k3⟩
  · rw [if_neg h8] at hrule
    rw [if_neg (by simpa [Json.keyStart, or_assoc] using h8)]
    exact hother hrule

theorem jsonRun_at (cfg : JsonCfg) {cc : CharClass} (hcc : SoundClasses cc) (fuel : Nat) (h : LexAt src t l r toks st) (hf : r.length ≤ fuel) :
    ∃ st' ps, Json.run cfg cc src fuel st = .ok st' ∧ Cut (JsonToken cfg cc) r ps ∧
      LexAt src t t [] (toks ++ tokensOf (blen l) ps) st' := by
  induction fuel generalizing l r toks st with
  | zero =>
    obtain rfl : r = [] := List.length_eq_zero_iff.mp (by omega)
    have hl : l = t := by rw [h.cur.text]; simp
    unfold Json.run
    rw [h.notAtEnd hs]
    exact ⟨st, [], by simp, .nil, by rw [hl] at h; simpa [tokensOf] using h⟩
  | succ fuel ih =>
    unfold Json.run
    rw [h.notAtEnd hs]
    cases r with
    | nil =>
      have hl : l = t := by rw [h.cur.text]; simp
      exact ⟨st, [], by simp, .nil, by rw [hl] at h; simpa [tokensOf] using h⟩
    | cons c r =>
      rw [if_pos (by simp)]
      obtain ⟨s1, h1, h2⟩ := peek_at hs h
      simp only [h1, run_bind_ok, List.head?_cons]
      obtain ⟨s2, g1, g2⟩ := arm_at hs cfg hcc h2
      simp only [g1, run_bind_ok]
      rcases g2 with ⟨k, m, r', e1, e2, e3⟩ | ⟨c', r', e1, e2, e3⟩
      · have hm : m ≠ [] := by obtain ⟨a, b, rfl, _⟩ := e2; simp
        obtain ⟨s3, k1, k2⟩ := guard_at hs e3 st.pos
        rw [h.pos, if_neg (by rw [blen_append]; have := blen_pos hm; omega)] at k2
        simp only [k1, run_bind_ok]
        have := List.length_pos_iff.mpr hm
        have hlen := congrArg List.length e1
        obtain ⟨st', ps, j1, j2, j3⟩ := ih k2 (by simp at hf hlen; omega)
        refine ⟨st', (k, m) :: ps, j1, by rw [e1]; exact .cons hm e2 j2, ?_⟩
        rw [tokensOf_cons]
        simpa using j3
      · simp only [List.cons.injEq] at e1
        obtain ⟨rfl, rfl⟩ := e1
        obtain ⟨s3, k1, k2⟩ := guard_at hs e3 st.pos
        rw [h.pos, if_pos rfl] at k2
        simp only [List.take_succ_cons, List.take_zero, List.drop_succ_cons, List.drop_zero] at k2
        simp only [k1, run_bind_ok]
        obtain ⟨st', ps, j1, j2, j3⟩ := ih k2 (by simp at hf; omega)
        refine ⟨st', (none, [c]) :: ps, j1, .cons (m := [c]) (by simp) e2 j2, ?_⟩
        simpa [tokensOf] using j3

/-- The tokens are those of a cut of the text, then the end-of-file token. -/
theorem jsonLex_spec (cfg : JsonCfg) {cc : CharClass} (hcc : SoundClasses cc) :
    ∃ ps, Cut (JsonToken cfg cc) t ps ∧ Json.lex cfg cc src = .ok (tokensOf 0 ps ++ [⟨Json.eof, blen t, blen t⟩]) := by
  obtain ⟨s0, h1, h2⟩ := lex_new hs
  obtain ⟨st, ps, g1, g2, g3⟩ := jsonRun_at hs cfg hcc src.length h2 (by rw [hs.length_eq]; exact length_le_blen t)
  refine ⟨ps, g2, ?_⟩
  unfold Json.lex
  simp only [h1, run_bind_ok, g1]
  simp [Lex.addEof, Lex.addToken, g3.toks, g3.pos]

end

end Oaks
