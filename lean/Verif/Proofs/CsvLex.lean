import Verif.Spec.Csv
import Verif.Proofs.LexRun
import Verif.Proofs.ParserAt

/-! The CSV lexer cuts every text into tokens as specified. -/
namespace Oaks
open Spec

/-- The longest run is determined. -/
theorem span_unique {P : Char → Prop} {m m' r r' : Str} (h : m ++ r = m' ++ r') (hm : ∀ c ∈ m, P c) (hm' : ∀ c ∈ m', P c)
    (hr : ∀ c, r.head? = some c → ¬ P c) (hr' : ∀ c, r'.head? = some c → ¬ P c) : m = m' := by
  induction m generalizing m' with
  | nil =>
    cases m' with
    | nil => rfl
    | cons c m' =>
      simp only [List.nil_append] at h
      exact absurd (hm' c List.mem_cons_self) (hr c (by rw [h]; rfl))
  | cons c m ih =>
    cases m' with
    | nil =>
      simp only [List.nil_append] at h
      exact absurd (hm c List.mem_cons_self) (hr' c (by rw [← h]; rfl))
    | cons c' m' =>
      simp only [List.cons_append, List.cons.injEq] at h
      rw [h.1, ih h.2 (fun c hc => hm c (List.mem_cons_of_mem _ hc)) (fun c hc => hm' c (List.mem_cons_of_mem _ hc))]

theorem quotedBody_closed {q : Char} {b b' r r' : Str} (hb : QuotedBody q b) (hb' : QuotedBody q b')
    (hr : r.head? ≠ some q) (hr' : r'.head? ≠ some q) (h : b ++ q :: r = b' ++ q :: r') : b = b' := by
  induction hb generalizing b' with
  | nil =>
    cases hb' with
    | nil => rfl
    | plain hc _ => simp only [List.nil_append, List.cons_append, List.cons.injEq] at h; exact absurd h.1.symm hc
    | doubled _ => simp only [List.nil_append, List.cons_append, List.cons.injEq] at h; rw [h.2] at hr; simp at hr
  | plain hc _ ih =>
    cases hb' with
    | nil => simp only [List.nil_append, List.cons_append, List.cons.injEq] at h; exact absurd h.1 hc
    | plain hc' h2 => simp only [List.cons_append, List.cons.injEq] at h; rw [h.1, ih h2 h.2]
    | doubled _ => simp only [List.cons_append, List.cons.injEq] at h; exact absurd h.1 hc
  | doubled _ ih =>
    cases hb' with
    | nil => simp only [List.nil_append, List.cons_append, List.cons.injEq, true_and] at h; rw [← h] at hr'; simp at hr'
    | plain hc _ => simp only [List.cons_append, List.cons.injEq] at h; exact absurd h.1.symm hc
    | doubled h2 => simp only [List.cons_append, List.cons.injEq, true_and] at h; rw [ih h2 h]

theorem quotedBody_open {q : Char} {b b' r : Str} (hb : QuotedBody q b) (hb' : QuotedBody q b')
    (hr : r.head? ≠ some q) : b ++ q :: r ≠ b' := by
  induction hb generalizing b' with
  | nil =>
    rintro rfl
    cases hb' with
    | plain hc _ => exact hc rfl
    | doubled _ => simp at hr
  | plain hc _ ih =>
    intro h
    cases hb' with
    | nil => simp at h
    | plain _ h2 => simp only [List.cons_append, List.cons.injEq] at h; exact ih h2 h.2
    | doubled _ => simp only [List.cons_append, List.cons.injEq] at h; exact absurd h.1 hc
  | doubled _ ih =>
    intro h
    cases hb' with
    | nil => simp at h
    | plain hc _ => simp only [List.cons_append, List.cons.injEq] at h; exact absurd h.1.symm hc
    | doubled h2 => simp only [List.cons_append, List.cons.injEq, true_and] at h; exact ih h2 h

/-- Which rule applies is decided by the first character. -/
theorem Spec.CsvToken.rule {sep q : Char} {k : Option Nat} {c : Char} {m r : Str} (h : CsvToken sep q k (c :: m) r) :
    (isCsvBlank c ∧ k = some CsvLexer.whitespace ∧ (∀ c ∈ m, isCsvBlank c) ∧ (∀ c, r.head? = some c → ¬ isCsvBlank c)) ∨
    (¬ isCsvBlank c ∧ c = '\n' ∧ k = some CsvLexer.newline ∧ m = []) ∨
    (¬ isCsvBlank c ∧ c = '\r' ∧ k = some CsvLexer.newline ∧ (m = ['\n'] ∨ m = [] ∧ r.head? ≠ some '\n')) ∨
    (¬ isCsvBlank c ∧ ¬ isCsvEol c ∧ c = sep ∧ k = some CsvLexer.comma ∧ m = []) ∨
    (¬ isCsvBlank c ∧ ¬ isCsvEol c ∧ c ≠ sep ∧ c = q ∧ k = some CsvLexer.field ∧
      ((∃ b, m = b ++ [q] ∧ QuotedBody q b ∧ r.head? ≠ some q) ∨ (QuotedBody q m ∧ r = []))) ∨
    (¬ isCsvBlank c ∧ ¬ isCsvEol c ∧ c ≠ sep ∧ c ≠ q ∧ k = some CsvLexer.field ∧ (∀ d ∈ m, d ≠ sep ∧ ¬ isCsvEol d) ∧
      (∀ d, r.head? = some d → ¬ (d ≠ sep ∧ ¬ isCsvEol d))) := by
  cases h with
  | blank h1 h2 => exact .inl ⟨h1 c List.mem_cons_self, rfl, fun d hd => h1 d (List.mem_cons_of_mem _ hd), h2⟩
  | lf => exact .inr (.inl ⟨by simp [isCsvBlank], rfl, rfl, rfl⟩)
  | crlf => exact .inr (.inr (.inl ⟨by simp [isCsvBlank], rfl, rfl, .inl rfl⟩))
  | cr h => exact .inr (.inr (.inl ⟨by simp [isCsvBlank], rfl, rfl, .inr ⟨rfl, h⟩⟩))
  | separator h1 h2 => exact .inr (.inr (.inr (.inl ⟨h1, h2, rfl, rfl, rfl⟩)))
  | quoted h1 h2 h3 h4 h5 => exact .inr (.inr (.inr (.inr (.inl ⟨h1, h2, h3, rfl, rfl, .inl ⟨_, rfl, h4, h5⟩⟩))))
  | unterminated h1 h2 h3 h4 => exact .inr (.inr (.inr (.inr (.inl ⟨h1, h2, h3, rfl, rfl, .inr ⟨h4, rfl⟩⟩))))
  | unquoted h1 h2 h3 h4 =>
    refine .inr (.inr (.inr (.inr (.inr ⟨h1, (h3 c List.mem_cons_self).2, (h3 c List.mem_cons_self).1, h2, rfl,
      fun d hd => h3 d (List.mem_cons_of_mem _ hd), ?_⟩))))
    rintro d hd ⟨g1, g2⟩
    rcases h4 d hd with h | h
    · exact g1 h
    · exact g2 h

theorem csvToken_unique {sep q : Char} {k k' : Option Nat} {m m' r r' : Str} (hm : m ≠ []) (hm' : m' ≠ [])
    (h : CsvToken sep q k m r) (h' : CsvToken sep q k' m' r') (he : m ++ r = m' ++ r') : k = k' ∧ m = m' := by
  obtain ⟨c, m, rfl⟩ := List.exists_cons_of_ne_nil hm
  obtain ⟨c', m', rfl⟩ := List.exists_cons_of_ne_nil hm'
  simp only [List.cons_append, List.cons.injEq] at he
  obtain ⟨rfl, he⟩ := he
  have hn : isCsvEol '\n' := .inl rfl
  have hr : isCsvEol '\r' := .inr rfl
  rcases h.rule with ⟨a1, rfl, a3, a4⟩ | ⟨a1, a2, rfl, rfl⟩ | ⟨a1, a2, rfl, a4⟩ | ⟨a1, a2, a3, rfl, rfl⟩ |
    ⟨a1, a2, a3, a4, rfl, a5⟩ | ⟨a1, a2, a3, a4, rfl, a5, a6⟩ <;>
  rcases h'.rule with ⟨b1, rfl, b3, b4⟩ | ⟨b1, b2, rfl, rfl⟩ | ⟨b1, b2, rfl, b4⟩ | ⟨b1, b2, b3, rfl, rfl⟩ |
    ⟨b1, b2, b3, b4, rfl, b5⟩ | ⟨b1, b2, b3, b4, rfl, b5, b6⟩ <;>
  first
  | exact absurd a1 b1
  | exact absurd b1 a1
  | (subst a2; exact absurd hn b2)
  | (subst a2; exact absurd hr b2)
  | (subst b2; exact absurd hn a2)
  | (subst b2; exact absurd hr a2)
  | exact absurd a3 b3
  | exact absurd b3 a3
  | exact absurd a4 b4
  | exact absurd b4 a4
  | exact absurd (a2.symm.trans b2) (by decide)
  | exact ⟨rfl, rfl⟩
  | skip
  · exact ⟨rfl, by rw [span_unique he a3 b3 a4 b4]⟩
  · refine ⟨rfl, ?_⟩
    rcases a4 with rfl | ⟨rfl, a4⟩ <;> rcases b4 with rfl | ⟨rfl, b4⟩
    · rfl
    · simp only [List.nil_append, List.cons_append] at he; rw [← he] at b4; simp at b4
    · simp only [List.nil_append, List.cons_append] at he; rw [he] at a4; simp at a4
    · rfl
  · refine ⟨rfl, ?_⟩
    rcases a5 with ⟨b, rfl, a5, a6⟩ | ⟨a5, rfl⟩ <;> rcases b5 with ⟨b', rfl, b5, b6⟩ | ⟨b5, rfl⟩
    · simp only [List.append_assoc, List.cons_append, List.nil_append] at he
      rw [quotedBody_closed a5 b5 a6 b6 he]
    · simp only [List.append_assoc, List.cons_append, List.nil_append, List.append_nil] at he
      exact absurd he (quotedBody_open a5 b5 a6)
    · simp only [List.append_assoc, List.cons_append, List.nil_append, List.append_nil] at he
      exact absurd he.symm (quotedBody_open b5 a5 b6)
    · simp only [List.append_nil] at he; rw [he]
  · exact ⟨rfl, by rw [span_unique he a5 b5 a6 b6]⟩

theorem pos_lt {l m : Str} : blen (l ++ m) > blen l ↔ m ≠ [] := by
  rw [blen_append]
  constructor
  · rintro h rfl; simp at h
  · intro h; have := blen_pos h; omega

theorem of_mem_takeWhile {α} {p : α → Bool} {l : List α} {x : α} (h : x ∈ l.takeWhile p) : p x = true := by
  induction l with
  | nil => simp at h
  | cons a l ih =>
    by_cases hp : p a = true
    · rw [List.takeWhile_cons_of_pos hp, List.mem_cons] at h
      rcases h with rfl | h
      · exact hp
      · exact ih h
    · rw [List.takeWhile_cons_of_neg hp] at h; simp at h

/-- Recording what was consumed since `start`. -/
theorem record_at {src : Source} {t l m r : Str} {toks : List Tok} {st : Lex} {start : Nat} (hp : start = blen l)
    (h : LexAt src t (l ++ m) r toks st) (k : Nat) :
    LexAt src t (l ++ m) r (toks ++ [⟨k, blen l, blen l + blen m⟩]) (st.addToken k start st.pos) := by
  have := addToken_at h k start st.pos
  rw [hp] at this ⊢
  simpa [h.pos] using this

section
variable {src : Source} {t : Str} (hs : Supplied src t) {l r : Str} {toks : List Tok} {st : Lex}
include hs

/-- A run of characters recorded as one token, if there is any. -/
theorem spanWhile_at (h : LexAt src t l r toks st) (p : Char → Bool) (k : Nat) :
    ∃ st', (do
        let st' ← st.takeWhile src p
        if st'.pos > st.pos then pure (st'.addToken k st.pos st'.pos, true) else pure (st', false)) =
          (.ok (st', !(r.takeWhile p).isEmpty) : Run (Lex × Bool)) ∧
      LexAt src t (l ++ r.takeWhile p) (r.dropWhile p)
        (toks ++ if (r.takeWhile p).isEmpty then [] else [⟨k, blen l, blen l + blen (r.takeWhile p)⟩]) st' := by
  obtain ⟨st1, h1, h2⟩ := takeWhile_at hs h p
  simp only [h1, run_bind_ok]
  by_cases he : r.takeWhile p = []
  · rw [if_neg (by rw [h2.pos, h.pos, pos_lt]; simpa using he)]
    exact ⟨st1, by simp [he], by simpa [he] using h2⟩
  · rw [if_pos (by rw [h2.pos, h.pos, pos_lt]; exact he)]
    have hne : (r.takeWhile p).isEmpty = false := by simpa using he
    rw [hne]
    exact ⟨_, rfl, record_at h.pos h2 k⟩

theorem quotedLoop_at (q : Char) (fuel : Nat) (h : LexAt src t l r toks st) (hf : blen r < fuel) :
    ∃ st' m r', CsvLexer.quotedLoop src q fuel st = .ok st' ∧ r = m ++ r' ∧ LexAt src t (l ++ m) r' toks st' ∧
      ((∃ body, m = body ++ [q] ∧ QuotedBody q body ∧ r'.head? ≠ some q) ∨ (QuotedBody q m ∧ r' = [])) := by
  induction fuel generalizing l r st with
  | zero => omega
  | succ fuel ih =>
    obtain ⟨st1, h1, h2⟩ := peek_at hs h
    unfold CsvLexer.quotedLoop
    simp only [h1, run_bind_ok]
    cases r with
    | nil => exact ⟨st1, [], [], rfl, rfl, by simpa using h2, .inr ⟨.nil, rfl⟩⟩
    | cons c r =>
      simp only [List.head?_cons]
      have hpos := utf8Size_pos c
      have h3 := advance_char hs h2
      by_cases hc : c = q
      · subst hc
        rw [if_pos rfl]
        obtain ⟨st2, g1, g2⟩ := peek_at hs h3
        simp only [g1, run_bind_ok]
        cases r with
        | nil => exact ⟨st2, [c], [], rfl, rfl, g2, .inl ⟨[], rfl, .nil, by simp⟩⟩
        | cons d r =>
          simp only [List.head?_cons, Option.some.injEq]
          by_cases hd : d = c
          · subst hd
            rw [if_pos rfl]
            obtain ⟨st', m, r', k1, k2, k3, k4⟩ := ih (advance_char hs g2) (by simp at hf; omega)
            refine ⟨st', d :: d :: m, r', k1, by rw [k2]; rfl, by simpa using k3, ?_⟩
            rcases k4 with ⟨body, rfl, hb, hh⟩ | ⟨hb, hh⟩
            · exact .inl ⟨d :: d :: body, rfl, .doubled hb, hh⟩
            · exact .inr ⟨.doubled hb, hh⟩
          · rw [if_neg hd]
            exact ⟨st2, [c], d :: r, rfl, rfl, g2, .inl ⟨[], rfl, .nil, by simpa using hd⟩⟩
      · rw [if_neg hc]
        obtain ⟨st', m, r', k1, k2, k3, k4⟩ := ih h3 (by simp at hf; omega)
        refine ⟨st', c :: m, r', k1, by rw [k2]; rfl, by simpa using k3, ?_⟩
        rcases k4 with ⟨body, rfl, hb, hh⟩ | ⟨hb, hh⟩
        · exact .inl ⟨c :: body, rfl, .plain hc hb, hh⟩
        · exact .inr ⟨.plain hc hb, hh⟩

/-- One turn of the loop consumes one token. -/
theorem csvStep_at (lx : CsvLexer) (h : LexAt src t l r toks st) (hr : r ≠ []) :
    ∃ st' k m r', lx.step src st = .ok st' ∧ r = m ++ r' ∧ m ≠ [] ∧ CsvToken lx.sep lx.quote (some k) m r' ∧
      LexAt src t (l ++ m) r' (toks ++ [⟨k, blen l, blen l + blen m⟩]) st' := by
  unfold CsvLexer.step
  obtain ⟨s1, h1, h2⟩ := spanWhile_at hs h (fun c => c == ' ' || c == '\t') CsvLexer.whitespace
  have e1 : CsvLexer.skipWhitespace src st = _ := h1
  simp only [e1, run_bind_ok]
  by_cases hb : r.takeWhile (fun c => c == ' ' || c == '\t') = []
  swap
  · have hbe : (r.takeWhile (fun c => c == ' ' || c == '\t')).isEmpty = false := by simpa using hb
    rw [hbe] at h2 ⊢
    refine ⟨s1, _, _, _, by simp, List.takeWhile_append_dropWhile.symm, hb, .blank ?_ ?_, by simpa using h2⟩
    · intro c hc
      have := of_mem_takeWhile hc
      simpa [isCsvBlank] using this
    · intro c hc
      have := List.head?_dropWhile_not (fun c => c == ' ' || c == '\t') r
      rw [hc] at this
      simpa [isCsvBlank, not_or] using this
  have hd : r.dropWhile (fun c => c == ' ' || c == '\t') = r := by
    have := List.takeWhile_append_dropWhile (p := fun c => c == ' ' || c == '\t') (l := r)
    rwa [hb, List.nil_append] at this
  rw [hb, hd] at h2
  simp only [hb, List.isEmpty_nil, Bool.not_true, if_true, List.append_nil, Bool.false_eq_true, if_false] at h2 ⊢
  obtain ⟨c, r, rfl⟩ := List.exists_cons_of_ne_nil hr
  have hnb : ¬ isCsvBlank c := by
    intro hc
    rw [List.takeWhile_cons_of_pos (by simpa [isCsvBlank] using hc)] at hb
    exact absurd hb (by simp)
  -- newline
  obtain ⟨s2, k1, k2⟩ := peek_at hs h2
  unfold CsvLexer.lexNewline
  simp only [k1, run_bind_ok, List.head?_cons]
  by_cases hcr : c = '\r'
  · subst hcr
    rw [if_pos rfl]
    have k3 : LexAt src t (l ++ ['\r']) r toks (s2.advance src 1) := advance_char hs k2
    obtain ⟨s3, j1, j2⟩ := peek_at hs k3
    simp only [j1, run_bind_ok]
    by_cases hlf : r.head? = some '\n'
    · rw [if_pos hlf]
      obtain ⟨r', rfl⟩ : ∃ r', r = '\n' :: r' := by
        cases r with
        | nil => simp at hlf
        | cons d r => simp at hlf; exact ⟨r, by rw [hlf]⟩
      have j3 : LexAt src t (l ++ ['\r'] ++ ['\n']) r' toks (s3.advance src 1) := advance_char hs j2
      rw [List.append_assoc] at j3
      exact ⟨_, _, ['\r', '\n'], r', rfl, rfl, by simp, .crlf, record_at h2.pos j3 _⟩
    · rw [if_neg hlf]
      exact ⟨_, _, ['\r'], r, rfl, rfl, by simp, .cr hlf, record_at h2.pos j2 _⟩
  rw [if_neg hcr]
  by_cases hlf : c = '\n'
  · subst hlf
    rw [if_pos rfl]
    have k3 : LexAt src t (l ++ ['\n']) r toks (s2.advance src 1) := advance_char hs k2
    exact ⟨_, _, ['\n'], r, rfl, rfl, by simp, .lf, record_at h2.pos k3 _⟩
  rw [if_neg hlf]
  have hne : ¬ isCsvEol c := by simp [isCsvEol, hcr, hlf]
  simp only [run_pure, run_bind_ok, Bool.false_eq_true, if_false]
  -- separator
  obtain ⟨s3, j1, j2⟩ := peek_at hs k2
  unfold CsvLexer.lexComma
  simp only [j1, run_bind_ok, List.head?_cons]
  by_cases hsep : c = lx.sep
  · rw [if_pos hsep]
    have j3 := advance_char hs j2
    exact ⟨_, _, [c], r, rfl, rfl, by simp, by rw [hsep] at hnb hne ⊢; exact .separator hnb hne, record_at k2.pos j3 _⟩
  rw [if_neg hsep]
  simp only [run_pure, run_bind_ok, Bool.false_eq_true, if_false]
  -- quoted
  obtain ⟨s4, i1, i2⟩ := peek_at hs j2
  unfold CsvLexer.lexQuoted
  simp only [i1, run_bind_ok, List.head?_cons]
  by_cases hq : c = lx.quote
  · rw [if_pos hq]
    have i3 := advance_char hs i2
    obtain ⟨s5, m, r', g1, rfl, g3, g4⟩ := quotedLoop_at hs lx.quote (src.length + 1) i3 (by rw [i3.len hs]; omega)
    simp only [g1, run_bind_ok]
    refine ⟨_, CsvLexer.field, c :: m, r', rfl, rfl, by simp, ?_, ?_⟩
    · rw [hq] at hnb hne hsep ⊢
      rcases g4 with ⟨body, rfl, hb', hh⟩ | ⟨hb', rfl⟩
      · exact .quoted hnb hne hsep hb' hh
      · exact .unterminated hnb hne hsep hb'
    · rw [List.append_assoc] at g3
      exact record_at j2.pos g3 _
  rw [if_neg hq]
  simp only [run_pure, run_bind_ok, Bool.false_eq_true, if_false]
  -- unquoted
  obtain ⟨s5, g1, g2⟩ := spanWhile_at hs i2 (fun c => !(c == lx.sep || c == '\n' || c == '\r')) CsvLexer.field
  have e2 : lx.lexUnquoted src s4 = _ := g1
  simp only [e2, run_bind_ok]
  have hp : (fun c => !(c == lx.sep || c == '\n' || c == '\r')) c = true := by simp [hsep, hcr, hlf]
  rw [List.takeWhile_cons_of_pos (p := fun c => !(c == lx.sep || c == '\n' || c == '\r')) hp,
    List.dropWhile_cons_of_pos (p := fun c => !(c == lx.sep || c == '\n' || c == '\r')) hp] at g2
  rw [List.takeWhile_cons_of_pos (p := fun c => !(c == lx.sep || c == '\n' || c == '\r')) hp]
  simp only [List.isEmpty_cons, Bool.not_false, if_true, Bool.false_eq_true, if_false] at g2 ⊢
  refine ⟨s5, _, _, _, rfl, ?_, by simp, .unquoted hnb hq ?_ ?_, g2⟩
  · simp
  · intro d hd
    rw [List.mem_cons] at hd
    rcases hd with rfl | hd
    · exact ⟨hsep, hne⟩
    · have := of_mem_takeWhile hd
      simp only [Bool.not_eq_true', Bool.or_eq_false_iff, beq_eq_false_iff_ne] at this
      exact ⟨this.1.1, by simp [isCsvEol, this.1.2, this.2]⟩
  · intro d hd
    have := List.head?_dropWhile_not (fun c => !(c == lx.sep || c == '\n' || c == '\r')) r
    rw [hd] at this
    simp only [Bool.not_eq_false', Bool.or_eq_true, beq_iff_eq, Bool.not_not, Bool.not_eq_eq_eq_not, Bool.not_false] at this
    rcases this with (h | h) | h
    · exact .inl h
    · exact .inr (.inl h)
    · exact .inr (.inr h)

theorem csvRun_at (lx : CsvLexer) (fuel : Nat) (h : LexAt src t l r toks st) (hf : r.length ≤ fuel) :
    ∃ st' ps, lx.run src fuel st = .ok st' ∧ Cut (CsvToken lx.sep lx.quote) r ps ∧ (∀ p ∈ ps, p.1.isSome) ∧
      LexAt src t t [] (toks ++ tokensOf (blen l) ps) st' := by
  induction fuel generalizing l r toks st with
  | zero =>
    obtain rfl : r = [] := List.length_eq_zero_iff.mp (by omega)
    have hl : l = t := by rw [h.cur.text]; simp
    unfold CsvLexer.run
    rw [h.notAtEnd hs]
    exact ⟨st, [], by simp, .nil, by simp, by rw [hl] at h; simpa [tokensOf] using h⟩
  | succ fuel ih =>
    unfold CsvLexer.run
    rw [h.notAtEnd hs]
    by_cases hr : r = []
    · subst hr
      have hl : l = t := by rw [h.cur.text]; simp
      exact ⟨st, [], by simp, .nil, by simp, by rw [hl] at h; simpa [tokensOf] using h⟩
    · rw [if_pos (by simp [hr])]
      obtain ⟨st1, k, m, r', h1, rfl, h3, h4, h5⟩ := csvStep_at hs lx h hr
      simp only [h1, run_bind_ok]
      have := List.length_pos_iff.mpr h3
      obtain ⟨st', ps, g1, g2, g3, g4⟩ := ih h5 (by simp at hf; omega)
      refine ⟨st', (some k, m) :: ps, g1, .cons h3 h4 g2, ?_, ?_⟩
      · intro p hp
        rw [List.mem_cons] at hp
        rcases hp with rfl | hp
        · rfl
        · exact g3 p hp
      · simpa [tokensOf] using g4

/-- The tokens are those of a cut of the text, then the end-of-file token. -/
theorem csvLex_spec (lx : CsvLexer) :
    ∃ ps, Cut (CsvToken lx.sep lx.quote) t ps ∧ (∀ p ∈ ps, p.1.isSome) ∧
      lx.lex src = .ok (tokensOf 0 ps ++ [⟨CsvLexer.eof, blen t, blen t⟩]) := by
  obtain ⟨s0, h1, h2⟩ := lex_new hs
  obtain ⟨st, ps, g1, g2, g3, g4⟩ := csvRun_at hs lx src.length h2 (by rw [hs.length_eq]; exact length_le_blen t)
  refine ⟨ps, g2, g3, ?_⟩
  unfold CsvLexer.lex
  simp only [h1, run_bind_ok, g1]
  simp [Lex.addEof, Lex.addToken, g4.toks, g4.pos]

end

end Oaks
