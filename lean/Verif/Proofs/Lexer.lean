import Verif.Proofs.CursorRuns
import Verif.Spec.Lexer

/-! The lexer state's basic operations on a text split in two. -/
namespace Oaks
open Spec

/-- The lexer stands between `l` and `r` of the text and has recorded `toks`. -/
structure LexAt (src : Source) (t l r : Str) (toks : List Tok) (st : Lex) : Prop where
  cur : CurAt (Linked src t 0) t l r st.cur
  toks : st.toks = toks

abbrev Supplied (src : Source) (t : Str) : Prop := Supply src t (Linked src t 0)

section
variable {src : Source} {t : Str} (hs : Supplied src t) {l r : Str} {toks : List Tok} {st : Lex}
include hs

theorem LexAt.len (h : LexAt src t l r toks st) : src.length = blen l + blen r := by
  rw [hs.length_eq, h.cur.text]; simp

omit hs in
theorem LexAt.pos (h : LexAt src t l r toks st) : st.pos = blen l := h.cur.offset

theorem LexAt.notAtEnd (h : LexAt src t l r toks st) : st.notAtEnd src = decide (r ≠ []) := by
  unfold Lex.notAtEnd
  rw [h.cur.offset, h.len hs, decide_eq_decide]
  constructor
  · rintro h1 rfl; simp at h1
  · intro h1; have := blen_pos h1; omega

theorem lex_new : ∃ st, Lex.new src = .ok st ∧ LexAt src t [] t [] st := by
  obtain ⟨cur, h1, h2⟩ := newAt_spec hs (l := []) (r := t) rfl
  exact ⟨⟨cur, []⟩, by simp only [Lex.new]; simp at h1; rw [h1]; rfl, h2, rfl⟩

theorem peek_at (h : LexAt src t l r toks st) : ∃ st', st.peek src = .ok (st', r.head?) ∧ LexAt src t l r toks st' := by
  obtain ⟨cur, h1, h2⟩ := peekChar_spec hs h.cur
  exact ⟨{ st with cur := cur }, by simp [Lex.peek, h1], h2, h.toks⟩

theorem advance_at {m : Str} (h : LexAt src t l (m ++ r) toks st) : LexAt src t (l ++ m) r toks (st.advance src (blen m)) :=
  ⟨advanceBytes_spec hs h.cur, h.toks⟩

theorem advance_char {c : Char} (h : LexAt src t l (c :: r) toks st) : LexAt src t (l ++ [c]) r toks (st.advance src c.utf8Size) := by
  have := advance_at hs (m := [c]) h
  simpa using this

theorem rest_at (h : LexAt src t l r toks st) :
    ∃ st' m r', st.rest src = .ok (st', m) ∧ r = m ++ r' ∧ (r ≠ [] → m ≠ []) ∧ LexAt src t l r toks st' := by
  obtain ⟨cur, k, m, r', h1, h2⟩ := rest_spec hs h.cur
  exact ⟨{ st with cur := cur }, m, r', by simp [Lex.rest, h1], h2.rest, h2.nonempty, h2.toCurAt, h.toks⟩

theorem startsWith_at (h : LexAt src t l r toks st) (p : Str) :
    ∃ st', st.startsWith src p = .ok (st', p.isPrefixOf r) ∧ LexAt src t l r toks st' := by
  obtain ⟨cur, h1, h2⟩ := startsWith_spec hs (src.length + 1) h.cur (by rw [h.len hs]; omega) p
  exact ⟨{ st with cur := cur }, by simp [Lex.startsWith, h1], h2, h.toks⟩

theorem consumeIf_at (h : LexAt src t l r toks st) (p : Str) :
    (∃ r', r = p ++ r' ∧ ∃ st', st.consumeIf src p = .ok (st', true) ∧ LexAt src t (l ++ p) r' toks st') ∨
    ((¬ ∃ r', r = p ++ r') ∧ ∃ st', st.consumeIf src p = .ok (st', false) ∧ LexAt src t l r toks st') := by
  rcases consume_spec hs (src.length + 1) h.cur (by rw [h.len hs]; omega) p with ⟨r', h1, cur, h2, h3⟩ | ⟨h1, cur, h2, h3⟩
  · exact .inl ⟨r', h1, { st with cur := cur }, by simp [Lex.consumeIf, h2], h3, h.toks⟩
  · exact .inr ⟨h1, { st with cur := cur }, by simp [Lex.consumeIf, h2], h3, h.toks⟩

theorem takeWhileLoop_at (p : Char → Bool) (fuel : Nat) (h : LexAt src t l r toks st) (hf : blen r < fuel) :
    ∃ st', Lex.takeWhileLoop src p fuel st = .ok st' ∧ LexAt src t (l ++ r.takeWhile p) (r.dropWhile p) toks st' := by
  induction fuel generalizing l r st with
  | zero => omega
  | succ fuel ih =>
    obtain ⟨st1, h1, h2⟩ := peek_at hs h
    unfold Lex.takeWhileLoop
    simp only [h1, run_bind_ok]
    cases r with
    | nil => exact ⟨st1, rfl, by simpa using h2⟩
    | cons c r =>
      simp only [List.head?_cons]
      by_cases hp : p c = true
      · rw [if_pos hp]
        have := utf8Size_pos c
        obtain ⟨st', g1, g2⟩ := ih (advance_char hs h2) (by simp at hf; omega)
        refine ⟨st', g1, ?_⟩
        rw [List.takeWhile_cons_of_pos hp, List.dropWhile_cons_of_pos hp]
        simpa using g2
      · rw [if_neg hp]
        refine ⟨st1, rfl, ?_⟩
        rw [List.takeWhile_cons_of_neg hp, List.dropWhile_cons_of_neg hp]
        simpa using h2

theorem takeWhile_at (h : LexAt src t l r toks st) (p : Char → Bool) :
    ∃ st', st.takeWhile src p = .ok st' ∧ LexAt src t (l ++ r.takeWhile p) (r.dropWhile p) toks st' :=
  takeWhileLoop_at hs p _ h (by rw [h.len hs]; omega)

omit hs in
theorem rangeOf_ok {cur cur' : Cur} {x : Run Cur} {o : CursorOut} (h : rangeOf cur x = .ok (cur', o)) : x = .ok cur' := by
  unfold rangeOf at h
  cases x with
  | error e => simp at h
  | ok c => simp at h; rw [h.1]

theorem skipUntil_at (h : LexAt src t l r toks st) (b : UInt8) (hb : b.toNat < 128) :
    ∃ st', st.skipUntil src b = .ok st' ∧
      LexAt src t (l ++ r.takeWhile (fun c => c.toNat != b.toNat)) (r.dropWhile (fun c => c.toNat != b.toNat)) toks st' := by
  obtain ⟨cur, h1, h2⟩ := step_spec hs (.skipUntil b) hb h.cur
  exact ⟨{ st with cur := cur }, by simp [Lex.skipUntil, rangeOf_ok h1], h2, h.toks⟩

theorem skipWs_at (h : LexAt src t l r toks st) :
    ∃ st', st.skipAsciiWhitespace src = .ok st' ∧ LexAt src t (l ++ r.takeWhile isWs) (r.dropWhile isWs) toks st' := by
  obtain ⟨cur, h1, h2⟩ := step_spec hs .skipWhitespace trivial h.cur
  exact ⟨{ st with cur := cur }, by simp [Lex.skipAsciiWhitespace, rangeOf_ok h1], h2, h.toks⟩

theorem skipIdent_at (h : LexAt src t l r toks st) :
    ∃ st', st.skipAsciiIdentContinue src = .ok st' ∧ LexAt src t (l ++ r.takeWhile isIdent) (r.dropWhile isIdent) toks st' := by
  obtain ⟨cur, h1, h2⟩ := step_spec hs .skipIdent trivial h.cur
  exact ⟨{ st with cur := cur }, by simp [Lex.skipAsciiIdentContinue, rangeOf_ok h1], h2, h.toks⟩

theorem bump_at (h : LexAt src t l r toks st) :
    ∃ st', st.bump src = .ok (st', r.head?) ∧ LexAt src t (l ++ r.take 1) (r.drop 1) toks st' := by
  obtain ⟨st1, h1, h2⟩ := peek_at hs h
  unfold Lex.bump
  simp only [h1, run_bind_ok]
  cases r with
  | nil => exact ⟨st1, rfl, by simpa using h2⟩
  | cons c r => exact ⟨_, rfl, by simpa using advance_char hs h2⟩

omit hs in
theorem addToken_at (h : LexAt src t l r toks st) (k a b : Nat) : LexAt src t l r (toks ++ [⟨k, a, b⟩]) (st.addToken k a b) :=
  ⟨h.cur, by simp [Lex.addToken, h.toks]⟩

theorem guard_at (h : LexAt src t l r toks st) (safe : Nat) :
    ∃ st', st.advanceIfDeadLock src safe = .ok st' ∧
      if blen l = safe then LexAt src t (l ++ r.take 1) (r.drop 1) toks st' else LexAt src t l r toks st' := by
  unfold Lex.advanceIfDeadLock
  rw [h.pos]
  by_cases he : blen l = safe
  · rw [if_pos he]
    obtain ⟨st1, h1, h2⟩ := peek_at hs h
    simp only [h1, run_bind_ok, if_pos he]
    cases r with
    | nil =>
      refine ⟨_, rfl, ?_⟩
      refine ⟨⟨by simpa using h2.cur.text, ?_, h2.cur.chunk, h2.cur.good⟩, h2.toks⟩
      have hl := h.len hs
      have := h2.cur.offset
      simp [Lex.advance, Cur.advanceBytes]
      simp at hl; omega
    | cons c r => exact ⟨_, rfl, by simpa using advance_char hs h2⟩
  · rw [if_neg he]
    exact ⟨st, rfl, by rw [if_neg he]; exact h⟩

/-- Skipping bytes up to a newline is skipping characters up to it. -/
theorem takeWhileByte_newline (h : LexAt src t l r toks st) :
    ∃ st', st.takeWhileByte src (· ≠ 0x0a) = .ok st' ∧ LexAt src t (l ++ r.takeWhile (· ≠ '\n')) (r.dropWhile (· ≠ '\n')) toks st' := by
  obtain ⟨cur, h1, h2, h3, h4⟩ := skipWith_spec hs (fun bs => (bs.takeWhile (fun b => decide (b ≠ 0x0a))).length)
    (fun b => decide (b ≠ 0x0a)) (fun _ => rfl) (src.length + 1) h.cur (by rw [h.len hs]; omega)
  refine ⟨{ st with cur := cur }, by simp only [Lex.takeWhileByte]; rw [takeWhileByte_eq, h1]; rfl, ⟨?_, ?_, h3, h4⟩, h.toks⟩
  · rw [h.cur.text, List.append_assoc, List.takeWhile_append_dropWhile]
  · rw [h2, takeWhile_bytes_until]
    · simp only [blen_append]
      congr 2
      apply takeWhile_congr
      intro c
      by_cases hc : c.toNat < 128
      · have h1 : (UInt8.ofNat c.toNat == (0x0a : UInt8)) = (c == '\n') := by
          rw [ofNat_eq_iff hc, char_eq_iff]; rfl
        have h2 : (UInt8.ofNat c.toNat = (0x0a : UInt8)) ↔ c = '\n' := by
          rw [← beq_iff_eq, h1, beq_iff_eq]
        simp [hc, h2]
      · have : c ≠ '\n' := by rintro rfl; exact hc (by decide)
        simp [hc, this]
    · intro b hb
      simp only [decide_eq_true_eq]
      rintro rfl
      exact absurd hb (by decide)

end

end Oaks
