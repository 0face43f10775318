import Verif.Proofs.LexRun
import Verif.Props.Cursor

/-! # C12, C13, C14, C15: the lexer state and its scanners -/

namespace Oaks.Props
open Oaks Oaks.Spec

/-- `st` is reached from a fresh lexer state by some lexer. -/
def Reached (src : Source) (st : Lex) : Prop :=
  ∃ p : LexProg, p.Valid ∧ (Lex.new src >>= fun s => p.run src s) = .ok st

theorem Reached.at {src : Source} {t : Str} (h : AnySource src t) {st : Lex} (hr : Reached src st) :
    ∃ l r, LexAt src t l r st.toks st := by
  have hs := supply_linked h.1 h.2 (longChunks_zero src t) (cutsAligned_zero h.1)
  obtain ⟨p, hv, hp⟩ := hr
  obtain ⟨s0, h1, h2⟩ := lex_new hs
  rw [h1] at hp
  obtain ⟨s1, m, r', new, g1, g2, g3, g4⟩ := prog_at hs p hv h2
  simp only [run_bind_ok, g1] at hp
  cases hp
  exact ⟨_, _, ⟨g3.cur, rfl⟩⟩

/-! ## C12 -/

/-- Every lexer runs to its end from every reached state; the position ends on a character boundary of the
source and not before where it was; tokens are only appended; each is not empty and covers text between the
two positions. -/
theorem C12_run {src : Source} {t : Str} (h : AnySource src t) {st : Lex} (hr : Reached src st)
    (p : LexProg) (hv : p.Valid) :
    ∃ st' new, p.run src st = .ok st' ∧ st.pos ≤ st'.pos ∧ Boundary t st'.pos ∧ st'.pos ≤ blen t ∧
      st'.toks = st.toks ++ new ∧ ∀ k ∈ new, TokenWithin st.pos st'.pos k := by
  have hs := supply_linked h.1 h.2 (longChunks_zero src t) (cutsAligned_zero h.1)
  obtain ⟨l, r, hat⟩ := hr.at h
  obtain ⟨st', m, r', new, h1, h2, h3, h4⟩ := prog_at hs p hv hat
  have hpos : st'.pos = blen l + blen m := by rw [h3.pos]; simp
  refine ⟨st', new, h1, by rw [hat.pos, hpos]; omega, ⟨l ++ m, r', h3.cur.text, h3.pos.symm⟩, ?_, h3.toks, ?_⟩
  · rw [h3.pos, h3.cur.text]; simp
  · rw [hat.pos, hpos]; exact h4

/-- The dead-lock guard: with a safe point equal to the position it moves over exactly one character (so it
strictly advances unless at the end), otherwise it does nothing; it records nothing. -/
theorem C12_guard {src : Source} {t : Str} (h : AnySource src t) {st : Lex} (hr : Reached src st) (safe : Nat) :
    ∃ l r st', t = l ++ r ∧ blen l = st.pos ∧ st.advanceIfDeadLock src safe = .ok st' ∧ st'.toks = st.toks ∧
      st'.pos = if st.pos = safe then st.pos + blen (r.take 1) else st.pos := by
  have hs := supply_linked h.1 h.2 (longChunks_zero src t) (cutsAligned_zero h.1)
  obtain ⟨l, r, hat⟩ := hr.at h
  obtain ⟨st', h1, h2⟩ := guard_at hs hat safe
  refine ⟨l, r, st', hat.cur.text, hat.pos.symm, h1, ?_⟩
  rw [hat.pos]
  by_cases he : blen l = safe
  · rw [if_pos he] at h2 ⊢
    exact ⟨h2.toks, by rw [h2.pos]; simp⟩
  · rw [if_neg he] at h2 ⊢
    exact ⟨h2.toks, h2.pos⟩

/-- A loop guarded by it, around any lexer, needs at most as many turns as the source has characters, ends at
the end of the source, and every token recorded is not empty and inside the source; the end-of-file token
added then sits at the source length. -/
theorem C12_guarded_loop {src : Source} {t : Str} (h : AnySource src t) (p : LexProg) (hv : p.Valid) (eof : Nat) :
    ∃ st, (Lex.new src >>= fun s => Lex.guarded src (fun s => p.run src s) t.length s) = .ok st ∧ st.pos = blen t ∧
      (∀ k ∈ st.toks, TokenWithin 0 (blen t) k) ∧ (st.addEof eof).toks = st.toks ++ [⟨eof, blen t, blen t⟩] := by
  have hs := supply_linked h.1 h.2 (longChunks_zero src t) (cutsAligned_zero h.1)
  obtain ⟨s0, h1, h2⟩ := lex_new hs
  obtain ⟨st, new, g1, g2, g3⟩ := guarded_at hs p hv t.length h2 (Nat.le_refl _)
  refine ⟨st, by rw [h1]; exact g1, g2.pos, ?_, ?_⟩
  · rw [g2.toks]; exact g3
  · simp only [Lex.addEof, Lex.addToken, g2.pos]

/-- A lexer for identifiers and white space. -/
def wordLexer : LexProg := .op (.whitespace Oaks.Spec.isWs false 1) (fun b => if b then .done else .op (.identifier 2) (fun _ => .done))

theorem wordLexer_valid : wordLexer.Valid := ⟨trivial, fun b => by cases b <;> simp [LexProg.Valid, LexOp.Valid]⟩

/-- Non-trivial case: the character `+`, which the lexer does not know, is skipped by the guard. -/
example : (Lex.new (strSource "ab +c".toList) >>= fun s =>
    Lex.guarded (strSource "ab +c".toList) (fun s => wordLexer.run (strSource "ab +c".toList) s) 5 s).map
      (fun s => s.toks) = .ok [⟨2, 0, 2⟩, ⟨1, 2, 3⟩, ⟨2, 4, 5⟩] := by decide +kernel

/-! ## C13 -/

/-- `CommentConfig::scan` consumes exactly the comment: line comments up to the newline, block comments up to
the first closer, nested ones up to where they balance for the first time; it records one token over it. -/
theorem C13_comment {src : Source} {t : Str} (h : AnySource src t) {st : Lex} (hr : Reached src st)
    (cfg : CommentCfg) (lineKind blockKind : Nat) :
    ∃ l m r st' b new, t = l ++ (m ++ r) ∧ blen l = st.pos ∧ cfg.scan src st lineKind blockKind = .ok (st', b) ∧
      st'.pos = st.pos + blen m ∧ st'.toks = st.toks ++ new ∧
      CommentOutcome cfg lineKind blockKind st.pos (m ++ r) m b new := by
  have hs := supply_linked h.1 h.2 (longChunks_zero src t) (cutsAligned_zero h.1)
  obtain ⟨l, r, hat⟩ := hr.at h
  obtain ⟨st', b, m, r', new, h1, rfl, h3, h4⟩ := comment_at hs hat cfg lineKind blockKind
  exact ⟨l, m, r', st', b, new, hat.cur.text, hat.pos.symm, h1, by rw [h3.pos, hat.pos]; simp, h3.toks, by rw [hat.pos]; exact h4⟩

/-- `scan_line_comment`, for every prefix. -/
theorem C13_line {src : Source} {t : Str} (h : AnySource src t) {st : Lex} (hr : Reached src st)
    (kind : Nat) (marker : Str) :
    ∃ l m r st' b new, t = l ++ (m ++ r) ∧ blen l = st.pos ∧ st.scanLineComment src kind marker = .ok (st', b) ∧
      st'.pos = st.pos + blen m ∧ st'.toks = st.toks ++ new ∧
      ((b = true ∧ LineComment marker (m ++ r) m ∧ new = [⟨kind, st.pos, st'.pos⟩]) ∨
        (b = false ∧ ¬ marker <+: m ++ r ∧ m = [] ∧ new = [])) := by
  have hs := supply_linked h.1 h.2 (longChunks_zero src t) (cutsAligned_zero h.1)
  obtain ⟨l, r, hat⟩ := hr.at h
  obtain ⟨st', b, m, r', new, h1, rfl, h3, h4⟩ := lineComment_at hs hat kind marker
  have hp : st'.pos = blen l + blen m := by rw [h3.pos]; simp
  exact ⟨l, m, r', st', b, new, hat.cur.text, hat.pos.symm, h1, by rw [hp, hat.pos], h3.toks, by rw [hat.pos, hp]; exact h4⟩

/-- `scan_block_comment`, for every opener and every closer that is not empty, also when the closer begins with
a multi-byte character and the byte-wise search enters other characters. -/
theorem C13_block {src : Source} {t : Str} (h : AnySource src t) {st : Lex} (hr : Reached src st)
    (kind : Nat) (opener close : Str) (hc : close ≠ []) :
    ∃ l m r st' b new, t = l ++ (m ++ r) ∧ blen l = st.pos ∧ st.scanBlockComment src kind opener close = .ok (st', b) ∧
      st'.pos = st.pos + blen m ∧ st'.toks = st.toks ++ new ∧
      ((b = true ∧ BlockComment opener close (m ++ r) m ∧ new = [⟨kind, st.pos, st'.pos⟩]) ∨
        (b = false ∧ ¬ opener <+: m ++ r ∧ m = [] ∧ new = [])) := by
  have hs := supply_linked h.1 h.2 (longChunks_zero src t) (cutsAligned_zero h.1)
  obtain ⟨l, r, hat⟩ := hr.at h
  obtain ⟨st', b, m, r', new, h1, rfl, h3, h4⟩ := blockComment_at hs hat kind opener close hc
  have hp : st'.pos = blen l + blen m := by rw [h3.pos]; simp
  exact ⟨l, m, r', st', b, new, hat.cur.text, hat.pos.symm, h1, by rw [hp, hat.pos], h3.toks, by rw [hat.pos, hp]; exact h4⟩

/-- The descriptions leave no choice: at most one text is the comment. -/
theorem C13_determined (opener close r m m' : Str) :
    (LineComment opener r m → LineComment opener r m' → m = m') ∧
    (BlockComment opener close r m → BlockComment opener close r m' → m = m') ∧
    (opener ≠ [] → close ≠ [] → NestedComment opener close r m → NestedComment opener close r m' → m = m') :=
  ⟨lineComment_unique, blockComment_unique, nestedComment_unique⟩

/-- Non-trivial case: a nested comment in a text split over chunks, the nested closer split too. -/
example : (chunkedRun chunkedNew ["x/*a/".toList, "*b*".toList, "/c*/d".toList] >>= fun t =>
    Lex.new t.source >>= fun s => s.bump t.source >>= fun s =>
      CommentCfg.scan ⟨"//".toList, "/*".toList, "*/".toList, true⟩ t.source s.1 1 2 >>= fun r =>
        .ok (r.1.toks, r.2)) = .ok ([⟨2, 1, 12⟩], true) := by decide +kernel

/-- Non-trivial case: a closer whose first byte also begins another character of the comment. -/
example : (Lex.new (strSource "«é«x»y".toList) >>= fun s =>
    s.scanBlockComment (strSource "«é«x»y".toList) 2 "«".toList "»".toList).map (fun r => (r.1.toks, r.2)) =
      .ok ([⟨2, 0, 9⟩], true) := by decide +kernel

/-- Disagreement recorded: `scan_block_comment` with an empty end sequence panics once the opener matched and
text follows. -/
theorem C13_empty_closer_panics : (Lex.new (strSource "#a".toList) >>= fun s =>
    s.scanBlockComment (strSource "#a".toList) 2 "#".toList []).map (fun r => r.2) = .error .panic := by decide +kernel

/-! ## C14 -/

/-- The string scanner consumes exactly the literal: from a quote of the set through the first quote that is
not escaped, else to the end of the text. Missing for the full property: quotes that are their own escape
character (`C14_doubled_quotes`), and the report of unterminated literals (`C14_unterminated_silent`). -/
theorem C14_scan_partial {src : Source} {t : Str} (h : AnySource src t) {st : Lex} (hr : Reached src st)
    (cfg : StringCfg) (kind : Nat) (hq : ∀ q ∈ cfg.quotes, cfg.escape ≠ some q) :
    ∃ l m r st' b new, t = l ++ (m ++ r) ∧ blen l = st.pos ∧ cfg.scan src st kind = .ok (st', b) ∧
      st'.pos = st.pos + blen m ∧ st'.toks = st.toks ++ new ∧
      ((b = true ∧ (∃ q ∈ cfg.quotes, ∃ closed, Literal q cfg.escape (m ++ r) m closed) ∧ new = [⟨kind, st.pos, st'.pos⟩]) ∨
        (b = false ∧ (∀ q s, m ++ r = q :: s → q ∉ cfg.quotes) ∧ m = [] ∧ new = [])) := by
  have hs := supply_linked h.1 h.2 (longChunks_zero src t) (cutsAligned_zero h.1)
  obtain ⟨l, r, hat⟩ := hr.at h
  obtain ⟨st', b, m, r', new, h1, rfl, h3, h4⟩ := string_at hs hat cfg kind
  have hp : st'.pos = blen l + blen m := by rw [h3.pos]; simp
  refine ⟨l, m, r', st', b, new, hat.cur.text, hat.pos.symm, h1, by rw [hp, hat.pos], h3.toks, ?_⟩
  rcases h4 with ⟨e1, ⟨q, s, e2, e3, e4⟩, _, e5⟩ | e
  · exact .inl ⟨e1, ⟨q, e3, e4 (hq q e3)⟩, by rw [e5, hat.pos, hp]⟩
  · exact .inr e

/-- The description leaves no choice. -/
theorem C14_determined (q : Char) (esc : Option Char) (hq : esc ≠ some q) (r m m' : Str) (c c' : Bool)
    (h : Literal q esc r m c) (h' : Literal q esc r m' c') : m = m' ∧ c = c' := literal_unique hq h h'

/-- The ASCII fast path and the general path agree, wherever they start: same end, same answer whether the
closing quote was found. `e` is the escape byte the scanner passes (the quote's when there is none). -/
theorem C14_paths_agree_partial {src : Source} {t : Str} (h : AnySource src t) {st : Lex} (hr : Reached src st)
    (q : Char) (esc : Option Char) (hq : q.toNat < 128) (he : ∀ e, esc = some e → e.toNat < 128) (hne : esc ≠ some q) :
    ∃ a b closed, StringCfg.fastLoop src (asByte q) ((esc.map asByte).getD (asByte q)) (src.length + 1) st = .ok (a, closed) ∧
      StringCfg.slowLoop src q esc (src.length + 1) st = .ok (b, closed) ∧ a.pos = b.pos ∧ a.toks = b.toks := by
  have hs := supply_linked h.1 h.2 (longChunks_zero src t) (cutsAligned_zero h.1)
  obtain ⟨l, r, hat⟩ := hr.at h
  have hf : blen r < src.length + 1 := by rw [hat.len hs]; omega
  obtain ⟨b, c, m, r', g1, g2, g3, g4, _⟩ := slowLoop_at hs q esc (src.length + 1) hat hf
  have hcase : ∃ e : Char, e.toNat < 128 ∧ (esc.map asByte).getD (asByte q) = asByte e ∧ (if e = q then none else some e) = esc := by
    cases esc with
    | none => exact ⟨q, hq, rfl, by simp⟩
    | some e => exact ⟨e, he e rfl, rfl, by rw [if_neg (by simpa using hne)]⟩
  obtain ⟨e, e1, e2, e3⟩ := hcase
  obtain ⟨a, c', m', r'', k1, k2, k3, k4⟩ := fastLoop_at hs q e hq e1 (src.length + 1) hat hf
  rw [e3] at k4
  obtain ⟨hm, hc⟩ := literal_unique hne (literal_of_closes (g4 hne)) (literal_of_closes k4)
  cases hm
  cases hc
  exact ⟨a, b, c, by rw [e2]; exact k1, g1, by rw [k3.pos, g3.pos], by rw [k3.toks, g3.toks]⟩

/-- Non-trivial case: a run of three escape characters before a quote, then the closing quote. -/
example : (Lex.new (strSource "\"a\\\\\\\"b\" c".toList) >>= fun s =>
    StringCfg.scan ⟨['"'], some '\\'⟩ (strSource "\"a\\\\\\\"b\" c".toList) s 3).map (fun r => (r.1.toks, r.2)) =
      .ok ([⟨3, 0, 8⟩], true) := by decide +kernel

/-- Disagreement recorded: with the quote as its own escape character the two paths differ. On `a""b"` after
the opening quote the fast path stops at the first quote, the general path never stops. -/
theorem C14_doubled_quotes :
    (Lex.new (strSource "a\"\"b\"".toList) >>= fun s =>
      StringCfg.fastLoop (strSource "a\"\"b\"".toList) (asByte '"') (asByte '"') 6 s).map (fun r => (r.1.pos, r.2)) = .ok (2, true) ∧
    (Lex.new (strSource "a\"\"b\"".toList) >>= fun s =>
      StringCfg.slowLoop (strSource "a\"\"b\"".toList) '"' (some '"') 6 s).map (fun r => (r.1.pos, r.2)) = .ok (5, false) := by
  decide +kernel

/-- Disagreement recorded: an unterminated literal is not reported; the scanner answers and records the same
as for a terminated one of the same length. -/
theorem C14_unterminated_silent :
    (Lex.new (strSource "\"ab".toList) >>= fun s =>
      StringCfg.scan ⟨['"'], some '\\'⟩ (strSource "\"ab".toList) s 3).map (fun r => (r.1.toks, r.2)) =
    (Lex.new (strSource "\"a\"".toList) >>= fun s =>
      StringCfg.scan ⟨['"'], some '\\'⟩ (strSource "\"a\"".toList) s 3).map (fun r => (r.1.toks, r.2)) ∧
    Literal '"' (some '\\') "\"ab".toList "\"ab".toList false ∧ Literal '"' (some '\\') "\"a\"".toList "\"a\"".toList true := by
  refine ⟨by decide +kernel, ⟨['a', 'b'], rfl, rfl, ?_⟩, ⟨['a'], [], rfl, .plain (by decide) (by decide) .nil, rfl⟩⟩
  intro body rest _ he
  have : '"' ∈ ['a', 'b'] := by rw [he]; simp
  simp at this

/-! ## C15 -/

/-- Resuming below the new length: when old and new text agree up to `relex_from`, the tokens kept are a prefix
of the cached ones, each denotes the same text at the same offset in the new source, lies inside it, and
scanning resumes at the end of the last one. Missing for the full property: `relex_from` at or after the new
length (`C15_stale_tokens`). -/
theorem C15_kept_partial {src : Source} {old new : Str} (h : AnySource src new) (cache : List Tok) (relexFrom : Nat)
    (pre x y : Str) (hold : old = pre ++ x) (hnew : new = pre ++ y) (hle : relexFrom ≤ blen pre) (hlt : relexFrom < blen new)
    (hcache : ∀ k ∈ cache, ∃ m, IsSlice old k.start k.stop m) :
    ∃ st, Lex.newWithCache src relexFrom cache = .ok st ∧ st.toks <+: cache ∧
      st.pos = (st.toks.getLast?.map (·.stop)).getD 0 ∧
      ∀ k ∈ st.toks, k.stop ≤ blen new ∧ ∃ m, IsSlice old k.start k.stop m ∧ IsSlice new k.start k.stop m := by
  have hs := supply_linked h.1 h.2 (longChunks_zero src new) (cutsAligned_zero h.1)
  have hlen := h.1.length_eq
  have hfresh : ∃ st, Lex.new src = .ok st ∧ st.toks <+: cache ∧ st.pos = (st.toks.getLast?.map (·.stop)).getD 0 ∧
      ∀ k ∈ st.toks, k.stop ≤ blen new ∧ ∃ m, IsSlice old k.start k.stop m ∧ IsSlice new k.start k.stop m := by
    obtain ⟨s0, h1, h2⟩ := lex_new hs
    refine ⟨s0, h1, by rw [h2.toks]; simp, by rw [h2.toks, h2.pos]; rfl, by rw [h2.toks]; simp⟩
  unfold Lex.newWithCache
  by_cases hc : cache = []
  · rw [if_pos hc]; exact hfresh
  · rw [if_neg hc]
    simp only [hlen, show min relexFrom (blen new) = relexFrom by omega]
    rw [if_neg (by omega)]
    by_cases h0 : relexFrom = 0
    · rw [if_pos h0]; exact hfresh
    · rw [if_neg h0]
      generalize hre : (cache.takeWhile fun t => decide (t.stop ≤ relexFrom)).take
        ((cache.takeWhile fun t => decide (t.stop ≤ relexFrom)).length - 1) = reused
      have hpre : reused <+: cache := by
        rw [← hre]
        exact (List.take_prefix _ _).trans (List.takeWhile_prefix _)
      have hstop : ∀ k ∈ reused, k.stop ≤ relexFrom := by
        intro k hk
        rw [← hre] at hk
        have := List.all_takeWhile (p := fun t : Tok => decide (t.stop ≤ relexFrom)) (l := cache)
        rw [List.all_eq_true] at this
        simpa using this k ((List.take_subset _ _) hk)
      have hkeep : ∀ k ∈ reused, k.stop ≤ blen new ∧ ∃ m, IsSlice old k.start k.stop m ∧ IsSlice new k.start k.stop m := by
        intro k hk
        have h1 := hstop k hk
        obtain ⟨m, l, r, e1, e2, e3⟩ := hcache k (hpre.subset hk)
        have he : (l ++ m) ++ r = pre ++ x := by rw [← e1, hold]
        obtain ⟨z, hz, _⟩ := append_split_of_le he (by simp; omega)
        refine ⟨by omega, m, ⟨l, r, e1, e2, e3⟩, ⟨l, z ++ y, by rw [hnew, hz]; simp, e2, e3⟩⟩
      have hb : ∃ l r, new = l ++ r ∧ blen l = (reused.getLast?.map (·.stop)).getD 0 := by
        cases hl : reused.getLast? with
        | none => exact ⟨[], new, rfl, rfl⟩
        | some k =>
          obtain ⟨_, m, _, l, r, e1, e2, e3⟩ := hkeep k (List.mem_of_getLast? hl)
          exact ⟨l ++ m, r, e1, by simp; omega⟩
      obtain ⟨l, r, hl1, hl2⟩ := hb
      obtain ⟨cur, k1, k2⟩ := newAt_spec hs hl1
      rw [hl2] at k1
      simp only [k1, run_bind_ok, run_pure]
      exact ⟨_, rfl, hpre, by rw [← hl2]; exact k2.offset, hkeep⟩

/-- When nothing changed and `relex_from` is the source length, every token is kept and stays valid. -/
theorem C15_unchanged {src : Source} {t : Str} (h : AnySource src t) (cache : List Tok) (hne : cache ≠ [])
    (hcache : ∀ k ∈ cache, ∃ m, IsSlice t k.start k.stop m) :
    ∃ st, Lex.newWithCache src (blen t) cache = .ok st ∧ st.toks = cache ∧
      st.pos = (cache.getLast?.map (·.stop)).getD 0 ∧ ∀ k ∈ st.toks, k.stop ≤ blen t := by
  have hs := supply_linked h.1 h.2 (longChunks_zero src t) (cutsAligned_zero h.1)
  have hlen := h.1.length_eq
  have hin : ∀ k ∈ cache, k.stop ≤ blen t := by
    intro k hk
    obtain ⟨m, l, r, e1, e2, e3⟩ := hcache k hk
    rw [e1]; simp; omega
  unfold Lex.newWithCache
  rw [if_neg hne]
  simp only [hlen, Nat.min_self, ge_iff_le, Nat.le_refl, if_true]
  have hb : ∃ l r, t = l ++ r ∧ blen l = (cache.getLast?.map (·.stop)).getD 0 := by
    cases hl : cache.getLast? with
    | none => exact ⟨[], t, rfl, rfl⟩
    | some k =>
      obtain ⟨m, l, r, e1, e2, e3⟩ := hcache k (List.mem_of_getLast? hl)
      exact ⟨l ++ m, r, e1, by simp; omega⟩
  obtain ⟨l, r, hl1, hl2⟩ := hb
  have hmin : min ((cache.getLast?.map (·.stop)).getD 0) (blen t) = blen l := by
    rw [← hl2, hl1]; simp
  rw [hmin]
  obtain ⟨cur, k1, k2⟩ := newAt_spec hs hl1
  simp only [k1, run_bind_ok, run_pure]
  exact ⟨_, rfl, rfl, by rw [← hl2]; exact k2.offset, hin⟩

/-- Non-trivial case: "ab cd" becomes "ab xd"; of the tokens before byte 3 the last is scanned again. -/
example : (Lex.newWithCache (strSource "ab xd".toList) 3 [⟨2, 0, 2⟩, ⟨1, 2, 3⟩, ⟨2, 3, 5⟩, ⟨0, 5, 5⟩]).map
    (fun s => (s.toks, s.pos)) = .ok ([⟨2, 0, 2⟩], 2) := by decide +kernel

/-- Disagreement recorded: deleting the end of "abc def" leaves "abc"; resuming at byte 3, which is the new
length, keeps every cached token, the last ones past the end of the new source. -/
theorem C15_stale_tokens :
    (Lex.newWithCache (strSource "abc".toList) 3 [⟨2, 0, 3⟩, ⟨1, 3, 4⟩, ⟨2, 4, 7⟩, ⟨0, 7, 7⟩]).map (fun s => s.toks) =
      .ok [⟨2, 0, 3⟩, ⟨1, 3, 4⟩, ⟨2, 4, 7⟩, ⟨0, 7, 7⟩] ∧ blen "abc".toList = 3 := by decide +kernel

/-- Disagreement recorded: kept tokens may be wrong for the new text although their text is unchanged. "abc"
becomes "abcd" by typing at its end; the one token taken back is the end-of-file token, so "abc" is kept and
"d" becomes a token of its own, while a fresh run gives the one token "abcd". -/
theorem C15_kept_not_fresh :
    (Lex.newWithCache (strSource "abcd".toList) 3 [⟨2, 0, 3⟩, ⟨0, 3, 3⟩] >>= fun s =>
      Lex.guarded (strSource "abcd".toList) (fun s => wordLexer.run (strSource "abcd".toList) s) 4 s).map (fun s => s.toks) =
        .ok [⟨2, 0, 3⟩, ⟨2, 3, 4⟩] ∧
    (Lex.new (strSource "abcd".toList) >>= fun s =>
      Lex.guarded (strSource "abcd".toList) (fun s => wordLexer.run (strSource "abcd".toList) s) 4 s).map (fun s => s.toks) =
        .ok [⟨2, 0, 4⟩] := by decide +kernel

end Oaks.Props
