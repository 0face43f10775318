import Verif.Model.Scan
import Verif.Proofs.XmlLex
import Verif.Spec.Pieces

/-! What a scanner program does, as a function of the text ahead of it. -/
namespace Oaks
open Spec

/-- The text of pieces. -/
def joined (ps : List (Option Nat × Str)) : Str := (ps.map (·.2)).flatten

@[simp] theorem joined_nil : joined [] = [] := rfl
@[simp] theorem joined_cons (p : Option Nat × Str) (ps : List (Option Nat × Str)) : joined (p :: ps) = p.2 ++ joined ps := rfl
@[simp] theorem joined_append (ps qs : List (Option Nat × Str)) : joined (ps ++ qs) = joined ps ++ joined qs := by
  simp [joined]

theorem tokensOf_joined (pos : Nat) (ps qs : List (Option Nat × Str)) :
    tokensOf pos (ps ++ qs) = tokensOf pos ps ++ tokensOf (pos + blen (joined ps)) qs := by
  induction ps generalizing pos with
  | nil => simp [tokensOf]
  | cons p ps ih =>
    obtain ⟨k, m⟩ := p
    cases k <;> simp [tokensOf, ih, Nat.add_assoc]

/-- Passed text without a token. -/
def gap (m : Str) : List (Option Nat × Str) := if m = [] then [] else [(none, m)]

@[simp] theorem gap_nil : gap [] = [] := rfl
@[simp] theorem joined_gap (m : Str) : joined (gap m) = m := by
  unfold gap; split <;> simp_all
@[simp] theorem tokensOf_gap (pos : Nat) (m : Str) : tokensOf pos (gap m) = [] := by
  unfold gap; split <;> simp [tokensOf]

namespace Scn

/-- Pieces done, text since `start`, text ahead. -/
structure PSt where
  done : List (Option Nat × Str)
  m : Str
  r : Str

/-- Splitting after `n` bytes; past the end is the end. -/
def splitBytes : Nat → Str → Option (Str × Str)
  | 0, s => some ([], s)
  | _ + 1, [] => some ([], [])
  | n + 1, c :: s => if c.utf8Size ≤ n + 1 then (splitBytes (n + 1 - c.utf8Size) s).map fun p => (c :: p.1, p.2) else none
termination_by _ s => s.length

theorem splitBytes_text {n : Nat} {s m r : Str} (h : splitBytes n s = some (m, r)) : s = m ++ r := by
  induction s generalizing n m r with
  | nil => cases n <;> · simp [splitBytes] at h; simp [h]
  | cons c s ih =>
    cases n with
    | zero => simp only [splitBytes, Option.some.injEq, Prod.mk.injEq] at h; obtain ⟨rfl, rfl⟩ := h; rfl
    | succ n =>
      rw [splitBytes] at h
      split at h
      · cases hs : splitBytes (n + 1 - c.utf8Size) s with
        | none => rw [hs] at h; simp at h
        | some p =>
          rw [hs] at h
          simp only [Option.map_some, Option.some.injEq, Prod.mk.injEq] at h
          obtain ⟨rfl, rfl⟩ := h
          rw [List.cons_append, ← ih (m := p.1) (r := p.2) hs]
      · simp at h

theorem splitBytes_len {n : Nat} {s m r : Str} (h : splitBytes n s = some (m, r)) : blen m = n ∨ blen m ≤ n ∧ r = [] := by
  induction s generalizing n m r with
  | nil => cases n <;> · simp [splitBytes] at h; simp [h]
  | cons c s ih =>
    cases n with
    | zero => simp only [splitBytes, Option.some.injEq, Prod.mk.injEq] at h; obtain ⟨rfl, rfl⟩ := h; simp
    | succ n =>
      rw [splitBytes] at h
      split at h
      · rename_i hc
        cases hs : splitBytes (n + 1 - c.utf8Size) s with
        | none => rw [hs] at h; simp at h
        | some p =>
          rw [hs] at h
          simp only [Option.map_some, Option.some.injEq, Prod.mk.injEq] at h
          obtain ⟨rfl, rfl⟩ := h
          rcases ih (m := p.1) (r := p.2) hs with h1 | ⟨h1, h2⟩
          · left; simp [h1]; omega
          · right; refine ⟨?_, h2⟩; simp; omega
      · simp at h

/-- Up to the end of a literal, after its opening quote. -/
def litSpan (q : Char) (esc : Option Char) : Str → Str × Str
  | [] => ([], [])
  | c :: s =>
    if some c = esc then
      match s with
      | [] => ([c], [])
      | d :: s => let p := litSpan q esc s; (c :: d :: p.1, p.2)
    else if c = q then ([c], s)
    else let p := litSpan q esc s; (c :: p.1, p.2)

/-- Up to the end of a block comment, after its opener, at a depth. -/
def blockSpan (cfg : CommentCfg) : Nat → Nat → Str → Str × Str
  | 0, _, s => ([], s)
  | fuel + 1, d, s =>
    if d = 0 ∨ s = [] then ([], s)
    else if cfg.nested = true ∧ cfg.opener ≠ [] ∧ cfg.opener <+: s then
      let p := blockSpan cfg fuel (d + 1) (s.drop cfg.opener.length)
      (s.take cfg.opener.length ++ p.1, p.2)
    else if cfg.close ≠ [] ∧ cfg.close <+: s then
      let p := blockSpan cfg fuel (d - 1) (s.drop cfg.close.length)
      (s.take cfg.close.length ++ p.1, p.2)
    else
      let p := blockSpan cfg fuel d (s.drop 1)
      (s.take 1 ++ p.1, p.2)

theorem litSpan_text (q : Char) (esc : Option Char) (s : Str) : (litSpan q esc s).1 ++ (litSpan q esc s).2 = s := by
  fun_induction litSpan q esc s with
  | case3 c h d s p ih => simp [p, ih]
  | case5 c s h1 h2 p ih => simp [p, ih]
  | _ => simp

theorem blockSpan_text (cfg : CommentCfg) (fuel d : Nat) (s : Str) : (blockSpan cfg fuel d s).1 ++ (blockSpan cfg fuel d s).2 = s := by
  induction fuel generalizing d s with
  | zero => simp [blockSpan]
  | succ fuel ih =>
    rw [blockSpan]
    split
    · rfl
    · split
      · simp [ih]
      · split
        · simp [ih]
        · simp only [List.append_assoc, ih, List.take_append_drop]

/-- A comment at the start of the text: its kind, the comment, the text after it. -/
def commentSpan (cfg : CommentCfg) (lineKind blockKind : Nat) (s : Str) : Option (Nat × Str × Str) :=
  if cfg.line ≠ [] ∧ cfg.line <+: s then
    some (lineKind, cfg.line ++ (s.drop cfg.line.length).takeWhile (· ≠ '\n'), (s.drop cfg.line.length).dropWhile (· ≠ '\n'))
  else if cfg.opener ≠ [] ∧ cfg.opener <+: s then
    let p := blockSpan cfg (s.length + 1) 1 (s.drop cfg.opener.length)
    some (blockKind, cfg.opener ++ p.1, p.2)
  else none

/-- The turns of a loop. -/
def loopEval (body : Nat → PSt → Option ((Bool × Nat) × PSt)) : Nat → Nat → PSt → Option (Nat × PSt)
  | 0, _, _ => none
  | fuel + 1, s, st =>
    match body s st with
    | none => none
    | some ((true, s), st') => if st'.r.length < st.r.length then loopEval body fuel s st' else none
    | some ((false, s), st') => some (s, st')

/-- What a program does; nothing is said where it leaves the bounds of characters or turns without moving. -/
def eval {α : Type} : Scn α → PSt → Option (α × PSt)
  | ret a, st => some (a, st)
  | peek k, st => eval (k st.r.head?) st
  | peekN n k, st =>
    match splitBytes n st.r with
    | some (_, r') => eval (k r'.head?) st
    | none => none
  | starts p k, st => eval (k (p.isPrefixOf st.r)) st
  | adv n k, st =>
    match splitBytes n st.r with
    | some (x, r') => eval k ⟨st.done, st.m ++ x, r'⟩
    | none => none
  | text k, st => eval (k st.m) st
  | moved k, st => eval (k (decide (st.m ≠ []))) st
  | reset k, st => eval k ⟨st.done, [], st.m ++ st.r⟩
  | mark k, st => eval k ⟨st.done ++ gap st.m, [], st.r⟩
  | emit n k, st => eval k ⟨st.done ++ [(some n, st.m)], [], st.r⟩
  | loop i b k, st =>
    match loopEval (fun i => eval (b i)) (st.r.length + 1) i st with
    | some (s, st') => eval (k s) st'
    | none => none
  | takeWhile p k, st => eval k ⟨st.done, st.m ++ st.r.takeWhile p, st.r.dropWhile p⟩
  | space w u n k, st =>
    let p := if u then w else isWs
    if st.r.takeWhile p = [] then eval (k false) ⟨st.done ++ gap st.m, [], st.r⟩
    else eval (k true) ⟨st.done ++ gap st.m ++ [(some n, st.r.takeWhile p)], [], st.r.dropWhile p⟩
  | quoted cfg n k, st =>
    match st.r with
    | q :: s =>
      if q ∈ cfg.quotes then
        if cfg.escape = some q then none
        else eval (k true) ⟨st.done ++ gap st.m ++ [(some n, q :: (litSpan q cfg.escape s).1)], [], (litSpan q cfg.escape s).2⟩
      else eval (k false) ⟨st.done ++ gap st.m, [], st.r⟩
    | [] => eval (k false) ⟨st.done ++ gap st.m, [], st.r⟩
  | comment cfg n n' k, st =>
    match commentSpan cfg n n' st.r with
    | some (kind, x, r') => eval (k true) ⟨st.done ++ gap st.m ++ [(some kind, x)], [], r'⟩
    | none => eval (k false) ⟨st.done ++ gap st.m, [], st.r⟩
  | within _ p k, st =>
    match p.eval ⟨st.done ++ gap st.m, [], st.r⟩ with
    | some (true, st') => eval k ⟨st'.done ++ gap st'.m, [], st'.r⟩
    | _ => none

/-- The execution stands where the pure state says. -/
structure At (src : Source) (t l : Str) (toks : List Tok) (p : PSt) (start : Nat) (st : Lex) : Prop where
  lex : LexAt src t (l ++ joined p.done ++ p.m) p.r (toks ++ tokensOf (blen l) p.done) st
  start : start = blen (l ++ joined p.done)

theorem litSpan_literal {q : Char} {esc : Option Char} (he : esc ≠ some q) (s : Str) :
    ∃ closed, Literal q esc (q :: s) (q :: (litSpan q esc s).1) closed := by
  suffices h : ∃ closed : Bool, if closed then ∃ body rest, s = body ++ q :: rest ∧ LitBody q esc body ∧ (litSpan q esc s).1 = body ++ [q]
      else (litSpan q esc s).1 = s ∧ ∀ body rest, LitBody q esc body → s ≠ body ++ q :: rest by
    obtain ⟨closed, h⟩ := h
    refine ⟨closed, ?_⟩
    cases closed with
    | true =>
      obtain ⟨body, rest, rfl, h2, h3⟩ := h
      exact ⟨body, rest, rfl, h2, by rw [h3]⟩
    | false => exact ⟨s, rfl, by rw [h.1], h.2⟩
  fun_induction litSpan q esc s with
  | case1 => exact ⟨false, rfl, fun body rest _ => by simp⟩
  | case2 c h =>
    refine ⟨false, rfl, fun body rest hb e => ?_⟩
    cases hb with
    | nil => simp at e; exact he (by rw [← h, e.1])
    | plain h1 h2 _ => simp at e
    | escaped => simp at e
  | case3 c h d s p ih =>
    obtain ⟨closed, ih⟩ := ih
    refine ⟨closed, ?_⟩
    cases closed with
    | true =>
      obtain ⟨body, rest, rfl, h2, h3⟩ := ih
      exact ⟨c :: d :: body, rest, rfl, .escaped h.symm h2, by simp [p, h3]⟩
    | false =>
      refine ⟨by simp [p, ih.1], fun body rest hb e => ?_⟩
      cases hb with
      | nil => simp at e; exact he (by rw [← h, e.1])
      | plain h1 h2 _ => simp at e; exact h2 (by rw [← e.1, h])
      | escaped h1 h2 => simp at e; exact ih.2 _ _ h2 e.2.2
  | case4 s h => exact ⟨true, [], s, rfl, .nil, rfl⟩
  | case5 c s h1 h2 p ih =>
    obtain ⟨closed, ih⟩ := ih
    refine ⟨closed, ?_⟩
    cases closed with
    | true =>
      obtain ⟨body, rest, rfl, h3, h4⟩ := ih
      exact ⟨c :: body, rest, rfl, .plain h2 h1 h3, by simp [p, h4]⟩
    | false =>
      refine ⟨by simp [p, ih.1], fun body rest hb e => ?_⟩
      cases hb with
      | nil => simp at e; exact h2 e.1
      | plain _ _ h3 => simp at e; exact ih.2 _ _ h3 e.2
      | escaped h3 h4 => simp at e; exact h1 (by rw [e.1, h3])

theorem splitBytes_char (c : Char) (s : Str) : splitBytes c.utf8Size (c :: s) = some ([c], s) := by
  obtain ⟨n, hn⟩ : ∃ n, c.utf8Size = n + 1 := ⟨c.utf8Size - 1, by have := c.utf8Size_pos; omega⟩
  rw [hn, splitBytes, if_pos (by omega), hn, Nat.sub_self]
  cases s <;> simp [splitBytes]

section
variable {src : Source} {t : Str} (hs : Supplied src t)
include hs

omit hs in
theorem commentLoop_eq (cfg : CommentCfg) (fuel d : Nat) (st : Lex) :
    cfg.loop src (fuel + 1) d st = if (decide (d > 0) && st.notAtEnd src) = true then
      (if (cfg.nested && decide (cfg.opener ≠ [])) = true then st.startsWith src cfg.opener else .ok (st, false)) >>= fun x =>
        if x.2 = true then cfg.loop src fuel (d + 1) (x.1.advance src (blen cfg.opener))
        else (if cfg.close ≠ [] then x.1.startsWith src cfg.close else .ok (x.1, false)) >>= fun y =>
          if y.2 = true then cfg.loop src fuel (d - 1) (y.1.advance src (blen cfg.close))
          else y.1.peek src >>= fun z =>
            match z.2 with
            | some ch => cfg.loop src fuel d (z.1.advance src ch.utf8Size)
            | none => cfg.loop src fuel d z.1
    else .ok st := by
  rw [CommentCfg.loop]
  by_cases h1 : (decide (d > 0) && st.notAtEnd src) = true
  · rw [if_pos h1, if_pos h1]
    by_cases h2 : (cfg.nested && decide (cfg.opener ≠ [])) = true <;> by_cases h3 : cfg.close ≠ []
    · simp only [if_pos h2, if_pos h3]; rfl
    · simp only [if_pos h2, if_neg h3]; rfl
    · simp only [if_neg h2, if_pos h3]; rfl
    · simp only [if_neg h2, if_neg h3]; rfl
  · rw [if_neg h1, if_neg h1]; rfl

theorem block_at (cfg : CommentCfg) (fuel fuel' d : Nat) {l r : Str} {toks : List Tok} {st : Lex} (h : LexAt src t l r toks st)
    (hf : blen r < fuel) (hf' : r.length < fuel') :
    ∃ st', cfg.loop src fuel d st = .ok st' ∧
      LexAt src t (l ++ (blockSpan cfg fuel' d r).1) (blockSpan cfg fuel' d r).2 toks st' := by
  induction fuel generalizing fuel' d l r st with
  | zero => omega
  | succ fuel ih =>
    obtain ⟨fuel', rfl⟩ : ∃ n, fuel' = n + 1 := ⟨fuel' - 1, by omega⟩
    rw [commentLoop_eq, blockSpan, h.notAtEnd hs]
    by_cases hd : d = 0 ∨ r = []
    · rw [if_neg (by rcases hd with rfl | rfl <;> simp), if_pos hd]
      exact ⟨st, rfl, by simpa using h⟩
    rw [if_pos (by simp only [not_or] at hd; simp [hd]; omega), if_neg hd]
    simp only [not_or] at hd
    have step1 : ∃ st1, (if (cfg.nested && decide (cfg.opener ≠ [])) = true then st.startsWith src cfg.opener else .ok (st, false)) =
        .ok (st1, decide (cfg.nested = true ∧ cfg.opener ≠ [] ∧ cfg.opener <+: r)) ∧ LexAt src t l r toks st1 := by
      by_cases hc : cfg.nested = true ∧ cfg.opener ≠ []
      · rw [if_pos (by simp [hc])]
        obtain ⟨s1, h1, h2⟩ := startsWith_at hs h cfg.opener
        exact ⟨s1, by rw [h1, isPrefixOf_eq]; simp [hc], h2⟩
      · rw [if_neg (by simpa using hc)]
        refine ⟨st, ?_, h⟩
        have : decide (cfg.nested = true ∧ cfg.opener ≠ [] ∧ cfg.opener <+: r) = false := by
          simp only [decide_eq_false_iff_not]; exact fun h => hc ⟨h.1, h.2.1⟩
        rw [this]
    obtain ⟨s1, e1, h1⟩ := step1
    simp only [e1, run_bind_ok]
    by_cases ho : cfg.nested = true ∧ cfg.opener ≠ [] ∧ cfg.opener <+: r
    · rw [if_pos ho]
      simp only [ho, ne_eq, not_false_eq_true, and_self, decide_true, if_true]
      obtain ⟨x, hx⟩ := ho.2.2
      subst hx
      have := advance_at hs h1
      have hl : 0 < cfg.opener.length := List.length_pos_iff.mpr ho.2.1
      have hb := blen_pos ho.2.1
      obtain ⟨s2, e2, h2⟩ := ih fuel' (d + 1) this (by simp at hf; omega) (by simp at hf'; omega)
      exact ⟨s2, e2, by simpa using h2⟩
    rw [if_neg ho]
    simp only [ho, decide_false, Bool.false_eq_true, if_false]
    have step2 : ∃ st2, (if cfg.close ≠ [] then s1.startsWith src cfg.close else .ok (s1, false)) =
        .ok (st2, decide (cfg.close ≠ [] ∧ cfg.close <+: r)) ∧ LexAt src t l r toks st2 := by
      by_cases hc : cfg.close ≠ []
      · rw [if_pos hc]
        obtain ⟨s2, h2, h3⟩ := startsWith_at hs h1 cfg.close
        exact ⟨s2, by rw [h2, isPrefixOf_eq]; simp [hc], h3⟩
      · rw [if_neg hc]
        exact ⟨s1, by simp [hc], h1⟩
    obtain ⟨s2, e2, h2⟩ := step2
    simp only [e2, run_bind_ok]
    by_cases hc : cfg.close ≠ [] ∧ cfg.close <+: r
    · rw [if_pos hc]
      simp only [hc, ne_eq, not_false_eq_true, and_self, decide_true, if_true]
      obtain ⟨x, hx⟩ := hc.2
      subst hx
      have := advance_at hs h2
      have hl : 0 < cfg.close.length := List.length_pos_iff.mpr hc.1
      have hb := blen_pos hc.1
      obtain ⟨s3, e3, h3⟩ := ih fuel' (d - 1) this (by simp at hf; omega) (by simp at hf'; omega)
      exact ⟨s3, e3, by simpa using h3⟩
    rw [if_neg hc]
    simp only [hc, decide_false, Bool.false_eq_true, if_false]
    obtain ⟨s3, e3, h3⟩ := peek_at hs h2
    obtain ⟨c, x, rfl⟩ := List.exists_cons_of_ne_nil hd.2
    simp only [e3, run_bind_ok, List.head?_cons]
    have hc := c.utf8Size_pos
    obtain ⟨s4, e4, h4⟩ := ih fuel' d (advance_char hs h3) (by simp at hf; omega) (by simp at hf'; omega)
    exact ⟨s4, e4, by simpa using h4⟩

theorem tryMarker_at {l r : Str} {toks : List Tok} {st : Lex} (h : LexAt src t l r toks st) (p : Str) :
    ∃ st', st.tryMarker src p = .ok (st', decide (p ≠ [] ∧ p <+: r)) ∧ LexAt src t l r toks st' := by
  unfold Lex.tryMarker
  by_cases hp : p ≠ []
  · rw [if_pos hp]
    obtain ⟨s1, h1, h2⟩ := startsWith_at hs h p
    exact ⟨s1, by rw [h1, isPrefixOf_eq]; simp [hp], h2⟩
  · rw [if_neg hp]
    exact ⟨st, by simp [hp], h⟩

theorem commentSpan_at (cfg : CommentCfg) (n n' : Nat) {l r : Str} {toks : List Tok} {st : Lex} (h : LexAt src t l r toks st) :
    Scanned src t l r toks (cfg.scan src st n n') (commentSpan cfg n n' r) := by
  unfold CommentCfg.scan commentSpan
  obtain ⟨s1, e1, h1⟩ := tryMarker_at hs h cfg.line
  simp only [e1, run_bind_ok]
  by_cases hl : cfg.line ≠ [] ∧ cfg.line <+: r
  · rw [if_pos hl]
    simp only [hl, ne_eq, not_false_eq_true, and_self, decide_true, if_true]
    obtain ⟨x, rfl⟩ := hl.2
    obtain ⟨s2, e2, h2⟩ := takeWhileByte_newline hs (advance_at hs h1)
    simp only [e2, run_bind_ok]
    refine ⟨_, rfl, by simp, ?_⟩
    have := record_at h.pos (l := l) (m := cfg.line ++ x.takeWhile (· ≠ '\n')) (by simpa using h2) n
    simpa using this
  rw [if_neg hl]
  simp only [hl, decide_false, Bool.false_eq_true, if_false]
  obtain ⟨s2, e2, h2⟩ := tryMarker_at hs h1 cfg.opener
  simp only [e2, run_bind_ok]
  by_cases ho : cfg.opener ≠ [] ∧ cfg.opener <+: r
  · rw [if_pos ho]
    simp only [ho, ne_eq, not_false_eq_true, and_self, decide_true, if_true]
    obtain ⟨x, rfl⟩ := ho.2
    have ha := advance_at hs h2
    have hlen := h.len hs
    obtain ⟨s3, e3, h3⟩ := block_at hs cfg (src.length + 1) ((cfg.opener ++ x).length + 1) 1 ha (by simp at hlen; omega) (by simp; omega)
    simp only [e3, run_bind_ok]
    refine ⟨_, rfl, by simp [blockSpan_text], ?_⟩
    have := record_at h.pos (l := l) (m := cfg.opener ++ (blockSpan cfg ((cfg.opener ++ x).length + 1) 1 x).1) (by simpa using h3) n'
    simpa using this
  · rw [if_neg ho]
    simp only [ho, decide_false, Bool.false_eq_true, if_false]
    exact ⟨s2, rfl, h2⟩

theorem adv_at {n : Nat} {l r x r' : Str} {toks : List Tok} {st : Lex} (h : LexAt src t l r toks st) (hx : splitBytes n r = some (x, r')) :
    LexAt src t (l ++ x) r' toks (st.advance src n) := by
  have ht := splitBytes_text hx
  subst ht
  have h1 := advance_at hs h
  rcases splitBytes_len hx with h2 | ⟨h2, rfl⟩
  · rwa [h2] at h1
  · have : st.advance src n = st.advance src (blen x) := by
      unfold Lex.advance Cur.advanceBytes
      have := h.len hs
      have ho := h.cur.offset
      simp at this
      rw [ho]
      congr 2
      omega
    rwa [this]

theorem peekN_at {n : Nat} {l r x r' : Str} {toks : List Tok} {st : Lex} (h : LexAt src t l r toks st) (hx : splitBytes n r = some (x, r')) :
    st.peekNextN src n = .ok r'.head? := by
  have ht := splitBytes_text hx
  subst ht
  rcases splitBytes_len hx with h2 | ⟨h2, rfl⟩
  · rw [← h2]; exact peekAfter_at hs h
  · unfold Lex.peekNextN Cur.peekNextN
    have := h.len hs
    have ho := h.cur.offset
    simp at this
    simp only [ho]
    rw [if_pos (by omega)]
    rfl

theorem loop_at {body : Nat → Scn (Bool × Nat)} {l : Str} {toks : List Tok}
    (hb : ∀ i {p start st a p'}, At src t l toks p start st → (body i).eval p = some (a, p') →
      ∃ start' st', (body i).run src start st = .ok (a, start', st') ∧ At src t l toks p' start' st')
    (fuel fuel' i : Nat) {p p' : PSt} {start : Nat} {st : Lex} {s : Nat} (h : At src t l toks p start st) (hf : p.r.length < fuel')
    (he : loopEval (fun i => (body i).eval) fuel i p = some (s, p')) :
    ∃ start' st', loopRun (fun i => (body i).run src) fuel' i start st = .ok (s, start', st') ∧ At src t l toks p' start' st' := by
  induction fuel generalizing fuel' i p start st with
  | zero => simp [loopEval] at he
  | succ fuel ih =>
    obtain ⟨fuel', rfl⟩ : ∃ n, fuel' = n + 1 := ⟨fuel' - 1, by omega⟩
    rw [loopEval] at he
    split at he
    · simp at he
    · rename_i s1 p1 h1
      split at he
      · rename_i hlt
        obtain ⟨start1, st1, g1, g2⟩ := hb i h h1
        obtain ⟨start2, st2, g3, g4⟩ := ih fuel' s1 g2 (by omega) he
        exact ⟨start2, st2, by rw [loopRun, g1]; simpa using g3, g4⟩
      · simp at he
    · rename_i s1 p1 h1
      obtain ⟨start1, st1, g1, g2⟩ := hb i h h1
      simp only [Option.some.injEq, Prod.mk.injEq] at he
      obtain ⟨rfl, rfl⟩ := he
      exact ⟨start1, st1, by rw [loopRun, g1]; rfl, g2⟩

omit hs in
theorem At.marked {l : Str} {toks : List Tok} {p : PSt} {start : Nat} {st : Lex} (h : At src t l toks p start st) :
    At src t l toks ⟨p.done ++ gap p.m, [], p.r⟩ st.pos st := by
  refine ⟨?_, ?_⟩
  · have := h.lex
    simpa [tokensOf_joined] using this
  · rw [h.lex.pos]; simp

/-- Where a scanner called from a program leaves the state. -/
def Goes (src : Source) (t l : Str) (toks : List Tok) (p : PSt) (x : Run (Lex × Bool)) : Option (Nat × Str × Str) → Prop
  | some (k, m, r') => ∃ st', x = .ok (st', true) ∧ At src t l toks ⟨p.done ++ gap p.m ++ [(some k, m)], [], r'⟩ st'.pos st'
  | none => ∃ st', x = .ok (st', false) ∧ At src t l toks ⟨p.done ++ gap p.m, [], p.r⟩ st'.pos st'

omit hs in
theorem At.scanned {l : Str} {toks : List Tok} {p : PSt} {st : Lex} {x : Run (Lex × Bool)} {o : Option (Nat × Str × Str)}
    (hx : ∀ l' toks', LexAt src t l' p.r toks' st → Scanned src t l' p.r toks' x o)
    (h : At src t l toks ⟨p.done ++ gap p.m, [], p.r⟩ st.pos st) :
    Goes src t l toks p x o := by
  have h1 := hx _ _ h.lex
  cases o with
  | none =>
    obtain ⟨st', e, h2⟩ := h1
    exact ⟨st', e, h2, h2.pos.trans (by simp)⟩
  | some o =>
    obtain ⟨k, m, r'⟩ := o
    obtain ⟨st', e, h2, h3⟩ := h1
    refine ⟨st', e, ?_, ?_⟩
    · have : tokensOf (blen l) (p.done ++ gap p.m ++ [(some k, m)]) = tokensOf (blen l) (p.done ++ gap p.m) ++
          [⟨k, blen (l ++ joined (p.done ++ gap p.m) ++ []), blen (l ++ joined (p.done ++ gap p.m) ++ []) + blen m⟩] := by
        rw [tokensOf_joined]; simp [tokensOf]
      simp only [this]
      simpa using h3
    · rw [h3.pos]; simp

/-- Running a program is evaluating it. -/
theorem eval_at {α : Type} (q : Scn α) {l : Str} {toks : List Tok} : ∀ {p : PSt} {start : Nat} {st : Lex} {a : α} {p' : PSt},
    At src t l toks p start st → q.eval p = some (a, p') →
    ∃ start' st', q.run src start st = .ok (a, start', st') ∧ At src t l toks p' start' st' := by
  induction q with
  | ret a =>
    intro p start st a' p' h he
    simp only [eval, Option.some.injEq, Prod.mk.injEq] at he
    obtain ⟨rfl, rfl⟩ := he
    exact ⟨start, st, rfl, h⟩
  | peek k ih =>
    intro p start st a p' h he
    obtain ⟨s1, h1, h2⟩ := peek_at hs h.lex
    rw [eval] at he
    obtain ⟨start', st', g1, g2⟩ := ih _ (start := start) ⟨h2, h.start⟩ he
    exact ⟨start', st', by rw [run, h1]; exact g1, g2⟩
  | peekN n k ih =>
    intro p start st a p' h he
    rw [eval] at he
    split at he
    · rename_i x r' hx
      obtain ⟨start', st', g1, g2⟩ := ih _ h he
      exact ⟨start', st', by rw [run, peekN_at hs h.lex hx]; exact g1, g2⟩
    · simp at he
  | starts w k ih =>
    intro p start st a p' h he
    obtain ⟨s1, h1, h2⟩ := startsWith_at hs h.lex w
    rw [eval] at he
    obtain ⟨start', st', g1, g2⟩ := ih _ (start := start) ⟨h2, h.start⟩ he
    exact ⟨start', st', by rw [run, h1]; exact g1, g2⟩
  | adv n k ih =>
    intro p start st a p' h he
    rw [eval] at he
    split at he
    · rename_i x r' hx
      exact ih (p := ⟨p.done, p.m ++ x, r'⟩) ⟨by simpa using adv_at hs h.lex hx, h.start⟩ he
    · simp at he
  | text k ih =>
    intro p start st a p' h he
    rw [eval] at he
    have : src.textIn start st.pos = .ok p.m := by
      refine hs.textIn _ _ _ ⟨l ++ joined p.done, p.r, ?_, ?_, ?_⟩
      · rw [h.lex.cur.text]
      · rw [h.start]
      · rw [h.lex.pos]; simp [Nat.add_assoc]
    obtain ⟨start', st', g1, g2⟩ := ih _ h he
    exact ⟨start', st', by rw [run, this]; exact g1, g2⟩
  | moved k ih =>
    intro p start st a p' h he
    rw [eval] at he
    have : decide (st.pos > start) = decide (p.m ≠ []) := by
      rw [decide_eq_decide, h.start, h.lex.pos]
      exact pos_lt
    obtain ⟨start', st', g1, g2⟩ := ih _ h he
    exact ⟨start', st', by rw [run, this]; exact g1, g2⟩
  | reset k ih =>
    intro p start st a p' h he
    rw [eval] at he
    refine ih (p := ⟨p.done, [], p.m ++ p.r⟩) ⟨⟨⟨?_, ?_, h.lex.cur.chunk, h.lex.cur.good⟩, h.lex.toks⟩, h.start⟩ he
    · rw [h.lex.cur.text]; simp
    · have := h.lex.len hs
      simp only [Cur.setPosition, h.start]
      simp at this
      simp
      omega
  | mark k ih =>
    intro p start st a p' h he
    rw [eval] at he
    exact ih h.marked he
  | emit n k ih =>
    intro p start st a p' h he
    rw [eval] at he
    refine ih (p := ⟨p.done ++ [(some n, p.m)], [], p.r⟩) ⟨?_, ?_⟩ he
    · have := record_at (l := l ++ joined p.done) (m := p.m) h.start h.lex n
      simpa [tokensOf_joined, tokensOf] using this
    · rw [h.lex.pos]; simp
  | loop i b k ihb ihk =>
    intro p start st a p' h he
    rw [eval] at he
    split at he
    · rename_i s p1 h1
      have hl := h.lex.len hs
      have hl2 := length_le_blen p.r
      obtain ⟨start1, st1, g1, g2⟩ := loop_at hs (fun i {p start st a p'} => ihb i) (p.r.length + 1) (src.length + 2) i h (by omega) h1
      obtain ⟨start2, st2, g3, g4⟩ := ihk _ g2 he
      exact ⟨start2, st2, by rw [run, g1]; exact g3, g4⟩
    · simp at he
  | takeWhile f k ih =>
    intro p start st a p' h he
    rw [eval] at he
    obtain ⟨s1, h1, h2⟩ := takeWhile_at hs h.lex f
    obtain ⟨start', st', g1, g2⟩ := ih (p := ⟨p.done, p.m ++ p.r.takeWhile f, p.r.dropWhile f⟩) (start := start) ⟨by simpa using h2, h.start⟩ he
    exact ⟨start', st', by rw [run, h1]; exact g1, g2⟩
  | space w u n k ih =>
    intro p start st a p' h he
    rw [eval] at he
    have key : ∀ l' toks', LexAt src t l' p.r toks' st → Scanned src t l' p.r toks' (scanWhitespace w u src st n)
        (if p.r.takeWhile (if u then w else isWs) = [] then none
          else some (n, p.r.takeWhile (if u then w else isWs), p.r.dropWhile (if u then w else isWs))) := by
      intro l' toks' hl
      obtain ⟨s1, b, m, r', new, e1, e2, e3, e4, e5, e6⟩ := whitespace_at hs hl w u n
      by_cases hm : m = []
      · rw [if_pos (e4 ▸ hm)]
        refine ⟨s1, ?_, ?_⟩
        · rw [e1]
          cases b with
          | true => exact absurd hm (e5.mp rfl)
          | false => rfl
        · subst hm
          rw [if_pos rfl] at e6
          simp only [List.nil_append] at e2
          rw [e6, ← e2] at e3
          simpa using e3
      · rw [if_neg (e4 ▸ hm)]
        have hr : r' = p.r.dropWhile (if u then w else isWs) := by
          have := List.takeWhile_append_dropWhile (p := if u then w else isWs) (l := p.r)
          rw [← e4] at this
          rw [← this] at e2
          exact (List.append_cancel_left e2).symm
        refine ⟨s1, ?_, ?_, ?_⟩
        · rw [e1, e5.mpr hm]
        · rw [List.takeWhile_append_dropWhile]
        · rw [if_neg hm] at e6
          rw [← e4, ← hr, ← e6]; exact e3
    have h2 := h.marked.scanned key
    by_cases hm : p.r.takeWhile (if u then w else isWs) = []
    · rw [if_pos hm] at he
      rw [if_pos hm] at h2
      obtain ⟨s1, e1, h3⟩ := h2
      obtain ⟨start', st', g1, g2⟩ := ih _ h3 he
      exact ⟨start', st', by rw [run, e1]; exact g1, g2⟩
    · rw [if_neg hm] at he
      rw [if_neg hm] at h2
      obtain ⟨s1, e1, h3⟩ := h2
      obtain ⟨start', st', g1, g2⟩ := ih _ h3 he
      exact ⟨start', st', by rw [run, e1]; exact g1, g2⟩
  | quoted cfg n k ih =>
    intro p start st a p' h he
    rw [eval] at he
    have key : ∀ l' toks', LexAt src t l' p.r toks' st → (∀ q s, p.r = q :: s → q ∈ cfg.quotes → cfg.escape ≠ some q) →
        Scanned src t l' p.r toks' (cfg.scan src st n)
        (match p.r with
          | q :: s => if q ∈ cfg.quotes then some (n, q :: (litSpan q cfg.escape s).1, (litSpan q cfg.escape s).2) else none
          | [] => none) := by
      intro l' toks' hl hq
      obtain ⟨s1, b, m, r', new, e1, e2, e3, ⟨rfl, ⟨q, s, hr, hin, hlit⟩, hm, rfl⟩ | ⟨rfl, hno, rfl, rfl⟩⟩ := string_at hs hl cfg n
      · have hne := hq q s hr hin
        obtain ⟨c, hc⟩ := hlit hne
        rw [hr] at hc e2 ⊢
        obtain ⟨c', hc'⟩ := litSpan_literal hne s
        obtain ⟨rfl, -⟩ := literal_unique hne hc hc'
        have ht := litSpan_text q cfg.escape s
        have : r' = (litSpan q cfg.escape s).2 := by
          rw [List.cons_append, List.cons.injEq] at e2
          exact (List.append_cancel_left (ht.trans e2.2)).symm
        subst this
        simp only [if_pos hin]
        exact ⟨s1, e1, e2, e3⟩
      · have : (match p.r with
          | q :: s => if q ∈ cfg.quotes then some (n, q :: (litSpan q cfg.escape s).1, (litSpan q cfg.escape s).2) else none
          | [] => none) = none := by
          cases hr : p.r with
          | nil => rfl
          | cons q s => simp [hno q s hr]
        rw [this]
        refine ⟨s1, e1, ?_⟩
        simp at e2; subst e2
        simpa using e3
    cases hr : p.r with
    | nil =>
      rw [hr] at he
      simp only at he
      have h2 := h.marked.scanned (fun l' toks' hl => key l' toks' hl (by simp [hr]))
      rw [hr] at h2
      simp only at h2
      obtain ⟨s1, e1, h3⟩ := h2
      rw [hr] at h3
      obtain ⟨start', st', g1, g2⟩ := ih _ h3 he
      exact ⟨start', st', by rw [run, e1]; exact g1, g2⟩
    | cons q s =>
      rw [hr] at he
      simp only at he
      by_cases hin : q ∈ cfg.quotes
      · rw [if_pos hin] at he
        by_cases hesc : cfg.escape = some q
        · rw [if_pos hesc] at he; simp at he
        rw [if_neg hesc] at he
        have h2 := h.marked.scanned (fun l' toks' hl => key l' toks' hl (by
          intro q' s' h' _; rw [hr] at h'; simp at h'; rw [← h'.1]; exact hesc))
        rw [hr] at h2
        simp only [if_pos hin] at h2
        obtain ⟨s1, e1, h3⟩ := h2
        obtain ⟨start', st', g1, g2⟩ := ih _ h3 he
        exact ⟨start', st', by rw [run, e1]; exact g1, g2⟩
      · rw [if_neg hin] at he
        have h2 := h.marked.scanned (fun l' toks' hl => key l' toks' hl (by
          intro q' s' h' hi; rw [hr] at h'; simp at h'; rw [← h'.1] at hi; exact absurd hi hin))
        rw [hr] at h2
        simp only [if_neg hin] at h2
        obtain ⟨s1, e1, h3⟩ := h2
        rw [hr] at h3
        obtain ⟨start', st', g1, g2⟩ := ih _ h3 he
        exact ⟨start', st', by rw [run, e1]; exact g1, g2⟩
  | comment cfg n n' k ih =>
    intro p start st a p' h he
    rw [eval] at he
    have h2 := h.marked.scanned (fun l' toks' hl => commentSpan_at hs cfg n n' hl)
    cases hc : commentSpan cfg n n' p.r with
    | none =>
      rw [hc] at he h2
      obtain ⟨s1, e1, h3⟩ := h2
      obtain ⟨start', st', g1, g2⟩ := ih _ h3 he
      exact ⟨start', st', by rw [run, e1]; exact g1, g2⟩
    | some o =>
      obtain ⟨kind, x, r'⟩ := o
      rw [hc] at he h2
      obtain ⟨s1, e1, h3⟩ := h2
      obtain ⟨start', st', g1, g2⟩ := ih _ h3 he
      exact ⟨start', st', by rw [run, e1]; exact g1, g2⟩
  | within n q k ihq ihk =>
    intro p start st a p' h he
    rw [eval] at he
    split at he
    · rename_i p1 h1
      obtain ⟨start1, st1, g1, g2⟩ := ihq h.marked h1
      obtain ⟨start', st', g3, g4⟩ := ihk g2.marked he
      exact ⟨start', st', by rw [run, g1]; exact g3, g4⟩
    · simp at he

end

/-! ### The main loop -/

/-- The main loop on a text: the pieces, and the text left where it breaks off. -/
def cutLoop (step : Scn Next) : Nat → Str → Option (List (Option Nat × Str) × Str)
  | fuel, r =>
    if r = [] then some ([], [])
    else match fuel with
      | 0 => none
      | fuel + 1 =>
        match step.eval ⟨[], [], r⟩ with
        | none => none
        | some (.again, p) => (cutLoop step fuel p.r).map fun x => (p.done ++ gap p.m ++ x.1, x.2)
        | some (.guard, p) =>
          if p.r.length = r.length then
            (cutLoop step fuel (p.r.drop 1)).map fun x => (p.done ++ gap p.m ++ gap (p.r.take 1) ++ x.1, x.2)
          else (cutLoop step fuel p.r).map fun x => (p.done ++ gap p.m ++ x.1, x.2)
        | some (.stop, p) => some (p.done ++ gap p.m, p.r)

/-- The pieces a lexer cuts a text into. -/
def cut (step : Scn Next) (t : Str) : Option (List (Option Nat × Str) × Str) := cutLoop step t.length t

section
variable {src : Source} {t : Str} (hs : Supplied src t)
include hs

theorem drive_at (step : Scn Next) (fuel fuel' : Nat) {l r : Str} {toks : List Tok} {st : Lex} (h : LexAt src t l r toks st)
    {ps : List (Option Nat × Str)} {u : Str} (hc : cutLoop step fuel r = some (ps, u)) (hf : fuel ≤ fuel') :
    ∃ st', drive src step fuel' st = .ok st' ∧ LexAt src t (l ++ joined ps) u (toks ++ tokensOf (blen l) ps) st' := by
  induction fuel generalizing fuel' l r toks st ps with
  | zero =>
    unfold cutLoop at hc
    unfold drive
    rw [h.notAtEnd hs]
    split at hc
    · rename_i hr
      subst hr
      simp only [Option.some.injEq, Prod.mk.injEq] at hc
      obtain ⟨rfl, rfl⟩ := hc
      exact ⟨st, by simp, by simpa [tokensOf] using h⟩
    · simp at hc
  | succ fuel ih =>
    obtain ⟨fuel', rfl⟩ : ∃ n, fuel' = n + 1 := ⟨fuel' - 1, by omega⟩
    unfold cutLoop at hc
    unfold drive
    rw [h.notAtEnd hs]
    split at hc
    · rename_i hr
      subst hr
      simp only [Option.some.injEq, Prod.mk.injEq] at hc
      obtain ⟨rfl, rfl⟩ := hc
      exact ⟨st, by simp, by simpa [tokensOf] using h⟩
    · rename_i hr
      rw [if_pos (by simp [hr])]
      have h0 : At src t l toks ⟨[], [], r⟩ st.pos st := ⟨by simpa [tokensOf] using h, by simp [h.pos]⟩
      simp only at hc ⊢
      cases he : step.eval ⟨[], [], r⟩ with
      | none => rw [he] at hc; simp at hc
      | some x =>
        obtain ⟨n, p⟩ := x
        rw [he] at hc
        obtain ⟨start', st', g1, g2⟩ := eval_at hs step h0 he
        have g3 := g2.marked.lex
        simp only [List.append_nil] at g3
        rw [g1]
        have htx : l ++ r = l ++ joined (p.done ++ gap p.m) ++ p.r := by rw [← h.cur.text, ← g3.cur.text]
        have htx : r = joined (p.done ++ gap p.m) ++ p.r := by simpa using htx
        cases n with
        | stop =>
          simp only [Option.some.injEq, Prod.mk.injEq] at hc
          obtain ⟨rfl, rfl⟩ := hc
          exact ⟨st', rfl, g3⟩
        | again =>
          simp only [Option.map_eq_some_iff, Prod.mk.injEq] at hc
          obtain ⟨x, hx, rfl, rfl⟩ := hc
          obtain ⟨st2, k1, k2⟩ := ih fuel' g3 hx (by omega)
          refine ⟨st2, k1, ?_⟩
          rw [tokensOf_joined]
          simpa using k2
        | guard =>
          obtain ⟨st1, k1, k2⟩ := guard_at hs g3 st.pos
          simp only [run_bind_ok, k1]
          rw [h.pos] at k2
          simp only at hc
          have hiff : blen (l ++ joined (p.done ++ gap p.m)) = blen l ↔ p.r.length = r.length := by
            rw [htx]
            constructor
            · intro e
              rw [blen_append] at e
              have : joined (p.done ++ gap p.m) = [] := blen_eq_zero.mp (by omega)
              rw [this]; simp
            · intro e
              rw [List.length_append] at e
              have : joined (p.done ++ gap p.m) = [] := List.length_eq_zero_iff.mp (by omega)
              rw [this]; simp
          by_cases hp : p.r.length = r.length
          · rw [if_pos hp] at hc
            rw [if_pos (hiff.mpr hp)] at k2
            simp only [Option.map_eq_some_iff, Prod.mk.injEq] at hc
            obtain ⟨x, hx, rfl, rfl⟩ := hc
            obtain ⟨st2, m1, m2⟩ := ih fuel' k2 hx (by omega)
            refine ⟨st2, m1, ?_⟩
            rw [tokensOf_joined, tokensOf_joined]
            simpa using m2
          · rw [if_neg hp] at hc
            rw [if_neg (fun e => hp (hiff.mp e))] at k2
            simp only [Option.map_eq_some_iff, Prod.mk.injEq] at hc
            obtain ⟨x, hx, rfl, rfl⟩ := hc
            obtain ⟨st2, m1, m2⟩ := ih fuel' k2 hx (by omega)
            refine ⟨st2, m1, ?_⟩
            rw [tokensOf_joined]
            simpa using m2

/-- The tokens of a lexer are those of its pieces. -/
theorem lex_at (step : Scn Next) (eof : Nat) {ps : List (Option Nat × Str)} {u : Str} (hc : cut step t = some (ps, u)) :
    t = joined ps ++ u ∧ lex src step eof = .ok (tokensOf 0 ps ++ [⟨eof, blen (joined ps), blen (joined ps)⟩]) := by
  obtain ⟨s0, h1, h2⟩ := lex_new hs
  obtain ⟨st, g1, g2⟩ := drive_at hs step t.length src.length h2 hc (by rw [hs.length_eq]; exact length_le_blen t)
  refine ⟨by simpa using g2.cur.text, ?_⟩
  unfold lex
  simp only [h1, run_bind_ok, g1, run_pure]
  have := g2.pos
  simp [Lex.addEof, Lex.addToken, g2.toks, this]

end
end Scn
end Oaks
