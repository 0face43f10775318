import Verif.Proofs.Lawful
import Verif.Proofs.Simd
import Verif.Model.Cursor
import Verif.Base.Utf8

/-! The source cursor over any lawful source. -/

namespace Oaks
open Spec

/-- A lawful source all of whose chunks satisfy `G`. -/
structure Supply (src : Source) (t : Str) (G : Chunk → Prop) : Prop extends Lawful src t where
  good : ∀ o c, Boundary t o → src.chunkAt o = .ok c → G c

theorem Spec.Lawful.supply {src : Source} {t : Str} (h : Lawful src t) : Supply src t (fun _ => True) :=
  ⟨h, fun _ _ _ _ => trivial⟩

variable {G : Chunk → Prop}

/-- The cursor sits between `l` and `r` of the text, and its cached chunk is a piece of the text. -/
structure CurAt (G : Chunk → Prop) (t l r : Str) (cur : Cur) : Prop where
  text : t = l ++ r
  offset : cur.offset = blen l
  chunk : IsSlice t cur.chunk.start cur.chunk.stop cur.chunk.text
  good : G cur.chunk

/-- After `ensure_chunk`: the chunk contains the offset, `m` is what is left of the chunk. -/
structure CurIn (G : Chunk → Prop) (t l r : Str) (cur : Cur) (k m r' : Str) : Prop extends CurAt G t l r cur where
  split : cur.chunk.text = k ++ m
  pos : cur.chunk.start + blen k = blen l
  rest : r = m ++ r'
  nonempty : r ≠ [] → m ≠ []

theorem CurIn.stop {t l r cur k m r'} (h : CurIn G t l r cur k m r') :
    cur.chunk.stop = blen (l ++ m) := by
  have := h.pos
  unfold Chunk.stop
  rw [h.split]; simp; omega

theorem CurIn.sliceFrom {t l r cur k m r'} (h : CurIn G t l r cur k m r') :
    cur.chunk.sliceFrom (blen l) = m := by
  have hp := h.pos
  unfold Chunk.sliceFrom
  by_cases h0 : blen l ≤ cur.chunk.start
  · have : k = [] := blen_eq_zero.mp (by omega)
    rw [if_pos h0, h.split, this]; rfl
  · rw [if_neg h0, h.split, show blen l - cur.chunk.start = blen k by omega, strFrom_append]; rfl

theorem curIn_of_contains {t l r : Str} {cur : Cur} (h : CurAt G t l r cur)
    (h1 : cur.chunk.start ≤ blen l) (h2 : blen l ≤ cur.chunk.stop)
    (h3 : r ≠ [] → blen l < cur.chunk.stop) : ∃ k m r', CurIn G t l r cur k m r' := by
  obtain ⟨cl, cr, hct, hcs, hce⟩ := h.chunk
  have hh := hct
  rw [h.text, List.append_assoc] at hh
  obtain ⟨k, hk, hk2⟩ := append_split_of_le hh.symm (by omega)
  have hbl : blen l = blen cl + blen k := by rw [hk]; simp
  obtain ⟨m, hm, hm2⟩ := append_split_of_le hk2.symm (by omega)
  refine ⟨k, m, cr, h, hm, by omega, hm2, ?_⟩
  rintro hr rfl
  have := h3 hr
  have : blen cur.chunk.text = blen k := by rw [hm]; simp
  omega

theorem ensureChunk_spec {src : Source} {t : Str} (hs : Supply src t G) {l r : Str} {cur : Cur}
    (h : CurAt G t l r cur) :
    ∃ cur' k m r', cur.ensureChunk src = .ok cur' ∧ CurIn G t l r cur' k m r' := by
  have hlen : src.length = blen l + blen r := by rw [hs.length_eq, h.text]; simp
  have hnot : ¬ blen l > src.length := by omega
  unfold Cur.ensureChunk
  simp only [h.offset, hnot, if_false]
  by_cases hc : (decide (blen l < cur.chunk.start) || decide (blen l > cur.chunk.stop) ||
      (decide (blen l = cur.chunk.stop) && decide (blen l < src.length))) = true
  · rw [if_pos hc]
    by_cases hr : r = []
    · subst hr
      rw [hs.past (blen l) (by rw [h.text]; simp)]
      simp only [run_bind_ok, run_pure]
      have hbt : blen t = blen l := by rw [h.text]; simp
      have hat : CurAt G t l [] ⟨blen l, ⟨blen t, []⟩⟩ :=
        ⟨h.text, rfl, ⟨t, [], by simp, rfl, by simp [Chunk.stop]⟩,
          hs.good (blen l) _ ⟨l, [], h.text, rfl⟩ (hs.past (blen l) (by rw [h.text]; simp))⟩
      exact ⟨_, [], [], [], rfl, hat, rfl, by simp [hbt], rfl, by simp⟩
    · have hpos := blen_pos hr
      obtain ⟨c, hc1, hc2, hc3, hc4⟩ := hs.chunk (blen l) (by rw [h.text]; simp; omega) ⟨l, r, h.text, rfl⟩
      rw [hc1]
      simp only [run_bind_ok, run_pure]
      have hat : CurAt G t l r ⟨blen l, c⟩ := ⟨h.text, rfl, hc2, hs.good _ _ ⟨l, r, h.text, rfl⟩ hc1⟩
      obtain ⟨k, m, r', hin⟩ := curIn_of_contains hat hc3 (Nat.le_of_lt hc4) (fun _ => hc4)
      exact ⟨_, k, m, r', rfl, hin⟩
  · rw [if_neg hc]
    simp at hc
    have hat : CurAt G t l r ⟨blen l, cur.chunk⟩ := ⟨h.text, rfl, h.chunk, h.good⟩
    obtain ⟨k, m, r', hin⟩ := curIn_of_contains hat (by simpa using hc.1.1) (by simpa using hc.1.2) (by
      intro hr
      have := blen_pos hr
      have := hc.2
      show blen l < cur.chunk.stop
      omega)
    exact ⟨_, k, m, r', rfl, hin⟩

theorem newAt_spec {src : Source} {t : Str} (hs : Supply src t G) {l r : Str} (ht : t = l ++ r) :
    ∃ cur, Cur.newAt src (blen l) = .ok cur ∧ CurAt G t l r cur := by
  unfold Cur.newAt
  have hlen : src.length = blen l + blen r := by rw [hs.length_eq, ht]; simp
  simp only [show min (blen l) src.length = blen l by omega]
  by_cases hr : r = []
  · subst hr
    rw [hs.past (blen l) (by rw [ht]; simp)]
    exact ⟨_, rfl, ht, rfl, ⟨t, [], by simp, rfl, by simp [Chunk.stop]⟩,
      hs.good (blen l) _ ⟨l, [], ht, rfl⟩ (hs.past (blen l) (by rw [ht]; simp))⟩
  · have hpos := blen_pos hr
    obtain ⟨c, hc1, hc2, hc3, hc4⟩ := hs.chunk (blen l) (by rw [ht]; simp; omega) ⟨l, r, ht, rfl⟩
    rw [hc1]
    exact ⟨_, rfl, ht, rfl, hc2, hs.good _ _ ⟨l, r, ht, rfl⟩ hc1⟩

theorem rest_spec {src : Source} {t : Str} (hs : Supply src t G) {l r : Str} {cur : Cur}
    (h : CurAt G t l r cur) :
    ∃ cur' k m r', cur.rest src = .ok (cur', m) ∧ CurIn G t l r cur' k m r' := by
  obtain ⟨cur', k, m, r', h1, h2⟩ := ensureChunk_spec hs h
  refine ⟨cur', k, m, r', ?_, h2⟩
  simp [Cur.rest, h1, h2.offset, h2.sliceFrom]

theorem head?_of_nonempty {m r' : Str} (h : m ≠ []) : (m ++ r').head? = m.head? := by
  cases m with
  | nil => exact absurd rfl h
  | cons => rfl

theorem CurIn.head? {t l r cur k m r'} (h : CurIn G t l r cur k m r') : m.head? = r.head? := by
  by_cases hr : r = []
  · have := h.rest
    rw [hr] at this
    have hm : m = [] := by
      cases m with
      | nil => rfl
      | cons => simp at this
    rw [hr, hm]
  · have := head?_of_nonempty (r' := r') (h.nonempty hr)
    rw [← h.rest] at this
    exact this.symm

/-- The fast path of `peek_char`/`peek_byte`: the cached chunk contains the offset. -/
theorem curIn_of_fast {t l r : Str} {cur : Cur} (h : CurAt G t l r cur)
    (h1 : cur.chunk.start ≤ cur.offset) (h2 : cur.offset - cur.chunk.start < blen cur.chunk.text) :
    ∃ k m r', CurIn G t l r cur k m r' := by
  rw [h.offset] at h1 h2
  apply curIn_of_contains h h1
  · unfold Chunk.stop; omega
  · intro _; unfold Chunk.stop; omega

theorem peekChar_spec {src : Source} {t : Str} (hs : Supply src t G) {l r : Str} {cur : Cur}
    (h : CurAt G t l r cur) :
    ∃ cur', cur.peekChar src = .ok (cur', r.head?) ∧ CurAt G t l r cur' := by
  have hrest : ∃ cur', (do
      let (cur, r) ← cur.rest src
      pure (cur, r.head?) : Run (Cur × Option Char)) = .ok (cur', r.head?) ∧ CurAt G t l r cur' := by
    obtain ⟨cur', k, m, r', h1, h2⟩ := rest_spec hs h
    exact ⟨cur', by simp [h1, h2.head?], h2.toCurAt⟩
  unfold Cur.peekChar
  by_cases h1 : cur.offset ≥ cur.chunk.start
  · rw [if_pos h1]
    simp only []
    by_cases h2 : cur.offset - cur.chunk.start < blen cur.chunk.text
    · rw [if_pos h2]
      obtain ⟨k, m, r', hin⟩ := curIn_of_fast h h1 h2
      have hoff : cur.offset - cur.chunk.start = blen k := by
        have := hin.pos; have := h.offset; omega
      rw [hoff, hin.split]
      rw [if_pos (isBoundary_append k m), strFrom_append]
      exact ⟨cur, by simp [hin.head?], h⟩
    · rw [if_neg h2]; exact hrest
  · rw [if_neg h1]; exact hrest

/-- `advance_bytes` over a whole piece of text. -/
theorem advanceBytes_spec {src : Source} {t : Str} (hs : Supply src t G) {l m r : Str} {cur : Cur}
    (h : CurAt G t l (m ++ r) cur) : CurAt G t (l ++ m) r (cur.advanceBytes src (blen m)) := by
  have hlen : src.length = blen l + blen m + blen r := by
    rw [hs.length_eq, h.text]; simp; omega
  refine ⟨by rw [h.text]; simp, ?_, h.chunk, h.good⟩
  simp [Cur.advanceBytes, h.offset]; omega

theorem advanceChar_spec {src : Source} {t : Str} (hs : Supply src t G) {l r : Str} {cur : Cur}
    (h : CurAt G t l r cur) :
    match r with
    | [] => ∃ cur', cur.advanceChar src = .ok (cur', none) ∧ CurAt G t l [] cur'
    | c :: cs => ∃ cur', cur.advanceChar src = .ok (cur', some c) ∧ CurAt G t (l ++ [c]) cs cur' := by
  obtain ⟨cur', h1, h2⟩ := peekChar_spec hs h
  cases r with
  | nil => exact ⟨cur', by simp [Cur.advanceChar, h1], h2⟩
  | cons c cs =>
    refine ⟨_, by simp [Cur.advanceChar, h1]; rfl, ?_⟩
    have := advanceBytes_spec hs (l := l) (m := [c]) (r := cs) h2
    simpa using this

theorem CurIn.tailBytes {t l r cur k m r'} (h : CurIn G t l r cur k m r') : cur.tailBytes = bytes m := by
  unfold Cur.tailBytes
  have hoff : cur.offset - cur.chunk.start = blen k := by
    have := h.pos; have := h.offset; omega
  simp only [hoff, h.split]
  by_cases hm : m = []
  · subst hm; simp
  · have := blen_pos hm
    rw [if_pos (by simp; omega), bytes_append, List.drop_append_of_le_length (by simp [length_bytes])]
    rw [List.drop_of_length_le (by simp [length_bytes])]
    simp

theorem CurIn.tailText {t l r cur k m r'} (h : CurIn G t l r cur k m r') : cur.tailText = .ok m := by
  unfold Cur.tailText
  have hoff : cur.offset - cur.chunk.start = blen k := by
    have := h.pos; have := h.offset; omega
  simp only [hoff, h.split]
  by_cases hm : m = []
  · subst hm; simp
  · have := blen_pos hm
    rw [if_pos (by simp; omega), strFrom_append]; rfl

theorem bytes_eq_nil {m : Str} : bytes m = [] ↔ m = [] := by
  constructor
  · intro h
    have := length_bytes m
    rw [h] at this
    exact blen_eq_zero.mp (by simpa using this.symm)
  · rintro rfl; rfl

theorem takeWhile_append_full {α} {p : α → Bool} {a b : List α}
    (h : (a.takeWhile p).length = a.length) : (a ++ b).takeWhile p = a ++ b.takeWhile p := by
  induction a with
  | nil => rfl
  | cons x a ih =>
    by_cases hx : p x = true
    · rw [List.takeWhile_cons_of_pos hx] at h
      simp at h
      simp [List.takeWhile_cons_of_pos hx, ih h]
    · rw [List.takeWhile_cons_of_neg hx] at h
      simp at h

theorem takeWhile_append_short {α} {p : α → Bool} {a b : List α}
    (h : (a.takeWhile p).length < a.length) : (a ++ b).takeWhile p = a.takeWhile p := by
  induction a with
  | nil => simp at h
  | cons x a ih =>
    by_cases hx : p x = true
    · rw [List.takeWhile_cons_of_pos hx] at h
      simp at h
      simp [List.takeWhile_cons_of_pos hx, ih h]
    · simp [List.takeWhile_cons_of_neg hx]

theorem takeWhile_length_le {α} (p : α → Bool) (a : List α) : (a.takeWhile p).length ≤ a.length :=
  (List.takeWhile_sublist p).length_le

/-- The skip loop: the end offset is where a byte scan of the remaining text stops; the cached
chunk is still valid. -/
theorem skipWith_spec {src : Source} {t : Str} (hs : Supply src t G) (scan : List UInt8 → Nat)
    (p : UInt8 → Bool) (hscan : ∀ bs, scan bs = (bs.takeWhile p).length)
    (fuel : Nat) {l r : Str} {cur : Cur} (h : CurAt G t l r cur) (hf : blen r < fuel) :
    ∃ cur', Cur.skipWith src scan fuel cur = .ok cur' ∧
      cur'.offset = blen l + ((bytes r).takeWhile p).length ∧
      IsSlice t cur'.chunk.start cur'.chunk.stop cur'.chunk.text ∧ G cur'.chunk := by
  induction fuel generalizing l r cur with
  | zero => omega
  | succ fuel ih =>
    obtain ⟨cur1, k, m, r', he, hin⟩ := ensureChunk_spec hs h
    have hlen : src.length = blen l + blen r := by rw [hs.length_eq, h.text]; simp
    unfold Cur.skipWith
    simp only [he, run_bind_ok, hin.tailBytes, hin.offset, bytes_eq_nil]
    by_cases hm : m = []
    · have hr : r = [] := by
        by_cases hr : r = []
        · exact hr
        · exact absurd hm (hin.nonempty hr)
      rw [if_pos hm, if_pos (by rw [hlen, hr]; simp)]
      exact ⟨cur1, rfl, by rw [hin.offset, hr]; simp, hin.chunk, hin.good⟩
    · rw [if_neg hm, hscan]
      have hle := takeWhile_length_le p (bytes m)
      rw [length_bytes] at hle
      by_cases hshort : ((bytes m).takeWhile p).length < (bytes m).length
      · simp only [hshort, decide_true, Bool.true_or, if_true]
        refine ⟨_, rfl, ?_, hin.chunk, hin.good⟩
        rw [hin.rest, bytes_append, takeWhile_append_short hshort]
      · have hfull : ((bytes m).takeWhile p).length = (bytes m).length := by
          rw [length_bytes] at *; omega
        have hr : bytes r = bytes m ++ bytes r' := by rw [hin.rest]; simp
        simp only [hshort, decide_false, Bool.false_or, hfull, length_bytes]
        by_cases hend : blen l + blen m ≥ src.length
        · rw [if_pos (by simpa using hend)]
          refine ⟨_, rfl, ?_, hin.chunk, hin.good⟩
          have : r' = [] := by
            have := congrArg blen hin.rest
            simp at this
            exact blen_eq_zero.mp (by omega)
          rw [hr, this]; simp [hfull, length_bytes]
        · rw [if_neg (by simpa using hend)]
          have hat : CurAt G t (l ++ m) r' { cur1 with offset := blen l + blen m } :=
            ⟨by rw [hin.text, hin.rest]; simp, by simp, hin.chunk, hin.good⟩
          have hbr := congrArg blen hin.rest
          simp at hbr
          have := blen_pos hm
          obtain ⟨cur2, g1, g2, g3⟩ := ih hat (by omega)
          refine ⟨cur2, g1, ?_, g3⟩
          rw [g2, hr, takeWhile_append_full hfull]
          simp [length_bytes]; omega

theorem scanBytes_eq (p : UInt8 → Bool) (bs : List UInt8) (i : Nat) :
    Cur.scanBytes p bs i i = (i + (bs.takeWhile p).length, decide ((bs.takeWhile p).length < bs.length)) := by
  induction bs generalizing i with
  | nil => simp [Cur.scanBytes]
  | cons b bs ih =>
    unfold Cur.scanBytes
    by_cases hb : p b = true
    · simp [hb, ih, List.takeWhile_cons_of_pos hb]; omega
    · simp [hb, List.takeWhile_cons_of_neg hb]

/-- `take_while_byte` is the skip loop. -/
theorem takeWhileByte_eq (src : Source) (p : UInt8 → Bool) (fuel : Nat) (cur : Cur) :
    Cur.takeWhileByte src p fuel cur =
      Cur.skipWith src (fun bs => (bs.takeWhile p).length) fuel cur := by
  induction fuel generalizing cur with
  | zero => rfl
  | succ fuel ih =>
    simp only [Cur.takeWhileByte, Cur.skipWith, scanBytes_eq, Nat.zero_add, ih]

theorem scanChars_eq (p : Char → Bool) (s : Str) (i : Nat) :
    Cur.scanChars p s i i = (i + blen (s.takeWhile p), decide ((s.takeWhile p).length < s.length)) := by
  induction s generalizing i with
  | nil => simp [Cur.scanChars]
  | cons b bs ih =>
    unfold Cur.scanChars
    by_cases hb : p b = true
    · simp [hb, ih, List.takeWhile_cons_of_pos hb]; omega
    · simp [hb, List.takeWhile_cons_of_neg hb]

theorem takeWhile_spec {src : Source} {t : Str} (hs : Supply src t G) (p : Char → Bool)
    (fuel : Nat) {l r : Str} {cur : Cur} (h : CurAt G t l r cur) (hf : blen r < fuel) :
    ∃ cur', Cur.takeWhile src p fuel cur = .ok cur' ∧
      CurAt G t (l ++ r.takeWhile p) (r.dropWhile p) cur' := by
  have key : ∀ r : Str, r.takeWhile p ++ r.dropWhile p = r := fun r => List.takeWhile_append_dropWhile
  induction fuel generalizing l r cur with
  | zero => omega
  | succ fuel ih =>
    obtain ⟨cur1, k, m, r', he, hin⟩ := ensureChunk_spec hs h
    have hlen : src.length = blen l + blen r := by rw [hs.length_eq, h.text]; simp
    unfold Cur.takeWhile
    simp only [he, run_bind_ok, hin.tailText, hin.offset]
    by_cases hm : m = []
    · have hr : r = [] := by
        by_cases hr : r = []
        · exact hr
        · exact absurd hm (hin.nonempty hr)
      rw [if_pos hm, if_pos (by rw [hlen, hr]; simp)]
      refine ⟨cur1, rfl, ?_⟩
      have := hin.toCurAt
      rw [hr] at this ⊢
      simpa using this
    · rw [if_neg hm, scanChars_eq]
      simp only [Nat.zero_add]
      by_cases hshort : (m.takeWhile p).length < m.length
      · simp only [hshort, decide_true, if_true]
        refine ⟨_, rfl, by rw [List.append_assoc, key]; exact h.text, ?_, hin.chunk, hin.good⟩
        simp [hin.rest, takeWhile_append_short hshort]
      · have hfull : (m.takeWhile p).length = m.length := by
          have := takeWhile_length_le p m; omega
        have hmm : m.takeWhile p = m := by
          have := List.IsPrefix.eq_of_length (List.takeWhile_prefix p) hfull
          exact this
        have hr : r.takeWhile p = m ++ r'.takeWhile p := by rw [hin.rest, takeWhile_append_full hfull]
        have hrd : r.dropWhile p = r'.dropWhile p := by
          have h1 := key r
          have h2 := key r'
          rw [hr] at h1
          have h3 : m ++ (r'.takeWhile p ++ r.dropWhile p) = m ++ (r'.takeWhile p ++ r'.dropWhile p) := by
            rw [h2, ← hin.rest, ← List.append_assoc]; exact h1
          exact List.append_cancel_left (List.append_cancel_left h3)
        simp only [hmm, Nat.lt_irrefl, decide_false, Bool.false_eq_true, if_false]
        by_cases hend : blen l + blen m ≥ src.length
        · rw [if_pos hend]
          have hr' : r' = [] := by
            have := congrArg blen hin.rest
            simp at this
            exact blen_eq_zero.mp (by omega)
          refine ⟨_, rfl, by rw [List.append_assoc, key]; exact h.text, ?_, hin.chunk, hin.good⟩
          rw [hr, hr']; simp
        · rw [if_neg hend]
          have hat : CurAt G t (l ++ m) r' { cur1 with offset := blen l + blen m } :=
            ⟨by rw [hin.text, hin.rest]; simp, by simp, hin.chunk, hin.good⟩
          have hbr := congrArg blen hin.rest
          simp at hbr
          have := blen_pos hm
          obtain ⟨cur2, g1, g2⟩ := ih hat (by omega)
          refine ⟨cur2, g1, ?_⟩
          rw [hr, hrd]
          simpa using g2

theorem getCharAt_spec {src : Source} {t : Str} (hs : Supply src t G) {l r : Str} (ht : t = l ++ r) :
    Cur.getCharAt src (blen l) = .ok r.head? := by
  unfold Cur.getCharAt
  by_cases hr : r = []
  · subst hr
    rw [hs.past (blen l) (by rw [ht]; simp)]
    simp [Chunk.sliceFrom, ht]
  · have hpos := blen_pos hr
    obtain ⟨c, hc1, hc2, hc3, hc4⟩ := hs.chunk (blen l) (by rw [ht]; simp; omega) ⟨l, r, ht, rfl⟩
    have hat : CurAt G t l r ⟨blen l, c⟩ := ⟨ht, rfl, hc2, hs.good _ _ ⟨l, r, ht, rfl⟩ hc1⟩
    obtain ⟨k, m, r', hin⟩ := curIn_of_contains hat hc3 (Nat.le_of_lt hc4) (fun _ => hc4)
    have := hin.sliceFrom
    simp only [hc1, run_bind_ok, run_pure]
    simp only at this
    rw [this, hin.head?]

theorem findCh_append_none {ch : Char} {a b : Str} (h : findCh ch a = none) :
    findCh ch (a ++ b) = (findCh ch b).map (blen a + ·) := by
  induction a with
  | nil => simp
  | cons c a ih =>
    unfold findCh at h
    split at h
    · simp at h
    · rename_i hc
      split at h
      · simp at h
      · rename_i hn
        simp only [List.cons_append, findCh, hc, if_false, ih hn]
        cases findCh ch b <;> simp [Nat.add_assoc]

theorem findCh_append_some {ch : Char} {a b : Str} {n : Nat} (h : findCh ch a = some n) :
    findCh ch (a ++ b) = some n := by
  induction a generalizing n with
  | nil => simp [findCh] at h
  | cons c a ih =>
    unfold findCh at h
    simp only [List.cons_append, findCh]
    split at h
    · rename_i hc; rw [if_pos hc]; exact h
    · rename_i hc
      rw [if_neg hc]
      split at h
      · rename_i k hk
        rw [ih hk]; exact h
      · simp at h

theorem findCharLoop_spec {src : Source} {t : Str} (hs : Supply src t G) (ch : Char)
    (fuel : Nat) {l r : Str} {cur : Cur} (h : CurAt G t l r cur) (hf : blen r < fuel) :
    findCharLoop src ch fuel cur (blen l) = .ok ((findCh ch r).map (blen l + ·)) := by
  induction fuel generalizing l r cur with
  | zero => omega
  | succ fuel ih =>
    obtain ⟨cur1, k, m, r', h1, hin⟩ := rest_spec hs h
    have hlen : src.length = blen l + blen r := by rw [hs.length_eq, h.text]; simp
    unfold findCharLoop
    simp only [h1, run_bind_ok]
    cases hf' : findCh ch m with
    | some pos =>
      simp only [run_pure, hin.rest, findCh_append_some hf']; rfl
    | none =>
      simp only []
      obtain ⟨cur2, k2, m2, r2, h2, hin2⟩ := ensureChunk_spec hs hin.toCurAt
      -- the chunk is unchanged: `ensure_chunk` is idempotent
      have hid : cur1.ensureChunk src = .ok cur1 := by
        unfold Cur.ensureChunk
        have hst := hin.stop
        have hp := hin.pos
        have ho := hin.offset
        simp only [blen_append] at hst
        have hno : ¬ cur1.offset > src.length := by omega
        simp only [hno, if_false]
        rw [if_neg]
        · cases cur1; rfl
        · simp only [Bool.or_eq_true, Bool.and_eq_true, decide_eq_true_eq]
          rintro ((h' | h') | ⟨h', h''⟩)
          · omega
          · omega
          · have : r ≠ [] := by rintro rfl; simp at hlen; omega
            have := blen_pos (hin.nonempty this)
            omega
      simp only [Cur.chunkEnd, hid, run_bind_ok, run_pure, hin.stop]
      by_cases hend : blen (l ++ m) ≥ src.length
      · rw [if_pos hend]
        have hr' : r' = [] := by
          have := congrArg blen hin.rest
          simp at this hend
          exact blen_eq_zero.mp (by omega)
        rw [hin.rest, hr', List.append_nil, hf']; rfl
      · rw [if_neg hend]
        have hrne : r ≠ [] := by rintro rfl; simp at hlen hend; omega
        have hm := blen_pos (hin.nonempty hrne)
        have hat : CurAt G t (l ++ m) r' (cur1.setPosition src (blen (l ++ m))) := by
          refine ⟨by rw [hin.text, hin.rest]; simp, ?_, hin.chunk, hin.good⟩
          simp [Cur.setPosition] at hend ⊢; omega
        have hbr := congrArg blen hin.rest
        simp at hbr
        rw [ih hat (by omega), hin.rest, findCh_append_none hf']
        cases findCh ch r' <;> simp [Nat.add_assoc]

end Oaks
