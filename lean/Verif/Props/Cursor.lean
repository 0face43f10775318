import Verif.Proofs.CursorRuns
import Verif.Props.Source

/-! # C06, C09, C10: searching and reading through a cursor -/

namespace Oaks.Props
open Oaks Oaks.Spec

/-- Every source kind: lawful and with chunks that follow each other. -/
def AnySource (src : Source) (t : Str) : Prop := Lawful src t ∧ Contiguous src t

/-- The source kinds of the library are `AnySource`. -/
theorem C05_chunks_contiguous (text : Str) :
    AnySource (strSource text) text ∧ AnySource (textSource text) text ∧
      (∀ t, ropeNew text = .ok t → AnySource t.source text ∧ AnySource t.bufferSource text) ∧
      (∀ pushes t, pushes.flatten = text → chunkedRun chunkedNew pushes = .ok t →
        AnySource t.source text) := by
  refine ⟨⟨strSource_lawful text, strSource_contiguous text⟩,
    ⟨textSource_lawful text, textSource_contiguous text⟩, ?_, ?_⟩
  · intro t ht
    obtain ⟨t', h1, h2, h3⟩ := ropeNew_spec text
    rw [ht] at h1; cases h1
    exact ⟨⟨h3 ▸ h2.lawful, h3 ▸ h2.contiguous⟩, ⟨h3 ▸ h2.bufferLawful, h3 ▸ h2.bufferContiguous⟩⟩
  · intro pushes t hp ht
    suffices h : ∀ (ps : List Str) (t t' : Table), t.WF → chunkedRun t ps = .ok t' →
        t'.WF ∧ t'.text = t.text ++ ps.flatten by
      obtain ⟨h1, h2⟩ := h pushes chunkedNew t chunkedNew_WF ht
      have h3 : t.text = text := by rw [h2, ← hp]; rfl
      exact ⟨h3 ▸ h1.lawful, h3 ▸ h1.contiguous⟩
    intro ps
    induction ps with
    | nil => intro t t' h1 h2; simp [chunkedRun] at h2; subst h2; exact ⟨h1, by simp⟩
    | cons p ps ih =>
      intro t t' h1 h2
      obtain ⟨t1, g1, g2, g3⟩ := chunkedPush_spec h1 p
      simp [chunkedRun, g1] at h2
      obtain ⟨k1, k2⟩ := ih t1 t' g2 h2
      exact ⟨k1, by rw [k2, g3]; simp⟩

/-- C04: `get_text_from` at a boundary is the rest of the text. -/
theorem C04_text_from {src : Source} {t : Str} (h : Lawful src t) (l r : Str) (ht : t = l ++ r) :
    getTextFrom src (blen l) = .ok r := by
  unfold getTextFrom
  have hl := h.length_eq
  by_cases hr : blen l ≥ src.length
  · rw [if_pos hr]
    have : r = [] := blen_eq_zero.mp (by rw [hl, ht] at hr; simp at hr; omega)
    rw [this]; rfl
  · rw [if_neg hr]
    exact h.textIn _ _ _ ⟨l, [], by simp [ht], rfl, by rw [hl, ht]; simp⟩

/-! ## C06 -/

/-- `find_char_from` at a boundary gives the first occurrence, for every lawful source. -/
theorem C06_find_char {src : Source} {t : Str} (h : Lawful src t) (o : Nat) (ho : Boundary t o)
    (ch : Char) : ∃ res, findCharFrom src (src.length + 1) o ch = .ok res ∧ FirstFrom t o [ch] res := by
  obtain ⟨l, r, ht, rfl⟩ := ho
  obtain ⟨cur, h1, h2⟩ := newAt_spec h.supply ht
  have hlen : src.length = blen l + blen r := by rw [h.length_eq, ht]; simp
  refine ⟨_, by simp only [findCharFrom, h1, run_bind_ok]; exact findCharLoop_spec h.supply ch _ h2 (by omega), ?_⟩
  rw [findCh_eq_findSub, ht]
  exact firstFrom_shift (findSub_spec [ch] r)

/-- Two sources of the same text give the same answer. -/
theorem C06_find_char_layout {src src' : Source} {t : Str} (h : Lawful src t) (h' : Lawful src' t)
    (o : Nat) (ho : Boundary t o) (ch : Char) :
    findCharFrom src (src.length + 1) o ch = findCharFrom src' (src'.length + 1) o ch := by
  obtain ⟨x, h1, h2⟩ := C06_find_char h o ho ch
  obtain ⟨y, h3, h4⟩ := C06_find_char h' o ho ch
  rw [h1, h3, firstFrom_unique h2 h4]

/-- `get_char_at` gives the character at a boundary, `None` at the end. -/
theorem C06_get_char_at {src : Source} {t : Str} (h : Lawful src t) (l r : Str) (ht : t = l ++ r) :
    Cur.getCharAt src (blen l) = .ok r.head? := getCharAt_spec h.supply ht

/-- `find_str_from` never loops or panics, and a reported offset is a real occurrence at or after the
start. Missing for the full property: completeness, which is false (`C06_find_str_misses`). -/
theorem C06_find_str_sound_partial {src : Source} {t : Str} (h : AnySource src t) (o : Nat)
    (ho : Boundary t o) (p : Str) :
    ∃ res, findStrFrom src (src.length + 1) o p = .ok res ∧
      ∀ i, res = some i → o ≤ i ∧ OccursAt t p i := by
  obtain ⟨l, r, ht, rfl⟩ := ho
  have hs := supply_linked h.1 h.2 (longChunks_zero src t) (cutsAligned_zero h.1)
  obtain ⟨cur, h1, h2⟩ := newAt_spec hs ht
  have hlen : src.length = blen l + blen r := by rw [h.1.length_eq, ht]; simp
  simp only [findStrFrom, h1, run_bind_ok, Cur.findStr, h2.offset]
  by_cases hp : p = []
  · rw [if_pos hp]
    refine ⟨_, rfl, ?_⟩
    intro i hi; cases hi
    exact ⟨Nat.le_refl _, l, r, by rw [hp, ht]; simp, rfl, rfl⟩
  · rw [if_neg hp]
    exact findStrLoop_sound hs _ ⟨ht, rfl, h2.chunk, h2.good⟩ (by omega)

/-- `find_str_from` is right when every chunk after the first has at least `|p| - 1` bytes (or is the
last) and `|p| - 1` bytes before the end of a chunk is a character boundary. -/
theorem C06_find_str_partial {src : Source} {t : Str} (h : AnySource src t) (o : Nat)
    (ho : Boundary t o) (p : Str) (hlong : LongChunks src t (blen p - 1))
    (hcut : CutsAligned src t (blen p - 1)) :
    ∃ res, findStrFrom src (src.length + 1) o p = .ok res ∧ FirstFrom t o p res := by
  obtain ⟨l, r, ht, rfl⟩ := ho
  have hs := supply_linked h.1 h.2 hlong hcut
  obtain ⟨cur, h1, h2⟩ := newAt_spec hs ht
  have hlen : src.length = blen l + blen r := by rw [h.1.length_eq, ht]; simp
  simp only [findStrFrom, h1, run_bind_ok, Cur.findStr, h2.offset]
  by_cases hp : p = []
  · rw [if_pos hp]
    refine ⟨_, rfl, Nat.le_refl _, ⟨l, r, by rw [hp, ht]; simp, rfl, rfl⟩, fun j _ _ => by omega⟩
  · rw [if_neg hp]
    exact findStrLoop_spec hs hp _ ⟨ht, rfl, h2.chunk, h2.good⟩ (by omega)

/-- On single-chunk sources (`str`, `SourceText`) `find_str_from` is right for every text,
boundary and pattern. -/
theorem C06_find_str_text_partial (t : Str) (o : Nat) (ho : Boundary t o) (p : Str) :
    (∃ res, findStrFrom (textSource t) (blen t + 1) o p = .ok res ∧ FirstFrom t o p res) ∧
    (∃ res, findStrFrom (strSource t) (blen t + 1) o p = .ok res ∧ FirstFrom t o p res) := by
  have hone : ∀ o c, o < blen t → Boundary t o → (textSource t).chunkAt o = .ok c → c.stop = blen t := by
    rintro o c ho ⟨l, r, rfl, rfl⟩ hc
    simp only [textSource, textChunkAt] at hc
    rw [if_neg (by omega), strFrom_append] at hc
    cases hc
    simp [Chunk.stop]
  have hone' : ∀ o c, o < blen t → Boundary t o → (strSource t).chunkAt o = .ok c → c.stop = blen t := by
    rintro o c ho ⟨l, r, rfl, rfl⟩ hc
    simp only [strSource, strChunkAt] at hc
    rw [if_neg (by omega), strFrom_append] at hc
    cases hc
    simp [Chunk.stop]
  constructor
  · exact C06_find_str_partial ⟨textSource_lawful t, textSource_contiguous t⟩ o ho p
      (fun o c c' h1 h2 h3 h4 => by rw [hone o c h1 h2 h3] at h4; omega)
      (fun o c h1 h2 h3 h4 => by rw [hone o c h1 h2 h3] at h4; omega)
  · exact C06_find_str_partial ⟨strSource_lawful t, strSource_contiguous t⟩ o ho p
      (fun o c c' h1 h2 h3 h4 => by rw [hone' o c h1 h2 h3] at h4; omega)
      (fun o c h1 h2 h3 h4 => by rw [hone' o c h1 h2 h3] at h4; omega)

/-- On a freshly built rope of ASCII text, `find_str_from` is right for patterns of up to 4094
bytes. -/
theorem C06_find_str_rope_partial (text : Str) (hascii : ∀ c ∈ text, c.toNat < 128) (o : Nat)
    (ho : Boundary text o) (p : Str) (hp : blen p ≤ 4094) :
    ∃ t res, ropeNew text = .ok t ∧ findStrFrom t.source (t.source.length + 1) o p = .ok res ∧
      FirstFrom text o p res := by
  obtain ⟨cs, h1, h2, h3, _⟩ := chunkify_spec text
  have hw := Table.WF.ofChunks h2
  have ht : (Table.ofChunks cs).text = text := h3
  have hl := hw.lawful
  have hc := hw.contiguous
  have hlong : LongChunks (Table.ofChunks cs).source (Table.ofChunks cs).text (blen p - 1) :=
    hw.longChunks (fun pre c post he hne => by
      have := chunkify_long text cs h1 pre c post he hne; omega)
  rw [ht] at hl hc hlong
  obtain ⟨res, g1, g2⟩ := C06_find_str_partial ⟨hl, hc⟩ o ho p hlong (cutsAligned_ascii hl hascii _)
  exact ⟨_, res, by simp [ropeNew, h1], g1, g2⟩

/-- Disagreement recorded: a pattern spanning three chunks is missed. A chunked buffer fed "a", "b",
"c" holds "abc", but searching it for "abc" from 0 finds nothing. -/
theorem C06_find_str_misses :
    (chunkedRun chunkedNew ["a".toList, "b".toList, "c".toList] >>= fun t =>
      findStrFrom t.source 4 0 "abc".toList) = .ok none ∧ OccursAt "abc".toList "abc".toList 0 :=
  ⟨by decide, [], [], by decide, by decide, by decide⟩

/-- Disagreement recorded: a pattern spanning two chunks is missed when its length minus one cuts a
multi-byte character: chunks "€a", "bc" hold "€abc", but "abc" is not found. -/
theorem C06_find_str_misses_two_chunks :
    (chunkedRun chunkedNew ["€a".toList, "bc".toList] >>= fun t =>
      findStrFrom t.source 7 0 "abc".toList) = .ok none ∧ OccursAt "€abc".toList "abc".toList 3 :=
  ⟨by decide, ['€'], [], by decide, by decide, by decide⟩

/-- Non-vacuity: a real occurrence past the start, inside a multi-chunk source. -/
example : FirstFrom "xabab".toList 2 "ab".toList (some 3) := by
  have h := findSub_spec "ab".toList "bab".toList
  have := firstFrom_shift (l := "xa".toList) h
  exact this
example : Boundary "xé€".toList 3 := ⟨"xé".toList, "€".toList, by decide, by decide⟩

/-! ## C09, C10 -/

/-- For every source kind, every boundary start and every sequence of calls (peek, peek-next,
advance, take-while, the ASCII skips, skip-until, starts-with, consume, moving to a boundary), the
cursor answers exactly what a plain split string answers; no call panics or loops. -/
theorem C09_cursor_refines {src : Source} {t : Str} (h : AnySource src t) (l r : Str)
    (ht : t = l ++ r) (ops : List CursorOp) (hv : ∀ op ∈ ops, op.Valid t) :
    ∃ cur, Cur.newAt src (blen l) = .ok cur ∧ Cur.run src cur ops = .ok (cursorRun (l, r) ops) := by
  have hs := supply_linked h.1 h.2 (longChunks_zero src t) (cutsAligned_zero h.1)
  obtain ⟨cur, h1, h2⟩ := newAt_spec hs ht
  exact ⟨cur, h1, run_spec hs ops hv h2⟩

/-- An offset past the end is clamped, both when a cursor is created there and when one is moved
there: the position is the end of the text and every later call answers as at the end. -/
theorem C09_past_end {src : Source} {t : Str} (h : AnySource src t) (o : Nat) (ho : blen t ≤ o)
    (ops : List CursorOp) (hv : ∀ op ∈ ops, op.Valid t) :
    (∃ cur, Cur.newAt src o = .ok cur ∧ cur.offset = blen t ∧
      Cur.run src cur ops = .ok (cursorRun (t, []) ops)) ∧
    (∀ l r cur, t = l ++ r → Cur.newAt src (blen l) = .ok cur →
      (cur.setPosition src o).offset = blen t ∧
      Cur.run src (cur.setPosition src o) ops = .ok (cursorRun (t, []) ops)) := by
  have hs := supply_linked h.1 h.2 (longChunks_zero src t) (cutsAligned_zero h.1)
  have hlen : src.length = blen t := h.1.length_eq
  constructor
  · obtain ⟨cur, h1, h2⟩ := newAt_spec hs (l := t) (r := []) (by simp)
    refine ⟨cur, ?_, h2.offset, run_spec hs ops hv h2⟩
    rw [← h1]
    unfold Cur.newAt
    rw [show min o src.length = min (blen t) src.length by omega]
  · intro l r cur ht h1
    obtain ⟨cur', h1', h2⟩ := newAt_spec hs ht
    rw [h1] at h1'; cases h1'
    have hat : CurAt _ t t [] (cur.setPosition src o) :=
      ⟨by simp, by simp only [Cur.setPosition]; omega, h2.chunk, h2.good⟩
    exact ⟨hat.offset, run_spec hs ops hv hat⟩

example : (Cur.newAt (textSource "é".toList) 9).map Cur.offset = .ok 2 := by decide

/-- Reading characters one at a time until `None` yields the rest of the text. -/
theorem C09_read_chars {src : Source} {t : Str} (h : AnySource src t) (l r : Str) (ht : t = l ++ r) :
    ∃ cur, Cur.newAt src (blen l) = .ok cur ∧
      Cur.run src cur (List.replicate (r.length + 1) .advance) =
        .ok (r.map (fun c => .char (some c)) ++ [.char none]) := by
  obtain ⟨cur, h1, h2⟩ := C09_cursor_refines h l r ht (List.replicate (r.length + 1) .advance)
    (by intro op hop; rw [List.mem_replicate] at hop; rw [hop.2]; trivial)
  refine ⟨cur, h1, h2.trans ?_⟩
  congr 1
  clear h1 h2 ht
  induction r generalizing l with
  | nil => simp [cursorRun, cursorStep]
  | cons c cs ih =>
    rw [List.length_cons, List.replicate_succ]
    simp only [cursorRun, cursorStep, ih, List.map_cons, List.cons_append]

/-- Reading bytes one at a time until `None` yields the bytes of the rest of the text. -/
theorem C09_read_bytes {src : Source} {t : Str} (h : Lawful src t) (l r : Str) (ht : t = l ++ r) :
    ∃ cur, Cur.newAt src (blen l) = .ok cur ∧
      Cur.readBytes src (src.length + 1) cur = .ok (bytes r) := by
  obtain ⟨cur, h1, h2⟩ := newAt_spec h.supply ht
  refine ⟨cur, h1, ?_⟩
  rw [readBytes_spec h.supply _ _ h2.byteAt (by rw [h.length_eq]; omega), ht, bytes_append,
    List.drop_append_of_le_length (by simp [length_bytes]), List.drop_of_length_le (by simp [length_bytes])]
  rfl

/-- `take_while_byte` stops at the first byte of the rest of the text that fails the predicate. -/
theorem C09_take_while_byte {src : Source} {t : Str} (h : Lawful src t) (l r : Str) (ht : t = l ++ r)
    (p : UInt8 → Bool) :
    ∃ cur cur', Cur.newAt src (blen l) = .ok cur ∧
      Cur.takeWhileByte src p (src.length + 1) cur = .ok cur' ∧ blen l ≤ cur'.offset ∧
      IsFirstOrEnd (fun b => p b = false) (bytes r) (cur'.offset - blen l) := by
  obtain ⟨cur, h1, h2⟩ := newAt_spec h.supply ht
  have hlen : src.length = blen l + blen r := by rw [h.length_eq, ht]; simp
  obtain ⟨cur', g1, g2, _⟩ := skipWith_spec h.supply (fun bs => (bs.takeWhile p).length) p (fun _ => rfl)
    (src.length + 1) h2 (by omega)
  refine ⟨cur, cur', h1, by rw [takeWhileByte_eq]; exact g1, by omega, ?_⟩
  rw [g2, Nat.add_sub_cancel_left]
  exact Simd.firstOrEnd_congr (by intro b; simp) (Simd.takeWhile_isFirstOrEnd (fun b => p b) (bytes r))

/-- C10: `starts_with` is true exactly when the rest of the text begins with the pattern;
`consume_if_starts_with` then moves by exactly the pattern, otherwise not at all. -/
theorem C10_prefix {src : Source} {t : Str} (h : AnySource src t) (l r p : Str) (ht : t = l ++ r) :
    ∃ cur cur', Cur.newAt src (blen l) = .ok cur ∧
      (∃ c, cur.startsWith src (src.length + 1) p = .ok (c, decide (p <+: r))) ∧
      cur.consumeIfStartsWith src (src.length + 1) p = .ok (cur', decide (p <+: r)) ∧
      cur'.offset = if p <+: r then blen l + blen p else blen l := by
  have hs := supply_linked h.1 h.2 (longChunks_zero src t) (cutsAligned_zero h.1)
  obtain ⟨cur, h1, h2⟩ := newAt_spec hs ht
  have hlen : src.length = blen l + blen r := by rw [h.1.length_eq, ht]; simp
  have hpre : p.isPrefixOf r = decide (p <+: r) := by
    rw [Bool.eq_iff_iff, List.isPrefixOf_iff_prefix, decide_eq_true_eq]
  obtain ⟨c, g1, _⟩ := startsWith_spec hs (src.length + 1) h2 (by omega) p
  rcases consume_spec hs (src.length + 1) h2 (by omega) p with ⟨r', hr, cur', k1, k2⟩ | ⟨hne, cur', k1, k2⟩
  · have hp : p <+: r := ⟨r', hr.symm⟩
    refine ⟨cur, cur', h1, ⟨c, by rw [← hpre]; exact g1⟩, by simp [hp, k1], ?_⟩
    rw [if_pos hp, k2.offset]; simp
  · have hp : ¬ p <+: r := fun ⟨r', hr⟩ => hne ⟨r', hr.symm⟩
    refine ⟨cur, cur', h1, ⟨c, by rw [← hpre]; exact g1⟩, by simp [hp, k1], ?_⟩
    rw [if_neg hp, k2.offset]

/-- Non-vacuity: a chunked source of three pushes, and a valid sequence of calls on it. -/
example : ∃ t cur, chunkedRun chunkedNew ["ab".toList, "é".toList, " c".toList] = .ok t ∧
    Cur.newAt t.source (blen "a".toList) = .ok cur ∧
    Cur.run t.source cur [.startsWith "bé c".toList, .skipIdent, .advance, .skipWhitespace, .moveTo 2] =
      .ok [.bool true, .range 1 2, .char (some 'é'), .range 4 5, .unit] := by
  obtain ⟨t, h1, _⟩ := C02_chunked_push ["ab".toList, "é".toList, " c".toList]
  have h2 := (C05_chunks_contiguous "abé c".toList).2.2.2 _ t (by decide) h1
  obtain ⟨cur, g1, g2⟩ := C09_cursor_refines h2 "a".toList "bé c".toList (by decide)
    [.startsWith "bé c".toList, .skipIdent, .advance, .skipWhitespace, .moveTo 2]
    (by
      intro op hop
      simp at hop
      rcases hop with rfl | rfl | rfl | rfl | rfl <;> try trivial
      exact ⟨"ab".toList, "é c".toList, by decide, by decide⟩)
  exact ⟨t, cur, h1, g1, g2.trans (by decide)⟩

/-- Disagreement recorded: a cursor placed inside a character of a `SourceText` never gets out of
`skip_ascii_whitespace`, whatever number of iterations it is given. -/
theorem C09_mid_char_spins (fuel : Nat) :
    (Cur.newAt (textSource "é".toList) 1 >>= fun cur =>
      cur.skipAsciiWhitespace (textSource "é".toList) fuel) = .error .spin := by
  have h0 : Cur.newAt (textSource "é".toList) 1 = .ok ⟨1, ⟨1, []⟩⟩ := by decide
  rw [h0]
  show Cur.skipWith (textSource "é".toList) Simd.skipAsciiWhitespace fuel ⟨1, ⟨1, []⟩⟩ = _
  induction fuel with
  | zero => rfl
  | succ fuel ih =>
    unfold Cur.skipWith
    have e1 : Cur.ensureChunk (textSource "é".toList) ⟨1, ⟨1, []⟩⟩ = .ok ⟨1, ⟨1, []⟩⟩ := by decide
    have e2 : (textSource "é".toList).chunkAt 1 = .ok ⟨1, []⟩ := by decide
    have e3 : ¬ 1 ≥ (textSource "é".toList).length := by decide
    have e4 : Cur.tailBytes ⟨1, ⟨1, []⟩⟩ = [] := by decide
    simp only [e1, run_bind_ok, e4, if_true, e3, if_false, e2]
    exact ih

end Oaks.Props
