import Verif.Proofs.CursorBytes
import Verif.Model.CursorRuns

namespace Oaks
open Spec

variable {G : Chunk → Prop}

theorem takeWhile_congr {p q : Char → Bool} {s : Str} (h : ∀ c, p c = q c) : s.takeWhile p = s.takeWhile q := by
  have : p = q := funext h
  rw [this]

/-- A byte scanner of an ASCII class moves over the longest prefix in the class. -/
theorem skipWith_over {src : Source} {t : Str} (hs : Supply src t G) (scan : List UInt8 → Nat)
    (p : UInt8 → Bool) (q : Char → Bool) (hscan : ∀ bs, scan bs = (bs.takeWhile p).length)
    (hpq : ∀ s : Str, ((bytes s).takeWhile p).length = blen (s.takeWhile q))
    {l r : Str} {cur : Cur} (h : CurAt G t l r cur) :
    ∃ cur', rangeOf cur (Cur.skipWith src scan (src.length + 1) cur) =
        .ok (cur', (over q (l, r)).2) ∧
      CurAt G t (over q (l, r)).1.1 (over q (l, r)).1.2 cur' := by
  have hlen : src.length = blen l + blen r := by rw [hs.length_eq, h.text]; simp
  obtain ⟨cur', h1, h2, h3, h4⟩ := skipWith_spec hs scan p hscan (src.length + 1) h (by omega)
  rw [hpq] at h2
  refine ⟨cur', ?_, ?_, ?_, h3, h4⟩
  · simp [rangeOf, h1, over, h.offset, h2]
  · simp [over, List.append_assoc, List.takeWhile_append_dropWhile, h.text]
  · simp [over, h2]

theorem ofNat_eq_iff {c : Char} (h : c.toNat < 128) (b : UInt8) :
    (UInt8.ofNat c.toNat == b) = (c.toNat == b.toNat) := by
  rw [Bool.eq_iff_iff, beq_iff_eq, beq_iff_eq, ← UInt8.toNat_inj]
  simp [UInt8.toNat_ofNat']
  omega

theorem char_eq_iff (c d : Char) : (c == d) = (c.toNat == d.toNat) := by
  rw [Bool.eq_iff_iff, beq_iff_eq, beq_iff_eq]
  constructor
  · rintro rfl; rfl
  · intro h; exact Char.ext (UInt32.toNat_inj.mp h)

theorem ofNat_le {c : Char} (h : c.toNat < 128) (b : UInt8) :
    decide (b ≤ UInt8.ofNat c.toNat) = decide (b.toNat ≤ c.toNat) := by
  rw [decide_eq_decide, UInt8.le_iff_toNat_le]
  simp [UInt8.toNat_ofNat']; omega

theorem ofNat_ge {c : Char} (h : c.toNat < 128) (b : UInt8) :
    decide (UInt8.ofNat c.toNat ≤ b) = decide (c.toNat ≤ b.toNat) := by
  rw [decide_eq_decide, UInt8.le_iff_toNat_le]
  simp [UInt8.toNat_ofNat']; omega

theorem char_le (c d : Char) : decide (c ≤ d) = decide (c.toNat ≤ d.toNat) := by
  rw [decide_eq_decide]; exact Iff.rfl

theorem skipWith_class {src : Source} {t : Str} (hs : Supply src t G) (scan : List UInt8 → Nat)
    (p : UInt8 → Bool) (q : Char → Bool) (hscan : ∀ bs, scan bs = (bs.takeWhile p).length)
    (hp : ∀ b, p b = true → b.toNat < 128)
    (hq : ∀ c : Char, c.toNat < 128 → p (UInt8.ofNat c.toNat) = q c)
    (hq' : ∀ c : Char, ¬ c.toNat < 128 → q c = false)
    {l r : Str} {cur : Cur} (h : CurAt G t l r cur) :
    ∃ cur', rangeOf cur (Cur.skipWith src scan (src.length + 1) cur) =
        .ok (cur', (over q (l, r)).2) ∧
      CurAt G t (over q (l, r)).1.1 (over q (l, r)).1.2 cur' := by
  refine skipWith_over hs scan p q hscan ?_ h
  intro s
  rw [takeWhile_bytes_ascii p hp]
  congr 1
  apply takeWhile_congr
  intro c
  by_cases hc : c.toNat < 128
  · simp [hc, hq c hc]
  · simp [hc, hq' c hc]

theorem step_spec {src : Source} {t : Str} {n : Nat} (hs : Supply src t (Linked src t n)) (op : CursorOp)
    (hv : op.Valid t) {l r : Str} {cur : Cur} (h : CurAt (Linked src t n) t l r cur) :
    ∃ cur', cur.step src op = .ok (cur', (cursorStep (l, r) op).2) ∧
      CurAt (Linked src t n) t (cursorStep (l, r) op).1.1 (cursorStep (l, r) op).1.2 cur' := by
  have hlen : src.length = blen l + blen r := by rw [hs.length_eq, h.text]; simp
  cases op with
  | peek =>
    obtain ⟨cur', h1, h2⟩ := peekChar_spec hs h
    exact ⟨cur', by simp [Cur.step, h1, cursorStep], h2⟩
  | peekNext =>
    obtain ⟨cur', h1, h2⟩ := peekChar_spec hs h
    refine ⟨cur', ?_, h2⟩
    cases r with
    | nil => simp [Cur.step, Cur.peekNextChar, h1, cursorStep]
    | cons c cs =>
      have key : cur'.peekNextN src c.utf8Size = .ok cs.head? := by
        unfold Cur.peekNextN
        have ho := h2.offset
        simp only [ho]
        have htx : t = (l ++ [c]) ++ cs := by rw [h.text]; simp
        by_cases hend : blen l + c.utf8Size ≥ src.length
        · rw [if_pos hend]
          have : cs = [] := blen_eq_zero.mp (by simp at hlen; omega)
          rw [this]; rfl
        · rw [if_neg hend]
          by_cases hin : (decide (blen l + c.utf8Size ≥ cur'.chunk.start) &&
              decide (blen l + c.utf8Size < cur'.chunk.stop)) = true
          · rw [if_pos hin]
            simp at hin
            have hat : CurAt (Linked src t n) t (l ++ [c]) cs
                { cur' with offset := blen (l ++ [c]) } :=
              ⟨htx, rfl, h2.chunk, h2.good⟩
            obtain ⟨k, m, r', hci⟩ := curIn_of_contains hat (by simp; omega) (by simp; omega)
              (fun _ => by simp; omega)
            have hp := hci.pos
            simp at hp
            have : blen l + c.utf8Size - cur'.chunk.start = blen k := by omega
            rw [this, hci.split, strFrom_append]
            simp [hci.head?]
          · rw [if_neg hin]
            have := getCharAt_spec hs htx
            simpa using this
      simp [Cur.step, Cur.peekNextChar, h1, cursorStep, key]
  | advance =>
    have := advanceChar_spec hs h
    cases r with
    | nil =>
      obtain ⟨cur', h1, h2⟩ := this
      exact ⟨cur', by simp [Cur.step, h1, cursorStep], h2⟩
    | cons c cs =>
      obtain ⟨cur', h1, h2⟩ := this
      exact ⟨cur', by simp [Cur.step, h1, cursorStep], h2⟩
  | takeWhile p =>
    obtain ⟨cur', h1, h2⟩ := takeWhile_spec hs p (src.length + 1) h (by omega)
    refine ⟨cur', ?_, h2⟩
    have := h2.offset
    simp at this
    simp [Cur.step, rangeOf, h1, cursorStep, over, h.offset, this]
  | skipWhitespace =>
    refine skipWith_class hs _ (fun b => (b == 0x20) || (b == 0x09) || (b == 0x0A) || (b == 0x0D)) isWs
      ?_ ?_ ?_ ?_ h
    · intro bs
      simp only [Simd.skipAsciiWhitespace, Simd.skipLoop_eq
        (fun b => (b == 0x20) || (b == 0x09) || (b == 0x0A) || (b == 0x0D))
        (fun b => b != 0x20 && b != 0x09 && b != 0x0A && b != 0x0D)
        (by intro b; simp [bne]) bs 0 (Nat.zero_le _), List.drop_zero, Nat.zero_add]
    · intro b hb
      simp only [Bool.or_eq_true, beq_iff_eq] at hb
      rcases hb with ((rfl | rfl) | rfl) | rfl <;> decide
    · intro c hc
      simp only [ofNat_eq_iff hc, isWs, char_eq_iff]
      rfl
    · intro c hc
      simp [isWs, char_eq_iff]; omega
  | skipDigits =>
    refine skipWith_class hs _ (fun b => decide (0x30 ≤ b) && decide (b ≤ 0x39)) isDigit
      ?_ ?_ ?_ ?_ h
    · intro bs
      simp only [Simd.skipAsciiDigits, Simd.skipLoop_eq (fun b => decide (0x30 ≤ b) && decide (b ≤ 0x39))
        (fun b => !Simd.isAsciiDigit b) (by intro b; simp [Simd.isAsciiDigit]) bs 0 (Nat.zero_le _),
        List.drop_zero, Nat.zero_add]
    · intro b hb
      simp [UInt8.le_iff_toNat_le] at hb; omega
    · intro c hc
      simp only [ofNat_le hc, ofNat_ge hc, isDigit, char_le]
      rfl
    · intro c hc
      simp [isDigit, char_le]; omega
  | skipIdent =>
    refine skipWith_class hs _ (fun b =>
      (decide (0x61 ≤ b) && decide (b ≤ 0x7A)) || (decide (0x41 ≤ b) && decide (b ≤ 0x5A)) ||
        (decide (0x30 ≤ b) && decide (b ≤ 0x39)) || (b == 0x5F)) isIdent ?_ ?_ ?_ ?_ h
    · intro bs
      simp only [Simd.skipAsciiIdentContinue, Simd.skipLoop_eq (fun b =>
        (decide (0x61 ≤ b) && decide (b ≤ 0x7A)) || (decide (0x41 ≤ b) && decide (b ≤ 0x5A)) ||
        (decide (0x30 ≤ b) && decide (b ≤ 0x39)) || (b == 0x5F))
        (fun b => !Simd.isAsciiAlnum b && b != 0x5F)
        (by intro b; simp [Simd.isAsciiAlnum, Simd.isAsciiDigit, bne]) bs 0 (Nat.zero_le _),
        List.drop_zero, Nat.zero_add]
    · intro b hb
      simp [UInt8.le_iff_toNat_le, ← UInt8.toNat_inj] at hb; omega
    · intro c hc
      simp only [ofNat_le hc, ofNat_ge hc, ofNat_eq_iff hc, isIdent, isDigit, char_le, char_eq_iff]
      rfl
    · intro c hc
      simp [isIdent, isDigit, char_le, char_eq_iff]; omega
  | skipUntil b =>
    have hb : b.toNat < 128 := hv
    refine skipWith_over hs _ (fun x => !(x == b)) (fun c => c.toNat != b.toNat) ?_ ?_ h
    · intro bs
      simp only [Simd.skipUntil, Simd.untilLoop_eq _ _ (fun _ => rfl) bs 0 (Nat.zero_le _),
        List.drop_zero, Nat.zero_add]
    · intro s
      rw [takeWhile_bytes_until]
      · congr 1
        apply takeWhile_congr
        intro c
        by_cases hc : c.toNat < 128
        · simp [hc, ofNat_eq_iff hc, bne]
        · have : c.toNat ≠ b.toNat := by omega
          simp [hc, this]
      · intro x hx
        simp
        rintro rfl; omega
  | startsWith p =>
    obtain ⟨cur', h1, h2⟩ := startsWith_spec hs (src.length + 1) h (by omega) p
    exact ⟨cur', by simp [Cur.step, h1, cursorStep], h2⟩
  | consume p =>
    rcases consume_spec hs (src.length + 1) h (by omega) p with ⟨r', rfl, cur', h1, h2⟩ | ⟨hne, cur', h1, h2⟩
    · have hp : p.isPrefixOf (p ++ r') = true := isPrefixOf_iff.mpr ⟨r', rfl⟩
      exact ⟨cur', by simp only [Cur.step, h1, cursorStep, hp]; rfl, by simpa [cursorStep, hp] using h2⟩
    · have hp : p.isPrefixOf r = false := by
        rw [Bool.eq_false_iff]; exact fun h => hne (isPrefixOf_iff.mp h)
      exact ⟨cur', by simp only [Cur.step, h1, cursorStep, hp]; rfl, by simpa [cursorStep, hp] using h2⟩
  | moveTo o =>
    obtain ⟨l', r', ht', rfl⟩ := hv
    refine ⟨_, rfl, ?_⟩
    have : cursorStep (l, r) (.moveTo (blen l')) = ((l', r'), .unit) := by
      simp only [cursorStep, ← h.text]
      rw [ht', splitAt?_append]; rfl
    rw [this]
    refine ⟨ht', ?_, h.chunk, h.good⟩
    have : blen t = blen l' + blen r' := by rw [ht']; simp
    have := hs.length_eq
    simp [Cur.setPosition]; omega

end Oaks

namespace Oaks
open Spec

theorem run_spec {src : Source} {t : Str} {n : Nat} (hs : Supply src t (Linked src t n))
    (ops : List CursorOp) (hv : ∀ op ∈ ops, op.Valid t) {l r : Str} {cur : Cur}
    (h : CurAt (Linked src t n) t l r cur) : Cur.run src cur ops = .ok (cursorRun (l, r) ops) := by
  induction ops generalizing l r cur with
  | nil => rfl
  | cons op ops ih =>
    obtain ⟨cur', h1, h2⟩ := step_spec hs op (hv op (by simp)) h
    have := ih (fun o ho => hv o (by simp [ho])) h2
    simp [Cur.run, h1, cursorRun, this]

theorem readBytes_spec {src : Source} {t : Str} (hs : Supply src t G) (fuel o : Nat) {cur : Cur}
    (h : ByteAt G t o cur) (hf : blen t - o < fuel) :
    Cur.readBytes src fuel cur = .ok ((bytes t).drop o) := by
  induction fuel generalizing o cur with
  | zero => omega
  | succ fuel ih =>
    obtain ⟨cur', h1, h2⟩ := advanceByte_spec hs h
    by_cases hlt : o < blen t
    · have hl : o < (bytes t).length := by rw [length_bytes]; exact hlt
      rw [if_pos hlt] at h2
      have := ih (o + 1) h2 (by omega)
      rw [List.getElem?_eq_getElem hl] at h1
      simp only [Cur.readBytes, h1, run_bind_ok, this, run_pure]
      rw [List.drop_eq_getElem_cons hl]
    · have hb : (bytes t)[o]? = none := by simp [length_bytes]; omega
      rw [hb] at h1
      simp [Cur.readBytes, h1]
      rw [length_bytes]; omega

/-! ### chunk lengths of a fresh rope -/

theorem backoff_near (text : Str) (start e : Nat) (hb : isBoundary text start = true) (he : start ≤ e)
    (hle : e < blen text) : e ≤ backoff text start e + 3 := by
  obtain ⟨h1, h2, h3, h4⟩ := backoff_spec text start hb e he
  -- the character containing byte `e` starts at most three bytes before
  obtain ⟨l, r, ht, hl⟩ := isBoundary_iff.mp h3
  cases r with
  | nil => rw [ht] at hle; simp at hle; omega
  | cons c r =>
    have hc4 := utf8Size_le_four c
    have hcp := utf8Size_pos c
    by_cases hlt : e < backoff text start e + c.utf8Size
    · omega
    · exfalso
      have := h4 (blen (l ++ [c])) (by rw [ht, show l ++ c :: r = (l ++ [c]) ++ r by simp]
                                       exact isBoundary_append _ _)
        (by simp; omega) (by simp; omega)
      simp at this; omega

theorem chunkifyLoop_long (size : Nat) (hsz : 4 ≤ size) (text : Str) (fuel start : Nat) (cs : List Str)
    (hb : isBoundary text start = true) (h : chunkifyLoop size text fuel start = .ok cs) :
    ∀ pre c post, cs = pre ++ c :: post → post ≠ [] → size ≤ blen c + 3 := by
  induction fuel generalizing start cs with
  | zero =>
    unfold chunkifyLoop at h
    split at h
    · simp at h
    · simp at h; subst h; intro pre c post he; simp at he
  | succ fuel ih =>
    unfold chunkifyLoop at h
    split at h
    · rename_i hlt
      obtain ⟨h1, h2, h3⟩ := chunkEndAt_spec (size := size) text hb hlt
      obtain ⟨l', m, r', he, hl', hm, hg⟩ := strGet_of_boundaries hb h3 (by omega)
      simp only [hg] at h
      cases hr : chunkifyLoop size text fuel (chunkEndAt size text start) with
      | error e => rw [hr] at h; simp at h
      | ok rest =>
        rw [hr] at h; simp at h; subst h
        intro pre c post heq hpost
        cases pre with
        | cons p pre =>
          simp at heq
          exact ih _ rest h3 hr pre c post heq.2 hpost
        | nil =>
          simp at heq
          obtain ⟨rfl, rfl⟩ := heq
          -- there is a further chunk, so the end is not the end of the text
          have hend : chunkEndAt size text start < blen text := by
            by_cases hh : chunkEndAt size text start < blen text
            · exact hh
            · exfalso
              apply hpost
              unfold chunkifyLoop at hr
              rw [if_neg hh] at hr
              simpa using hr.symm
          have hbk := backoff_spec text start hb (min (start + size) (blen text)) (by omega)
          unfold chunkEndAt at hend hm
          simp only [] at hend hm
          split at hend
          · omega
          · rename_i hne
            rw [if_neg hne] at hm
            by_cases hmin : start + size < blen text
            · have hmm : min (start + size) (blen text) = start + size := by omega
              rw [hmm] at hm
              have := backoff_near text start (start + size) hb (by omega) hmin
              omega
            · exfalso
              have hmm : min (start + size) (blen text) = blen text := by omega
              rw [hmm] at hend hbk
              have := hbk.2.2.2 (blen text) (isBoundary_end text) (Nat.le_refl _) (by omega)
              omega
    · simp at h; subst h; intro pre c post he; simp at he

/-- Every chunk of a fresh rope but the last has at least 4093 bytes. -/
theorem chunkify_long (text : Str) (cs : List Str) (h : chunkify text = .ok cs) :
    ∀ pre c post, cs = pre ++ c :: post → post ≠ [] → 4093 ≤ blen c := by
  intro pre c post he hp
  unfold chunkify at h
  split at h
  · simp at h; subst h; simp at he
  · have := chunkifyLoop_long CHUNK_SIZE (by decide) text _ 0 cs (isBoundary_zero text) h pre c post he hp
    simp [CHUNK_SIZE] at this; omega

theorem Table.WF.longChunks {t : Table} (h : t.WF) {n : Nat}
    (hl : ∀ pre c post, t.chunks = pre ++ c :: post → post ≠ [] → n ≤ blen c) :
    LongChunks t.source t.text n := by
  intro o c c' ho _ hc hlt hc'
  obtain ⟨pre, d, post, he, hd, hle, hlt'⟩ := h.chunkAt_spec (x := c.stop) (by rw [h.len_eq]; exact hlt)
  have e : t.chunkAt c.stop = .ok c' := hc'
  rw [hd] at e; cases e
  by_cases hp : post = []
  · right
    subst hp
    simp [Table.text, he, Chunk.stop]
  · left; exact hl pre d post he hp

theorem cutsAligned_ascii {src : Source} {t : Str} (hs : Lawful src t) (h : ∀ c ∈ t, c.toNat < 128)
    (n : Nat) : CutsAligned src t n := by
  intro o c ho hb hc hlt hn
  have h1 : ∀ c ∈ t, c.utf8Size = 1 := fun c hc => utf8Size_ascii (by have := h c hc; omega)
  have hbt := blen_ascii h1
  refine ⟨t.take (c.stop - n), t.drop (c.stop - n), by simp, ?_⟩
  rw [blen_ascii (fun c hc => h1 c (List.mem_of_mem_take hc))]
  simp; omega

end Oaks
