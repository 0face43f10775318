import Verif.Proofs.Lawful
import Verif.Model.SourceRuns

/-! # C02, C03, C04, C05, C07, C08: sources, ropes, edits -/

namespace Oaks.Props
open Oaks Oaks.Spec

/-! ## C02 buffers hold exactly the text put into them -/

/-- A rope buffer created from any text is a lawful source of that text, through the buffer and
through its snapshot, and creating it never panics. -/
theorem C02_rope_new (text : Str) :
    ∃ t, ropeNew text = .ok t ∧ Lawful t.bufferSource text ∧ Lawful t.source text := by
  obtain ⟨t, h1, h2, h3⟩ := ropeNew_spec text
  exact ⟨t, h1, h3 ▸ h2.bufferLawful, h3 ▸ h2.lawful⟩

/-- After any sequence of pushes a chunked buffer is a lawful source of the concatenation. -/
theorem C02_chunked_push (pushes : List Str) :
    ∃ t, chunkedRun chunkedNew pushes = .ok t ∧ Lawful t.source pushes.flatten := by
  suffices h : ∀ (ps : List Str) (t : Table), t.WF →
      ∃ t', chunkedRun t ps = .ok t' ∧ t'.WF ∧ t'.text = t.text ++ ps.flatten by
    obtain ⟨t, h1, h2, h3⟩ := h pushes chunkedNew chunkedNew_WF
    exact ⟨t, h1, by have := h2.lawful; rwa [h3] at this⟩
  intro ps
  induction ps with
  | nil => intro t h; exact ⟨t, rfl, h, by simp⟩
  | cons p ps ih =>
    intro t h
    obtain ⟨t1, h1, h2, h3⟩ := chunkedPush_spec h p
    obtain ⟨t2, g1, g2, g3⟩ := ih t1 h2
    exact ⟨t2, by simp [chunkedRun, h1, g1], g2, by simp [g3, h3]⟩

/-- Chunks are non-empty, at most 4096 bytes long, and concatenate to the text. -/
theorem C02_chunk_sizes (text : Str) :
    ∃ cs, chunkify text = .ok cs ∧ cs.flatten = text ∧
      ∀ c ∈ cs, c ≠ [] ∧ blen c ≤ 4096 := by
  obtain ⟨cs, h1, h2, h3, h4⟩ := chunkify_spec text
  exact ⟨cs, h1, h3, fun c hc => ⟨h2 c hc, h4 c hc⟩⟩

example : ∃ t, chunkedRun chunkedNew ["añ".toList, "".toList, "€".toList] = .ok t ∧
    Lawful t.source "añ€".toList := C02_chunked_push _

/-! ## C04 text extraction -/

/-- Boundary-aligned in-range extraction returns the text of the range, for every source kind. -/
theorem C04_text_in (text : Str) (a b : Nat) (m : Str) (h : IsSlice text a b m) :
    (strSource text).textIn a b = .ok m ∧ (textSource text).textIn a b = .ok m ∧
      (∀ t, ropeNew text = .ok t → t.source.textIn a b = .ok m ∧ t.bufferSource.textIn a b = .ok m) ∧
      (∀ pushes t, pushes.flatten = text → chunkedRun chunkedNew pushes = .ok t →
        t.source.textIn a b = .ok m) := by
  refine ⟨(strSource_lawful text).textIn a b m h, (textSource_lawful text).textIn a b m h, ?_, ?_⟩
  · intro t ht
    obtain ⟨t', h1, h2, h3⟩ := C02_rope_new text
    rw [ht] at h1; cases h1
    exact ⟨h3.textIn a b m h, h2.textIn a b m h⟩
  · intro pushes t hp ht
    obtain ⟨t', h1, h2⟩ := C02_chunked_push pushes
    rw [ht] at h1; cases h1
    rw [hp] at h2
    exact h2.textIn a b m h

/-- Disagreement recorded: for a range reaching past the end the kinds differ. `SourceText`
returns nothing, a chunked source (and a rope) returns the text up to the end. -/
theorem C04_past_end_differs :
    (textSource "ab".toList).textIn 0 5 = .ok [] ∧
    (chunkedRun chunkedNew ["ab".toList] >>= fun t => t.source.textIn 0 5) = .ok "ab".toList := by
  refine ⟨by decide, ?_⟩
  obtain ⟨t, h1, h2⟩ := C02_chunked_push ["ab".toList]
  rw [h1]
  have : textInChunks t.chunks t.starts t.len 0 5 = textInChunks t.chunks t.starts t.len 0 2 := by
    have hl : t.len = 2 := h2.length_eq
    simp [textInChunks, hl]
  show textInChunks t.chunks t.starts t.len 0 5 = _
  rw [this]
  exact h2.textIn 0 2 _ ⟨[], [], by simp, by simp, by decide⟩

example : IsSlice "añ€b".toList 1 6 "ñ€".toList := ⟨['a'], ['b'], by decide, by decide, by decide⟩

/-! ## C05 chunk lookup and chunk-wise reading -/

/-- Every source kind meets the chunk contract at every boundary offset (see `Lawful.chunk`). -/
theorem C05_chunk_at (text : Str) :
    Lawful (strSource text) text ∧ Lawful (textSource text) text ∧
      (∀ t, ropeNew text = .ok t → Lawful t.source text ∧ Lawful t.bufferSource text) ∧
      (∀ pushes t, pushes.flatten = text → chunkedRun chunkedNew pushes = .ok t →
        Lawful t.source text) := by
  refine ⟨strSource_lawful text, textSource_lawful text, ?_, ?_⟩
  · intro t ht
    obtain ⟨t', h1, h2, h3⟩ := C02_rope_new text
    rw [ht] at h1; cases h1; exact ⟨h3, h2⟩
  · intro pushes t hp ht
    obtain ⟨t', h1, h2⟩ := C02_chunked_push pushes
    rw [ht] at h1; cases h1
    exact hp ▸ h2

/-- Reading any lawful source chunk by chunk from any boundary terminates within as many steps as
there are bytes left and yields exactly the rest of the text. -/
theorem C05_read_chunks {src : Source} {t : Str} (h : Lawful src t) (l r : Str) (ht : t = l ++ r)
    (fuel : Nat) (hf : blen r ≤ fuel) : readChunks src fuel (blen l) = .ok r := by
  induction fuel generalizing l r with
  | zero =>
    have : r = [] := blen_eq_zero.mp (by omega)
    subst this
    unfold readChunks
    simp [h.length_eq, ht]
  | succ fuel ih =>
    unfold readChunks
    by_cases hr : r = []
    · subst hr; simp [h.length_eq, ht]
    · have hpos := blen_pos hr
      have hlt : blen l < src.length := by rw [h.length_eq, ht]; simp; omega
      rw [if_pos hlt]
      obtain ⟨c, hc, ⟨cl, cr, hct, hcs, hce⟩, hle, hlt'⟩ :=
        h.chunk (blen l) (by rw [ht]; simp; omega) ⟨l, r, ht, rfl⟩
      rw [ht] at hct
      obtain ⟨k, hk, hk2⟩ := append_split_of_le (a := cl) (b := c.text ++ cr) (c := l) (d := r)
        (by rw [hct]; simp) (by omega)
      have hbl : blen l = blen cl + blen k := by rw [hk]; simp
      obtain ⟨m, hm, hm2⟩ := append_split_of_le hk2.symm (by unfold Chunk.stop at *; omega)
      have hsl : c.sliceFrom (blen l) = m := by
        unfold Chunk.sliceFrom
        by_cases h0 : blen l ≤ c.start
        · have : k = [] := blen_eq_zero.mp (by omega)
          rw [if_pos h0, hm, this]; rfl
        · rw [if_neg h0, show blen l - c.start = blen k by omega, hm, strFrom_append]; rfl
      have hstop : c.stop = blen (l ++ m) := by
        have : blen c.text = blen k + blen m := by rw [hm]; simp
        unfold Chunk.stop; simp; omega
      have := ih (l ++ m) cr (by rw [ht, hm2]; simp) (by
        rw [hm2] at hf; simp at hf
        have : 0 < blen m := by
          have := hstop; simp at this; omega
        omega)
      simp only [hc, run_bind_ok, hstop, this, hsl, run_pure]
      rw [hm2]

example : ∃ t, ropeNew "añ€".toList = .ok t ∧ readChunks t.source 6 0 = .ok "añ€".toList := by
  obtain ⟨t, h1, _, h2⟩ := C02_rope_new "añ€".toList
  exact ⟨t, h1, C05_read_chunks h2 [] _ rfl 6 (by decide)⟩

/-! ## C07 batches of edits -/

/-- `SourceText`: applying a batch gives the simultaneous splice, and everything outside the
reported range is unchanged. -/
theorem C07_text_edits_partial (old new : Str) (edits : List Edit) (h : Batch old edits new) :
    ∃ a b, textApplyEdits old edits = .ok (new, (a, b)) ∧ ChangedWithin old new a b := by
  obtain ⟨⟨a, b⟩, h1, h2⟩ := textApplyEdits_spec h
  obtain ⟨a', b', h3, h4⟩ := editRange_spec h
  rw [h1] at h3; cases h3
  exact ⟨a, b, h2, h4⟩

/-- Rope: the same, from a rope created from the old text. -/
theorem C07_rope_edits_partial (old new : Str) (edits : List Edit) (h : Batch old edits new) :
    ∃ t t' a b, ropeNew old = .ok t ∧ t.applyEdits edits = .ok (t', (a, b)) ∧
      Lawful t'.source new ∧ Lawful t'.bufferSource new ∧ ChangedWithin old new a b := by
  obtain ⟨t, h1, h2, h3⟩ := ropeNew_spec old
  rw [← h3] at h
  obtain ⟨t', ⟨a, b⟩, hr, ha, hw, ht⟩ := Table.applyEdits_spec h2 h
  obtain ⟨a', b', h5, h6⟩ := editRange_spec h
  rw [hr] at h5; cases h5
  exact ⟨t, t', a, b, h1, ha, ht ▸ hw.lawful, ht ▸ hw.bufferLawful, h3 ▸ h6⟩

/-- Every set of boundary-aligned, in-range, pairwise disjoint edits with different starts, listed
in any order, is such a batch: the hypotheses above cover all valid edits. -/
theorem C07_valid_edits_are_batches (old : Str) (edits : List Edit) (h : ValidEdits old edits) :
    ∃ new, Batch old edits new := batch_of_valid h

/-- Disagreement recorded: a replacement and an insertion at the same position, with the
replacement listed first, are non-overlapping, but the inserted text is overwritten. The
simultaneous splice of the same two edits would be "YYXXc". -/
theorem C07_same_start_overwrites :
    textApplyEdits "abc".toList [⟨0, 2, "XX".toList⟩, ⟨0, 0, "YY".toList⟩] =
      .ok ("XXabc".toList, (0, 2)) ∧
    Spliced 0 "abc".toList [⟨0, 0, "YY".toList⟩, ⟨0, 2, "XX".toList⟩] "YYXXc".toList := by
  refine ⟨by decide, ?_⟩
  exact .cons (gap := []) (del := []) (rest := "abc".toList) (new := "XXc".toList) (by decide) (by decide)
    (.cons (gap := []) (del := "ab".toList) (rest := ['c']) (new := ['c']) (by decide) (by decide)
      (.nil _ _))

/-- Non-vacuity: two edits, listed out of order, around a multi-byte character. -/
example : Batch "aé€b".toList [⟨6, 7, "ZZ".toList⟩, ⟨1, 3, "".toList⟩] "a€ZZ".toList := by
  refine ⟨[⟨1, 3, "".toList⟩, ⟨6, 7, "ZZ".toList⟩], ?_, ?_⟩
  · intro p
    by_cases h1 : p = 1
    · subst h1; decide
    · by_cases h6 : p = 6
      · subst h6; decide
      · have e1 : (1 == p) = false := by simpa using fun h => h1 h.symm
        have e6 : (6 == p) = false := by simpa using fun h => h6 h.symm
        simp [e1, e6]
  · exact .cons (gap := ['a']) (del := ['é']) (rest := "€b".toList) (new := "€ZZ".toList)
      (by decide) (by decide)
      (.cons (gap := ['€']) (del := ['b']) (rest := []) (new := []) (by decide) (by decide) (.nil _ _))

/-! ## C03, C08 histories of batches -/

/-- C03: after any history of batches of edits, the rope is a lawful source of the text obtained by
performing the same replacements on a plain string; no step panics. -/
theorem C03_rope_refines_string (old new : Str) (bs : List (List Edit)) (h : History old bs new) :
    ∃ t t' rs, ropeNew old = .ok t ∧ ropeRun t bs = .ok (t', rs) ∧
      Lawful t'.source new ∧ Lawful t'.bufferSource new := by
  obtain ⟨t, h1, h2, h3⟩ := ropeNew_spec old
  suffices hh : ∀ (t : Table), t.WF → t.text = old →
      ∃ t' rs, ropeRun t bs = .ok (t', rs) ∧ t'.WF ∧ t'.text = new by
    obtain ⟨t', rs, g1, g2, g3⟩ := hh t h2 h3
    exact ⟨t, t', rs, h1, g1, g3 ▸ g2.lawful, g3 ▸ g2.bufferLawful⟩
  clear h1 h2 h3
  induction h with
  | nil => intro t h1 h2; exact ⟨t, [], rfl, h1, h2⟩
  | cons hb _ ih =>
    intro t hw ht
    rw [← ht] at hb
    obtain ⟨t1, r, _, ha, hw1, ht1⟩ := Table.applyEdits_spec hw hb
    obtain ⟨t2, rs, g1, g2, g3⟩ := ih t1 hw1 ht1
    exact ⟨t2, r :: rs, by simp [ropeRun, ha, g1], g2, g3⟩

/-- C08: over any history of batches the rope and the `SourceText` hold the same text and report
the same ranges after every batch. -/
theorem C08_rope_text_agree (old new : Str) (bs : List (List Edit)) (h : History old bs new) :
    ∃ t t' rs, ropeNew old = .ok t ∧ ropeRun t bs = .ok (t', rs) ∧ textRun old bs = .ok (new, rs) ∧
      t'.bufferSource.textIn 0 (blen new) = .ok new := by
  obtain ⟨t, h1, h2, h3⟩ := ropeNew_spec old
  suffices hh : ∀ (t : Table), t.WF → t.text = old →
      ∃ t' rs, ropeRun t bs = .ok (t', rs) ∧ textRun old bs = .ok (new, rs) ∧ t'.WF ∧ t'.text = new by
    obtain ⟨t', rs, g1, g2, g3, g4⟩ := hh t h2 h3
    refine ⟨t, t', rs, h1, g1, g2, g3.bufferLawful.textIn _ _ _ ⟨[], [], by simp [g4], rfl, by simp⟩⟩
  clear h1 h2 h3
  induction h with
  | nil => intro t h1 h2; exact ⟨t, [], rfl, rfl, h1, h2⟩
  | @cons s u v b bs hb _ ih =>
    intro t hw ht
    obtain ⟨r', hr', ht'⟩ := textApplyEdits_spec hb
    rw [← ht] at hb
    obtain ⟨t1, r, hr, ha, hw1, ht1⟩ := Table.applyEdits_spec hw hb
    rw [ht, hr'] at hr; cases hr
    obtain ⟨t2, rs, g1, g2, g3, g4⟩ := ih t1 hw1 ht1
    exact ⟨t2, r' :: rs, by simp [ropeRun, ha, g1], by simp [textRun, ht', g2], g3, g4⟩

/-- Non-vacuity: a history of two batches. -/
example : History "ab".toList [[⟨1, 2, "é".toList⟩], [⟨0, 1, "".toList⟩, ⟨3, 3, "x".toList⟩]] "éx".toList := by
  refine .cons (t := "aé".toList) ?_ (.cons (t := "éx".toList) ?_ (.nil _))
  · exact ⟨_, fun _ => rfl, .cons (gap := ['a']) (del := ['b']) (rest := []) (new := [])
      (by decide) (by decide) (.nil _ _)⟩
  · exact ⟨_, fun _ => rfl, .cons (gap := []) (del := ['a']) (rest := ['é']) (new := "éx".toList)
      (by decide) (by decide) (.cons (gap := ['é']) (del := []) (rest := []) (new := [])
        (by decide) (by decide) (.nil _ _))⟩

end Oaks.Props
