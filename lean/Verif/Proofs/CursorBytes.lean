import Verif.Proofs.Search

/-! Byte-wise reading, and the byte classes of the skipping methods at character level. -/

namespace Oaks
open Spec

/-- A cursor at any byte offset whose cached chunk covers it, or that sits on a boundary. -/
structure ByteAt (G : Chunk → Prop) (t : Str) (o : Nat) (cur : Cur) : Prop where
  offset : cur.offset = o
  le : o ≤ blen t
  chunk : IsSlice t cur.chunk.start cur.chunk.stop cur.chunk.text
  near : (cur.chunk.start ≤ o ∧ o ≤ cur.chunk.stop) ∨ Boundary t o
  good : G cur.chunk

variable {G : Chunk → Prop}

theorem CurAt.byteAt {t l r : Str} {cur : Cur} (h : CurAt G t l r cur) : ByteAt G t (blen l) cur :=
  ⟨h.offset, by rw [h.text]; simp, h.chunk, Or.inr ⟨l, r, h.text, rfl⟩, h.good⟩

theorem slice_byte {t m : Str} {a b : Nat} (h : IsSlice t a b m) {o : Nat} (h1 : a ≤ o) (h2 : o < b) :
    (bytes m)[o - a]? = (bytes t)[o]? := by
  obtain ⟨l, r, rfl, rfl, rfl⟩ := h
  rw [bytes_append, bytes_append, List.getElem?_append_left (by simp [length_bytes]; omega),
    List.getElem?_append_right (by simp [length_bytes]; omega), length_bytes]

theorem ensureChunk_byte {src : Source} {t : Str} (hs : Supply src t G) {o : Nat} {cur : Cur}
    (h : ByteAt G t o cur) : ∃ cur', cur.ensureChunk src = .ok cur' ∧ ByteAt G t o cur' ∧
      cur'.chunk.start ≤ o ∧ o ≤ cur'.chunk.stop ∧ (o < blen t → o < cur'.chunk.stop) := by
  have hb : (cur.chunk.start ≤ o ∧ o ≤ cur.chunk.stop ∧ (o < blen t → o < cur.chunk.stop)) ∨
      Boundary t o := by
    rcases h.near with ⟨h1, h2⟩ | h
    · by_cases ho : o = cur.chunk.stop
      · right
        obtain ⟨l, r, e1, e2, e3⟩ := h.chunk
        exact ⟨l ++ cur.chunk.text, r, e1, by simp; omega⟩
      · exact Or.inl ⟨h1, h2, fun _ => by omega⟩
    · exact Or.inr h
  have hnot : ¬ o > src.length := by have := hs.length_eq; have := h.le; omega
  rcases hb with ⟨h1, h2, h3⟩ | hb
  · refine ⟨cur, ?_, h, h1, h2, h3⟩
    unfold Cur.ensureChunk
    simp only [h.offset, hnot, if_false]
    rw [if_neg]
    · have := h.offset
      cases cur; simp at this; subst this; rfl
    · have := hs.length_eq
      simp only [Bool.or_eq_true, Bool.and_eq_true, decide_eq_true_eq]
      rintro ((h' | h') | ⟨h', h''⟩)
      · omega
      · omega
      · have := h3 (by omega); omega
  · obtain ⟨l, r, ht, rfl⟩ := hb
    obtain ⟨cur', k, m, r', e1, e2⟩ := ensureChunk_spec hs ⟨ht, h.offset, h.chunk, h.good⟩
    have hst := e2.stop
    have hp := e2.pos
    simp at hst
    refine ⟨cur', e1, e2.toCurAt.byteAt, by omega, by omega, ?_⟩
    intro hlt
    have : r ≠ [] := by rintro rfl; rw [ht] at hlt; simp at hlt
    have := blen_pos (e2.nonempty this)
    omega

theorem peekByte_spec {src : Source} {t : Str} (hs : Supply src t G) {o : Nat} {cur : Cur}
    (h : ByteAt G t o cur) : ∃ cur', cur.peekByte src = .ok (cur', (bytes t)[o]?) ∧ ByteAt G t o cur' ∧
      cur'.chunk.start ≤ o ∧ o ≤ cur'.chunk.stop ∧ (o < blen t → o < cur'.chunk.stop) := by
  obtain ⟨cur', e1, e2, e3, e4, e5⟩ := ensureChunk_byte hs h
  have hslow : ∃ cur', (do
      let cur ← cur.ensureChunk src
      let rel ← checkedSub cur.offset cur.chunk.start
      pure (cur, (bytes cur.chunk.text)[rel]?) : Run (Cur × Option UInt8)) = .ok (cur', (bytes t)[o]?) ∧
        ByteAt G t o cur' ∧ cur'.chunk.start ≤ o ∧ o ≤ cur'.chunk.stop ∧ (o < blen t → o < cur'.chunk.stop) := by
    refine ⟨cur', ?_, e2, e3, e4, e5⟩
    simp only [e1, run_bind_ok, e2.offset, checkedSub_ok e3, run_pure]
    by_cases hlt : o < blen t
    · rw [slice_byte e2.chunk e3 (e5 hlt)]
    · have : (bytes t)[o]? = none := by simp [length_bytes]; omega
      rw [this]
      have : (bytes cur'.chunk.text)[o - cur'.chunk.start]? = none := by
        obtain ⟨l, r, q1, q2, q3⟩ := e2.chunk
        have := congrArg blen q1
        simp at this
        simp [length_bytes]; omega
      rw [this]
  unfold Cur.peekByte
  by_cases h1 : cur.offset ≥ cur.chunk.start
  · rw [if_pos h1]
    cases hb : (bytes cur.chunk.text)[cur.offset - cur.chunk.start]? with
    | none => simp only [hb]; exact hslow
    | some b =>
      simp only [hb]
      have ho := h.offset
      have hlt : cur.offset - cur.chunk.start < blen cur.chunk.text := by
        have := (List.getElem?_eq_some_iff.mp hb).1
        rwa [length_bytes] at this
      have hstop : o < cur.chunk.stop := by unfold Chunk.stop; omega
      rw [ho] at hb h1
      rw [slice_byte h.chunk h1 hstop] at hb
      exact ⟨cur, by rw [hb]; rfl, h, h1, by omega, fun _ => hstop⟩
  · rw [if_neg h1]; exact hslow

theorem advanceByte_spec {src : Source} {t : Str} (hs : Supply src t G) {o : Nat} {cur : Cur}
    (h : ByteAt G t o cur) :
    ∃ cur', cur.advanceByte src = .ok (cur', (bytes t)[o]?) ∧
      ByteAt G t (if o < blen t then o + 1 else o) cur' := by
  obtain ⟨cur', e1, e2, e3, e4, e5⟩ := peekByte_spec hs h
  by_cases hlt : o < blen t
  · have hb : (bytes t)[o]? = some ((bytes t)[o]'(by simpa [length_bytes] using hlt)) :=
      List.getElem?_eq_getElem _
    rw [hb] at e1
    refine ⟨{ cur' with offset := cur'.offset + 1 }, ?_, ?_⟩
    · rw [hb]; simp [Cur.advanceByte, e1]
    · rw [if_pos hlt]
      have := e5 hlt
      exact ⟨by simp [e2.offset], by omega, e2.chunk, Or.inl ⟨by simp; omega, by simp; omega⟩, e2.good⟩
  · have hb : (bytes t)[o]? = none := by simp [length_bytes]; omega
    rw [hb] at e1 ⊢
    rw [if_neg hlt]
    exact ⟨cur', by simp [Cur.advanceByte, e1], e2⟩

end Oaks
