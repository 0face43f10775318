import Verif.Proofs.Edits
import Verif.Spec.Source

namespace Oaks
open Spec

theorem strSource_lawful (t : Str) : Lawful (strSource t) t where
  length_eq := rfl
  chunk := by
    rintro o ho ⟨l, r, rfl, rfl⟩
    refine ⟨⟨blen l, r⟩, ?_, ⟨l, [], by simp, rfl, rfl⟩, Nat.le_refl _, ?_⟩
    · simp only [strSource, strChunkAt]
      rw [if_neg (by omega), strFrom_append]
    · simp [Chunk.stop] at ho ⊢; omega
  past := by
    intro o ho
    simp only [strSource, strChunkAt]; rw [if_pos ho]
  textIn := by
    rintro a b m ⟨l, r, rfl, rfl, rfl⟩
    simp only [strSource, strGet_ok]; rfl

theorem textSource_lawful (t : Str) : Lawful (textSource t) t where
  length_eq := rfl
  chunk := by
    rintro o ho ⟨l, r, rfl, rfl⟩
    refine ⟨⟨blen l, r⟩, ?_, ⟨l, [], by simp, rfl, rfl⟩, Nat.le_refl _, ?_⟩
    · simp only [textSource, textChunkAt]
      rw [if_neg (by omega), strFrom_append]; rfl
    · simp [Chunk.stop] at ho ⊢; omega
  past := by
    intro o ho
    simp only [textSource, textChunkAt]; rw [if_pos ho]
  textIn := by
    rintro a b m ⟨l, r, rfl, rfl, rfl⟩
    simp only [textSource, strGet_ok]; rfl

theorem Table.WF.lawful {t : Table} (h : t.WF) : Lawful t.source t.text where
  length_eq := h.len_eq
  chunk := by
    intro o ho _
    obtain ⟨pre, c, post, he, hc, hle, hlt⟩ := h.chunkAt_spec (x := o) (by rw [h.len_eq]; exact ho)
    exact ⟨_, hc, ⟨pre.flatten, post.flatten, by simp [Table.text, he], rfl, rfl⟩, hle, hlt⟩
  past := by
    intro o ho
    have := h.len_eq
    simp only [Table.source, Table.chunkAt]; rw [if_pos (by omega), this]
  textIn := by
    rintro a b m ⟨l, r, ht, rfl, rfl⟩
    exact h.textIn_spec ht

theorem Table.WF.bufferLawful {t : Table} (h : t.WF) : Lawful t.bufferSource t.text where
  length_eq := h.len_eq
  chunk := by
    intro o ho hb
    obtain ⟨c, h1, h2⟩ := h.lawful.chunk o ho hb
    exact ⟨c, by rw [← h1]; exact h.bufferChunkAt_eq o, h2⟩
  past := by
    intro o ho
    rw [← h.lawful.past o ho]; exact h.bufferChunkAt_eq o
  textIn := h.lawful.textIn

end Oaks
