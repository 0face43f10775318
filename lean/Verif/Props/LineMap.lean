import Verif.Proofs.LineMap

/-! # C31, C32: line maps -/

namespace Oaks.Props
open Oaks Oaks.Spec

/-! ## C31 -/

/-- The line map of any lawful source is computed without panicking within as many rounds as there
are bytes; it has one line more than the text has newlines, and line `n` starts and ends where line
`n` of the text does. Lines past the last have neither start nor end. -/
theorem C31_lines {src : Source} {t : Str} (h : Lawful src t) :
    ∃ m, LineMap.fromSource src src.length = .ok m ∧ m.lineCount = t.count '\n' + 1 ∧
      (∀ n, n < m.lineCount → ∃ a ln r, IsLine t n a ln r) ∧
      (∀ n a ln r, IsLine t n a ln r →
        m.lineStart n = some (blen a) ∧ m.lineEnd n = some (blen a + blen ln)) ∧
      (∀ n, m.lineCount ≤ n → m.lineStart n = none ∧ m.lineEnd n = none) := by
  have hc : (LineMap.mk (0 :: nls 0 t) (blen t)).lineCount = t.count '\n' + 1 := by
    simp [LineMap.lineCount, nls_length]
  refine ⟨_, fromSource_spec h, hc, ?_, ?_, ?_⟩
  · intro n hn
    exact isLine_exists t n (by omega)
  · intro n a ln r hl
    exact ⟨lineStart_spec hl, lineEnd_spec hl⟩
  · intro n hn
    have : (0 :: nls 0 t)[n]? = none := List.getElem?_eq_none hn
    simp [LineMap.lineStart, LineMap.lineEnd, this]

/-- The lines tile the text: the first starts at 0, each ends where the next starts, the last ends
at the end of the text. -/
theorem C31_tiles {src : Source} {t : Str} (h : Lawful src t) :
    ∃ m, LineMap.fromSource src src.length = .ok m ∧ m.lineStart 0 = some 0 ∧
      (∀ n, n + 1 < m.lineCount → m.lineEnd n = m.lineStart (n + 1)) ∧
      m.lineEnd (m.lineCount - 1) = some (blen t) ∧
      (∀ n s e, m.lineStart n = some s → m.lineEnd n = some e → s ≤ e ∧ (n + 1 < m.lineCount → s < e)) := by
  obtain ⟨m, h1, h2, h3, h4, h5⟩ := C31_lines h
  have hm : m = ⟨0 :: nls 0 t, blen t⟩ := by rw [fromSource_spec h] at h1; exact (Except.ok.inj h1).symm
  have key : ∀ n a ln r, IsLine t n a ln r → n + 1 < m.lineCount →
      ∃ b, ln = b ++ ['\n'] := by
    intro n a ln r hl hn
    rcases hl.last with ⟨g1, g2⟩ | ⟨b, g1, _⟩
    · have := hl.number
      rw [h2, hl.text, g2] at hn
      simp [List.count_append, List.count_eq_zero.2 g1] at hn
      omega
    · exact ⟨b, g1⟩
  refine ⟨m, h1, ?_, ?_, ?_, ?_⟩
  · rw [hm]; rfl
  · intro n hn
    obtain ⟨a, ln, r, hl⟩ := h3 n (by omega)
    obtain ⟨b, hb⟩ := key n a ln r hl hn
    obtain ⟨ln', r', hr', hlast⟩ := line_split r
    have hb0 : List.count '\n' b = 0 := by
      rcases hl.last with ⟨g1, _⟩ | ⟨b', g1, g2⟩
      · rw [hb] at g1; simp at g1
      · rw [hb] at g1
        rw [List.append_cancel_right g1]; exact List.count_eq_zero.2 g2
    have hl' : IsLine t (n + 1) (a ++ ln) ln' r' :=
      ⟨by rw [hl.text, hr']; simp, .inr ⟨a ++ b, by rw [hb]; simp⟩,
        by rw [List.count_append, hl.number, hb]; simp [List.count_append, hb0], hlast⟩
    rw [(h4 n a ln r hl).2, (h4 _ _ _ _ hl').1, blen_append]
  · obtain ⟨a, ln, r, hl⟩ := h3 (m.lineCount - 1) (by omega)
    rw [(h4 _ _ _ _ hl).2, hl.text]
    have hr : r = [] := by
      rcases hl.last with ⟨_, g⟩ | ⟨b, g1, _⟩
      · exact g
      · have := hl.number
        rw [h2, hl.text, g1] at this
        simp [List.count_append] at this
    simp [hr]
  · intro n s e hs he
    have hn : n < m.lineCount := by
      rcases Nat.lt_or_ge n m.lineCount with g | g
      · exact g
      · rw [(h5 n g).1] at hs; cases hs
    obtain ⟨a, ln, r, hl⟩ := h3 n hn
    rw [(h4 _ _ _ _ hl).1] at hs
    rw [(h4 _ _ _ _ hl).2] at he
    cases hs; cases he
    refine ⟨by omega, fun g => ?_⟩
    obtain ⟨b, hb⟩ := key n a ln r hl g
    have := blen_pos (s := ln) (by rw [hb]; simp)
    omega

/-- The map depends on the text only, not on the source kind or the chunks. -/
theorem C31_layout {src src' : Source} {t : Str} (h : Lawful src t) (h' : Lawful src' t) :
    LineMap.fromSource src src.length = LineMap.fromSource src' src'.length := by
  rw [fromSource_spec h, fromSource_spec h']

example : IsLine "añ\nb\n".toList 1 "añ\n".toList "b\n".toList [] :=
  ⟨by decide, .inr ⟨"añ".toList, by decide⟩, by decide, .inr ⟨['b'], by decide, by decide⟩⟩
example : LineMap.fromSource (textSource "añ\nb\n".toList) 6 = .ok ⟨[0, 4, 6], 6⟩ := by decide

/-! ## C32 -/

/-- In a text of less than 4 GiB, a boundary offset converts to the number of newlines before it and
the number of UTF-16 units since the start of its line (`a` is everything up to that start). Every
boundary offset splits like this. -/
theorem C32_offset_to_line_col {src : Source} {t : Str} (h : Lawful src t) (hbig : blen t < 2 ^ 32)
    (l r : Str) (ht : t = l ++ r) :
    ∃ m a b, LineMap.fromSource src src.length = .ok m ∧ l = a ++ b ∧ LineBegin a ∧ '\n' ∉ b ∧
      m.offsetToLineCol src (blen l) = .ok (l.count '\n', utf16Count b) := by
  obtain ⟨a, b, rfl, ha, hb⟩ := lineBegin_split l
  refine ⟨_, a, b, fromSource_spec h, rfl, ha, hb, ?_⟩
  rw [offsetToLineCol_spec h ht ha hb]
  have hc : a.count '\n' ≤ blen a := Nat.le_trans List.count_le_length (length_le_blen a)
  have hu := utf16Count_le b
  have hl : blen t = blen a + blen b + blen r := by rw [ht]; simp; omega
  rw [Nat.mod_eq_of_lt (by omega), Nat.mod_eq_of_lt (by omega), List.count_append,
    List.count_eq_zero.2 hb]
  rfl

/-- An offset past the end converts like the end. -/
theorem C32_past_end {src : Source} {t : Str} (h : Lawful src t) (o : Nat) (ho : blen t ≤ o) :
    ∃ m, LineMap.fromSource src src.length = .ok m ∧
      m.offsetToLineCol src o = m.offsetToLineCol src (blen t) := by
  refine ⟨_, fromSource_spec h, ?_⟩
  unfold LineMap.offsetToLineCol
  simp only [show min o (blen t) = min (blen t) (blen t) by omega]

/-- Any line and column convert to the first boundary of that line whose column is at least the
requested one, or to the end of the line; a line past the last converts to the end of the text. -/
theorem C32_line_col_to_offset {src : Source} {t : Str} (h : Lawful src t) (line col : Nat) :
    ∃ m, LineMap.fromSource src src.length = .ok m ∧
      (∀ a ln r, IsLine t line a ln r →
        ∃ p, CutAt ln col p ∧ m.lineColToOffset src line col = .ok (blen a + blen p)) ∧
      (t.count '\n' < line → m.lineColToOffset src line col = .ok (blen t)) := by
  refine ⟨_, fromSource_spec h, fun a ln r hl => lineColToOffset_spec h hl col, fun hl => ?_⟩
  have : (0 :: nls 0 t)[line]? = none := List.getElem?_eq_none (by simp [nls_length]; omega)
  simp [LineMap.lineColToOffset, LineMap.lineStart, this]

theorem cutAt_unique {ln p q : Str} {col : Nat} (hp : CutAt ln col p) (hq : CutAt ln col q) : p = q := by
  obtain ⟨p1, p2, p3⟩ := hp
  obtain ⟨q1, q2, q3⟩ := hq
  rcases Nat.le_total p.length q.length with hle | hle
  · have hpq := List.prefix_of_prefix_length_le p1 q1 hle
    by_cases he : p = q
    · exact he
    · have := q3 p hpq he
      rcases p2 with p2 | p2
      · omega
      · subst p2
        exact hpq.eq_of_length_le q1.length_le
  · have hqp := List.prefix_of_prefix_length_le q1 p1 hle
    by_cases he : q = p
    · exact he.symm
    · have := p3 q hqp he
      rcases q2 with q2 | q2
      · omega
      · subst q2
        exact (hqp.eq_of_length_le p1.length_le).symm

/-- There and back: every boundary offset comes back from its line and column. -/
theorem C32_roundtrip {src : Source} {t : Str} (h : Lawful src t) (hbig : blen t < 2 ^ 32)
    (l r : Str) (ht : t = l ++ r) :
    ∃ m line col, LineMap.fromSource src src.length = .ok m ∧
      m.offsetToLineCol src (blen l) = .ok (line, col) ∧
      m.lineColToOffset src line col = .ok (blen l) := by
  obtain ⟨m, a, b, h1, rfl, ha, hb, h2⟩ := C32_offset_to_line_col h hbig l r ht
  refine ⟨m, _, _, h1, h2, ?_⟩
  obtain ⟨m', h3, h4, _⟩ := C32_line_col_to_offset h ((a ++ b).count '\n') (utf16Count b)
  rw [h1] at h3; cases h3
  obtain ⟨ln, r', hr, hlast⟩ := line_split r
  have hline : IsLine t ((a ++ b).count '\n') a (b ++ ln) r' := by
    refine ⟨by rw [ht, hr]; simp, ha, by rw [List.count_append, List.count_eq_zero.2 hb]; rfl, ?_⟩
    rcases hlast with ⟨g1, g2⟩ | ⟨b', g1, g2⟩
    · exact .inl ⟨by simp [hb, g1], g2⟩
    · exact .inr ⟨b ++ b', by rw [g1]; simp, by simp [hb, g2]⟩
  obtain ⟨p, hp, he⟩ := h4 _ _ _ hline
  have : CutAt (b ++ ln) (utf16Count b) b := by
    refine ⟨⟨ln, rfl⟩, .inl (Nat.le_refl _), ?_⟩
    rintro p' ⟨s, rfl⟩ hne
    rw [utf16Count_append]
    have : s ≠ [] := fun h => hne (by simp [h])
    cases s with
    | nil => exact absurd rfl this
    | cons c s =>
      have : 0 < (utf16Of c).length := by unfold utf16Of; split <;> simp
      simp [utf16Count]; omega
  rw [he, cutAt_unique hp this, blen_append]

/-- A column past the end of a line that has a newline converts to the start of the *next* line:
`line_end` includes the newline (line_map.rs:118-130). -/
theorem C32_column_past_newline :
    ∃ m, LineMap.fromSource (textSource "a\nb".toList) 3 = .ok m ∧
      m.lineColToOffset (textSource "a\nb".toList) 0 99 = .ok 2 ∧
      m.offsetToLineCol (textSource "a\nb".toList) 2 = .ok (1, 0) :=
  ⟨⟨[0, 2], 3⟩, by decide, by decide, by decide⟩

example : CutAt "a😀b\n".toList 2 "a😀".toList := by
  refine ⟨⟨"b\n".toList, by decide⟩, .inl (by decide), ?_⟩
  intro p' hp hne
  rw [show ("a😀" : String).toList = ['a', '😀'] by decide] at hp hne
  rcases p' with _ | ⟨c, _ | ⟨d, p'⟩⟩
  · decide
  · rw [List.cons_prefix_cons] at hp; rw [hp.1]; decide
  · rw [List.cons_prefix_cons, List.cons_prefix_cons, List.prefix_nil] at hp
    exact absurd (by rw [hp.1, hp.2.1, hp.2.2]) hne

end Oaks.Props
