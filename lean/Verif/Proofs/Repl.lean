import Verif.Spec.Repl

/-! The line editor of the REPL on one-byte characters. -/

namespace Oaks
open Spec

theorem utf8Size_small {c : Char} (h : c.val.toNat < 128) : c.utf8Size = 1 := by
  have : c.val ≤ 127 := by
    rw [UInt32.le_iff_toNat_le]
    show c.val.toNat ≤ 127
    omega
  simp [Char.utf8Size, this]

theorem ascii_blen {s : Str} (h : AsciiText s) : blen s = s.length := by
  induction s with
  | nil => rfl
  | cons c s ih =>
    rw [blen_cons, utf8Size_small (h c (List.mem_cons_self ..)), ih fun x hx => h x (List.mem_cons_of_mem _ hx)]
    simp; omega

/-- All lines of the editor have one-byte characters only. -/
def AsciiEditor (e : Editor) : Prop := (∀ l ∈ e.done, AsciiText l) ∧ AsciiText e.left ∧ AsciiText e.right

theorem joinLines_eq (ls : List Str) : joinLines ls = (List.intersperse ['\n'] ls).flatten := by
  induction ls with
  | nil => rfl
  | cons l ls ih =>
    cases ls with
    | nil => simp [joinLines]
    | cons m ls => simp [joinLines, ih]

theorem Spec.BufShows.text {b : LineBuf} {e : Editor} (h : BufShows b e) : b.fullText = e.text := by
  unfold LineBuf.fullText Editor.text
  rw [joinLines_eq, h.1]

theorem Spec.BufShows.line {b : LineBuf} {e : Editor} (h : BufShows b e) : index b.lines b.current = .ok (e.left ++ e.right) := by
  unfold index
  rw [h.1, h.2.1]
  simp [Editor.lines]

theorem set_last (d : List Str) (x y : Str) : (d ++ [x]).set d.length y = d ++ [y] := by simp

theorem Spec.BufShows.empty : BufShows LineBuf.new Editor.empty := ⟨rfl, rfl, rfl⟩

theorem insert_shows {b : LineBuf} {d : List Str} {l r : Str} (h : BufShows b ⟨d, l, r⟩) (ha : AsciiText l) (c : Char) :
    ∃ b', b.insert c = .ok b' ∧ BufShows b' ⟨d, l ++ [c], r⟩ := by
  have h1 := h.line
  obtain ⟨h2, h3, h4⟩ := h
  simp only [] at h1 h2 h3 h4
  refine ⟨⟨d ++ [l ++ c :: r], d.length, l.length + 1⟩, ?_, ?_⟩
  · unfold LineBuf.insert strInsert
    rw [h1, run_bind_ok, h4, ← ascii_blen ha, splitAt?_append]
    simp only [run_bind_ok]
    rw [h2, h3]
    simp only [Editor.lines, set_last]
    rfl
  · exact ⟨by simp [Editor.lines], rfl, by simp⟩

theorem insertSpaces_shows (n : Nat) {b : LineBuf} {d : List Str} {l r : Str} (h : BufShows b ⟨d, l, r⟩) (ha : AsciiText l) :
    ∃ b', insertSpaces n b = .ok b' ∧ BufShows b' ⟨d, l ++ List.replicate n ' ', r⟩ := by
  induction n generalizing b l with
  | zero => exact ⟨b, rfl, by simpa using h⟩
  | succ n ih =>
    obtain ⟨b1, h1, h2⟩ := insert_shows h ha ' '
    have ha' : AsciiText (l ++ [' ']) := by
      intro c hc
      rcases List.mem_append.1 hc with hc | hc
      · exact ha c hc
      · rw [List.mem_singleton.1 hc]; decide
    obtain ⟨b2, h3, h4⟩ := ih h2 ha'
    refine ⟨b2, ?_, ?_⟩
    · rw [insertSpaces, h1, run_bind_ok, h3]
    · simpa [List.replicate_succ] using h4

theorem Spec.AsciiText.append {a b : Str} (ha : AsciiText a) (hb : AsciiText b) : AsciiText (a ++ b) := by
  intro c hc
  rcases List.mem_append.1 hc with hc | hc
  · exact ha c hc
  · exact hb c hc

theorem ascii_of_append {a b : Str} (h : AsciiText (a ++ b)) : AsciiText a ∧ AsciiText b :=
  ⟨fun c hc => h c (List.mem_append_left _ hc), fun c hc => h c (List.mem_append_right _ hc)⟩

theorem isEmpty_shows {b : LineBuf} {e : Editor} (h : BufShows b e) :
    b.isEmpty = true ↔ e.done = [] ∧ e.left = [] ∧ e.right = [] := by
  obtain ⟨d, l, r⟩ := e
  obtain ⟨h1, _, _⟩ := h
  unfold LineBuf.isEmpty
  rw [h1]
  cases d with
  | nil => simp [Editor.lines]
  | cons x d => simp [Editor.lines]

/-- One key. -/
theorem key_shows (H : Handler) (s : ReplState H) (e : Session H) (k : Key) (hs : BufShows s.buf e.editor)
    (hh : s.handler = e.handler) (hsub : s.submitted = e.submitted) (ha : AsciiEditor e.editor) (hk : AsciiKey k) :
    ∃ stop s' e', replKey H s k = .ok (stop, s') ∧ Pressed H e k stop e' ∧ BufShows s'.buf e'.editor ∧
      s'.handler = e'.handler ∧ s'.submitted = e'.submitted ∧ AsciiEditor e'.editor := by
  obtain ⟨b, st, sub⟩ := s
  obtain ⟨⟨d, l, r⟩, st', sub'⟩ := e
  simp only [] at hs hh hsub
  subst hh hsub
  obtain ⟨had, hal, har⟩ := ha
  simp only [] at had hal har
  have hempty : AsciiEditor Editor.empty := ⟨by simp [Editor.empty], by simp [Editor.empty, AsciiText], by simp [Editor.empty, AsciiText]⟩
  cases k with
  | char c ctrl =>
    by_cases h1 : c = 'c' ∧ ctrl = true
    · obtain ⟨rfl, rfl⟩ := h1
      exact ⟨false, ⟨LineBuf.new, st, sub⟩, _, by simp [replKey], .clear _, BufShows.empty, rfl, rfl, hempty⟩
    · by_cases h2 : c = 'd' ∧ ctrl = true
      · obtain ⟨rfl, rfl⟩ := h2
        have he := isEmpty_shows hs
        by_cases hb : b.isEmpty = true
        · obtain ⟨rfl, rfl, rfl⟩ := he.1 hb
          exact ⟨true, ⟨b, st, sub⟩, _, by simp [replKey, hb], .eof _ _, hs, rfl, rfl, hempty⟩
        · have hb' : b.isEmpty = false := by simpa using hb
          exact ⟨false, ⟨b, st, sub⟩, _, by simp [replKey, hb'], .notEof _ (fun hc => hb (he.2 hc)), hs, rfl, rfl, had, hal, har⟩
      · obtain ⟨b', hb1, hb2⟩ := insert_shows hs hal c
        refine ⟨false, ⟨b', st, sub⟩, ⟨⟨d, l ++ [c], r⟩, st, sub⟩, ?_, .type _ _ _ _ _ _ _ ?_, hb2, rfl, rfl, had, ?_, har⟩
        · simp only [replKey]
          rw [if_neg h1, if_neg h2, hb1]; rfl
        · rintro ⟨hc, hcd | hcd⟩
          · exact h1 ⟨hcd, hc⟩
          · exact h2 ⟨hcd, hc⟩
        · refine AsciiText.append hal ?_
          intro x hx; rw [List.mem_singleton.1 hx]; exact hk
  | enter =>
    have ht := hs.text
    by_cases hc : H.complete st b.fullText = true
    · cases hh : H.handle st b.fullText with
      | mk st2 ex =>
        cases ex with
        | false =>
          refine ⟨false, ⟨LineBuf.new, st2, sub ++ [b.fullText]⟩, ⟨Editor.empty, st2, sub ++ [b.fullText]⟩, ?_, ?_,
            BufShows.empty, rfl, rfl, hempty⟩
          · simp [replKey, hc, hh]
          · rw [ht] at hc hh ⊢
            exact .submit ⟨⟨d, l, r⟩, st, sub⟩ st2 hc hh
        | true =>
          refine ⟨true, ⟨b, st2, sub ++ [b.fullText]⟩, ⟨⟨d, l, r⟩, st2, sub ++ [b.fullText]⟩, ?_, ?_,
            hs, rfl, rfl, had, hal, har⟩
          · simp [replKey, hc, hh]
          · rw [ht] at hc hh ⊢
            exact .exit ⟨⟨d, l, r⟩, st, sub⟩ st2 hc hh
    · have hnew : BufShows (⟨b.lines ++ [[]], b.current + 1, 0⟩ : LineBuf) ⟨(⟨d, l, r⟩ : Editor).lines, [], []⟩ := by
        refine ⟨?_, ?_, rfl⟩
        · simp [Editor.lines, hs.1]
        · simp [Editor.lines, hs.2.1]
      obtain ⟨b', hb1, hb2⟩ := insertSpaces_shows (H.indent st b.fullText) hnew (by simp [AsciiText])
      refine ⟨false, ⟨b', st, sub⟩, ⟨⟨(⟨d, l, r⟩ : Editor).lines, List.replicate (H.indent st b.fullText) ' ', []⟩, st, sub⟩,
        ?_, ?_, by simpa using hb2, rfl, rfl, ?_, ?_, by simp [AsciiText]⟩
      · simp only [replKey]
        rw [if_neg hc, hb1]; rfl
      · rw [ht] at hc ⊢
        exact .newLine ⟨⟨d, l, r⟩, st, sub⟩ (by simpa using hc)
      · intro x hx
        simp only [Editor.lines, List.mem_append, List.mem_singleton] at hx
        rcases hx with hx | rfl
        · exact had x hx
        · exact AsciiText.append hal har
      · intro x hx
        rw [(List.mem_replicate.1 hx).2]; decide
  | backspace =>
    have h1 := hs.line
    obtain ⟨g1, g2, g3⟩ := hs
    simp only [Editor.lines] at h1 g1 g2 g3
    rcases List.eq_nil_or_concat l with rfl | ⟨l', c, rfl⟩
    · rcases List.eq_nil_or_concat d with rfl | ⟨d', p, rfl⟩
      · refine ⟨false, ⟨b, st, sub⟩, _, ?_, .nothing r st sub, ⟨g1, g2, g3⟩, rfl, rfl, had, hal, har⟩
        simp only [replKey, LineBuf.backspace, g3, g2]
        rfl
      · rw [List.concat_eq_append] at *
        refine ⟨false, ⟨⟨d' ++ [p ++ r], d'.length, p.length⟩, st, sub⟩, _, ?_, .join d' p r st sub, ⟨by simp [Editor.lines], rfl, rfl⟩,
          rfl, rfl, fun x hx => had x (List.mem_append_left _ hx), had p (by simp), har⟩
        have he : b.lines.eraseIdx b.current = d' ++ [p] := by
          rw [g1, g2, List.eraseIdx_append_of_length_le (Nat.le_refl _)]
          simp
        have hp : index (b.lines.eraseIdx b.current) (b.current - 1) = .ok p := by
          unfold index
          rw [he, g2]; simp
        simp only [replKey, LineBuf.backspace]
        rw [if_neg (by rw [g3]; simp), if_pos (by rw [g2]; simp), h1, run_bind_ok, hp]
        simp only [run_bind_ok]
        rw [he, g2]
        simp
    · rw [List.concat_eq_append] at *
      obtain ⟨hal', _⟩ := ascii_of_append hal
      refine ⟨false, ⟨⟨d ++ [l' ++ r], d.length, l'.length⟩, st, sub⟩, _, ?_, .rubout d l' r c st sub, ⟨by simp [Editor.lines], rfl, rfl⟩,
        rfl, rfl, had, hal', har⟩
      have hr : strRemove (l' ++ [c] ++ r) (b.cursor - 1) = .ok (l' ++ r) := by
        have : b.cursor - 1 = blen l' := by rw [g3, ascii_blen hal']; simp
        unfold strRemove
        rw [this, List.append_assoc, List.singleton_append, splitAt?_append]
      simp only [replKey, LineBuf.backspace]
      rw [if_pos (by rw [g3]; simp), h1, run_bind_ok, hr]
      simp only [run_bind_ok, g1, g2, g3, set_last]
      simp
  | left =>
    obtain ⟨g1, g2, g3⟩ := hs
    simp only [Editor.lines] at g1 g2 g3
    rcases List.eq_nil_or_concat l with rfl | ⟨l', c, rfl⟩
    · refine ⟨false, ⟨b, st, sub⟩, _, ?_, .leftEnd d r st sub, ⟨g1, g2, g3⟩, rfl, rfl, had, hal, har⟩
      simp [replKey, g3]
    · rw [List.concat_eq_append] at *
      obtain ⟨hal', hac⟩ := ascii_of_append hal
      refine ⟨false, ⟨⟨b.lines, b.current, b.cursor - 1⟩, st, sub⟩, _, ?_, .left d l' r c st sub,
        ⟨by simp [Editor.lines, g1], g2, by simp [g3]⟩, rfl, rfl, had, hal', ?_⟩
      · simp only [replKey]
        rw [if_pos (by simp [g3])]
      · exact AsciiText.append (a := [c]) hac har
  | right =>
    have h1 := hs.line
    obtain ⟨g1, g2, g3⟩ := hs
    simp only [Editor.lines] at h1 g1 g2 g3
    cases r with
    | nil =>
      refine ⟨false, ⟨b, st, sub⟩, _, ?_, .rightEnd d l st sub, ⟨g1, g2, g3⟩, rfl, rfl, had, hal, har⟩
      simp only [replKey]
      rw [h1, run_bind_ok, if_neg (by simp [g3])]
      rfl
    | cons c r =>
      obtain ⟨hac, har'⟩ := ascii_of_append (a := [c]) har
      refine ⟨false, ⟨⟨b.lines, b.current, b.cursor + 1⟩, st, sub⟩, _, ?_, .right d l r c st sub,
        ⟨by simp [Editor.lines, g1], g2, by simp [g3]⟩, rfl, rfl, had, AsciiText.append hal hac, har'⟩
      simp only [replKey]
      rw [h1, run_bind_ok, if_pos (by simp [g3])]
      rfl
  | other => exact ⟨false, _, _, rfl, .other _, hs, rfl, rfl, had, hal, har⟩

/-- A sequence of keys. -/
theorem keys_shows (H : Handler) (ks : List Key) (s : ReplState H) (e : Session H) (hs : BufShows s.buf e.editor)
    (hh : s.handler = e.handler) (hsub : s.submitted = e.submitted) (ha : AsciiEditor e.editor) (hk : ∀ k ∈ ks, AsciiKey k) :
    ∃ stop s' e', replRun H s ks = .ok (stop, s') ∧ Typed H e ks stop e' ∧ BufShows s'.buf e'.editor ∧
      s'.handler = e'.handler ∧ s'.submitted = e'.submitted := by
  induction ks generalizing s e with
  | nil => exact ⟨false, s, e, rfl, .nil e, hs, hh, hsub⟩
  | cons k ks ih =>
    obtain ⟨stop, s1, e1, h1, h2, h3, h4, h5, h6⟩ := key_shows H s e k hs hh hsub ha (hk k (List.mem_cons_self ..))
    cases stop with
    | true => exact ⟨true, s1, e1, by rw [replRun, h1, run_bind_ok]; rfl, .stop ks h2, h3, h4, h5⟩
    | false =>
      obtain ⟨stop, s2, e2, g1, g2, g3, g4, g5⟩ := ih s1 e1 h3 h4 h5 h6 fun k hk' => hk k (List.mem_cons_of_mem _ hk')
      exact ⟨stop, s2, e2, by rw [replRun, h1, run_bind_ok]; exact g1, .next h2 g2, g3, g4, g5⟩

/-! ### the ideal editor is deterministic -/

theorem pressed_unique' {H : Handler} {s s' : Session H} {k k' : Key} {b b' : Bool} {t t' : Session H}
    (h : Pressed H s k b t) (h' : Pressed H s' k' b' t') (hs : s = s') (hk : k = k') : b = b' ∧ t = t' := by
  cases h <;> cases h' <;> cases hk <;> (try cases hs) <;> simp_all [Editor.empty]

theorem typed_unique {H : Handler} {s : Session H} {ks : List Key} {b b' : Bool} {t t' : Session H}
    (h : Typed H s ks b t) (h' : Typed H s ks b' t') : b = b' ∧ t = t' := by
  induction h generalizing b' t' with
  | nil s => cases h'; exact ⟨rfl, rfl⟩
  | stop ks h =>
    cases h' with
    | stop _ h2 => obtain ⟨_, rfl⟩ := pressed_unique' h h2 rfl rfl; exact ⟨rfl, rfl⟩
    | next h2 _ => exact absurd (pressed_unique' h h2 rfl rfl).1 (by simp)
  | next h _ ih =>
    cases h' with
    | stop _ h2 => exact absurd (pressed_unique' h h2 rfl rfl).1 (by simp)
    | next h2 h3 => obtain ⟨_, rfl⟩ := pressed_unique' h h2 rfl rfl; exact ih h3

end Oaks
