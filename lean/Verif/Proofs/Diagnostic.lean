import Verif.Spec.Diagnostic
import Verif.Proofs.LineMap
import Verif.Proofs.Highlight
import Verif.Proofs.Table

namespace Oaks
open Oaks.Spec

/-! ### Lines -/

theorem splitInclusive_line (b r : Str) (hb : '\n' ∉ b) : splitInclusive (b ++ '\n' :: r) = (b ++ ['\n']) :: splitInclusive r := by
  induction b with
  | nil => simp [splitInclusive]
  | cons c b ih =>
    rw [List.mem_cons, not_or] at hb
    simp only [List.cons_append, splitInclusive]
    rw [if_neg (fun h => hb.1 h.symm), ih hb.2]

theorem splitInclusive_last (b : Str) (hb : '\n' ∉ b) (h0 : b ≠ []) : splitInclusive b = [b] := by
  induction b with
  | nil => exact absurd rfl h0
  | cons c b ih =>
    rw [List.mem_cons, not_or] at hb
    simp only [splitInclusive]
    rw [if_neg (fun h => hb.1 h.symm)]
    by_cases hb0 : b = []
    · subst hb0; rfl
    · rw [ih hb.2 hb0]

theorem splitInclusive_begin (a s : Str) (ha : LineBegin a) :
    ∃ p, splitInclusive (a ++ s) = p ++ splitInclusive s ∧ p.length = a.count '\n' := by
  rcases ha with rfl | ⟨a', rfl⟩
  · exact ⟨[], rfl, rfl⟩
  · generalize hn : a'.length = n
    induction n using Nat.strongRecOn generalizing a' with
    | _ n ih =>
      by_cases hm : '\n' ∈ a'
      · have hsp : ∃ x y, a' = x ++ '\n' :: y ∧ '\n' ∉ x := by
          obtain ⟨ln, r', hr, ⟨h1, h2⟩ | ⟨b, rfl, hb⟩⟩ := line_split a'
          · subst h2; rw [List.append_nil] at hr; subst hr; exact absurd hm h1
          · exact ⟨b, r', by rw [hr]; simp, hb⟩
        obtain ⟨x, y, rfl, hx⟩ := hsp
        obtain ⟨p, hp, hl⟩ := ih y.length (by rw [← hn]; simp; omega) y rfl
        refine ⟨(x ++ ['\n']) :: p, ?_, ?_⟩
        · have : x ++ '\n' :: y ++ ['\n'] ++ s = x ++ '\n' :: (y ++ ['\n'] ++ s) := by simp
          rw [this, splitInclusive_line x _ hx, hp]; rfl
        · have h0 : x.count '\n' = 0 := List.count_eq_zero.2 hx
          simp only [List.length_cons, hl, List.count_append, List.count_cons, h0]
          simp; try omega
      · refine ⟨[a' ++ ['\n']], ?_, ?_⟩
        · rw [List.append_assoc]; exact splitInclusive_line a' s hm
        · simp [List.count_eq_zero.2 hm]

theorem chompLine_eq {ln x : Str} (h : ChompedTo ln x) : chompLine ln = x := by
  unfold chompLine
  rcases h with ⟨rfl, h⟩ | rfl | ⟨rfl, h⟩
  · simp [h]
  · have : x ++ ['\r', '\n'] = (x ++ ['\r']) ++ ['\n'] := by simp
    rw [this]; simp
  · rw [if_neg]
    intro h'
    exact h (List.mem_of_getLast? h')

/-- The lines of the code are the lines of the text, without their line breaks. -/
theorem rustLines_get {t a ln r : Str} {k : Nat} (h : IsLine t k a ln r) (h0 : ln ≠ []) {x : Str} (hx : ChompedTo ln x) :
    (rustLines t)[k]? = some x := by
  obtain ⟨p, hp, hl⟩ := splitInclusive_begin a (ln ++ r) h.first
  have ht := h.text
  rw [List.append_assoc] at ht
  have : ∃ q, splitInclusive (ln ++ r) = ln :: q := by
    rcases h.last with ⟨h1, rfl⟩ | ⟨b, rfl, hb⟩
    · exact ⟨[], by rw [List.append_nil]; exact splitInclusive_last ln h1 h0⟩
    · exact ⟨_, by rw [List.append_assoc]; exact splitInclusive_line b r hb⟩
  obtain ⟨q, hq⟩ := this
  rw [rustLines, ht, hp, hq, List.getElem?_map, ← h.number, ← hl, List.getElem?_append_right (Nat.le_refl _)]
  simp [chompLine_eq hx]

theorem rustLines_none {t a r : Str} {k : Nat} (h : IsLine t k a [] r) : (rustLines t)[k]? = none := by
  obtain ⟨p, hp, hl⟩ := splitInclusive_begin a [] h.first
  have hr : r = [] := by
    rcases h.last with ⟨_, h⟩ | ⟨b, h, _⟩
    · exact h
    · simp at h
  have ht := h.text
  rw [hr] at ht
  simp only [List.append_nil] at ht
  rw [List.append_nil] at hp
  rw [rustLines, ht, hp, List.getElem?_map, ← h.number, ← hl]
  simp [splitInclusive]

/-! ### Positions -/

theorem offset_min (m : LineMap) (src : Source) (o : Nat) : m.offsetToLineCol src (min o m.len) = m.offsetToLineCol src o := by
  unfold LineMap.offsetToLineCol
  simp [Nat.min_assoc]

theorem count_le_blen (a : Str) : a.count '\n' ≤ blen a :=
  Nat.le_trans List.count_le_length (length_le_blen a)

theorem posAt_offset {src : Source} {t : Str} (h : Lawful src t) (hbig : blen t < 2 ^ 32) {o k : Nat} {before : Str}
    (hp : PosAt t o k before) :
    (⟨0 :: nls 0 t, blen t⟩ : LineMap).offsetToLineCol src o = .ok (k, utf16Count before) := by
  obtain ⟨a, ln, r, hl, ⟨s, rfl⟩, hn, hm⟩ := hp
  rw [← offset_min]
  simp only []
  rw [hm, offsetToLineCol_spec h (r := s ++ r) (by rw [hl.text]; simp) hl.first hn, hl.number]
  have hb : blen t = blen a + blen before + blen s + blen r := by rw [hl.text]; simp; omega
  have h1 := count_le_blen a
  have h2 := utf16Count_le before
  rw [hl.number] at h1
  rw [Nat.mod_eq_of_lt (by omega), Nat.mod_eq_of_lt (by omega)]

theorem strGet_mid (l m r : Str) : strGet (l ++ m ++ r) (blen l) (blen l + blen m) = some m :=
  strGet_eq_some.2 ⟨l, r, rfl, rfl, rfl⟩

theorem posAt_col {t : Str} {o k : Nat} {before : Str} (hp : PosAt t o k before) :
    strGet t (((⟨0 :: nls 0 t, blen t⟩ : LineMap).lineStart k).getD 0) (min o (blen t)) = some before := by
  obtain ⟨a, ln, r, hl, ⟨s, rfl⟩, hn, hm⟩ := hp
  rw [lineStart_spec hl, hm, Option.getD_some, hl.text]
  have := strGet_mid a before (s ++ r)
  simpa using this

theorem labelOn_start {t : Str} {l : DLabel} {k : Nat} {before lab ln : Str} (h : LabelOn t l k before lab ln) :
    PosAt t l.start k before := by
  obtain ⟨a, r, hl, ⟨s, rfl⟩, hn, hm, _⟩ := h
  exact ⟨a, _, r, hl, ⟨lab ++ s, by simp⟩, fun hc => hn (List.mem_append_left _ hc), hm⟩

theorem chunkIdx_inside {t pre rest : Str} {c : Char} (ht : t = pre ++ c :: rest) {o : Nat} (h1 : blen pre < o)
    (h2 : o < blen pre + c.utf8Size) : chunkIdx (0 :: nls 0 t) o = chunkIdx (0 :: nls 0 t) (blen pre) := by
  rw [chunkIdx_eq (starts_sorted t), chunkIdx_eq (starts_sorted t)]
  congr 2
  have key : ∀ x ∈ (0 :: nls 0 t), decide (x ≤ o) = decide (x ≤ blen pre) := by
    intro x hx
    rw [List.mem_cons] at hx
    rcases hx with rfl | hx
    · simp
    · rw [ht, nls_append] at hx
      have e : c :: rest = [c] ++ rest := rfl
      rw [e, nls_append] at hx
      simp only [List.mem_append] at hx
      rcases hx with hx | hx | hx
      · have := nls_mem hx
        simp; omega
      · by_cases hc : c = '\n'
        · subst hc
          have : ('\n' : Char).utf8Size = 1 := rfl
          omega
        · rw [nls_nil (by simpa using fun h => hc h.symm)] at hx; cases hx
      · have := nls_mem hx
        simp at this
        simp; omega
  generalize (0 :: nls 0 t) = l at key
  induction l with
  | nil => rfl
  | cons x l ih =>
    simp only [List.takeWhile_cons]
    rw [key x (List.mem_cons_self ..), ih fun y hy => key y (List.mem_cons_of_mem _ hy)]

/-- The variables of a single-line snippet. -/
theorem snipPos_single {src : Source} {t : Str} (h : Lawful src t) (htot : TextTotal src) (hbig : blen t < 2 ^ 32)
    {l : DLabel} {k : Nat} {before lab ln : Str} (hl : LabelOn t l k before lab ln) :
    ∃ e, snipPos src ⟨0 :: nls 0 t, blen t⟩ t l = .ok ⟨k, k, before.length, e⟩ := by
  have hs := labelOn_start hl
  have hst : ∃ c, (⟨0 :: nls 0 t, blen t⟩ : LineMap).offsetToLineCol src l.stop = .ok (k, c) := by
    obtain ⟨a, r, hline, ⟨s, rfl⟩, hn, hm, hstop | ⟨c, rfl, h1, h2⟩⟩ := hl
    · exact ⟨_, posAt_offset h hbig ⟨a, _, r, hline, ⟨s, rfl⟩, hn, by rw [hstop, List.append_assoc]⟩⟩
    · have ht : t = (a ++ before) ++ c :: (s ++ r) := by rw [hline.text]; simp
      have hsz : blen (a ++ before ++ [c]) = blen (a ++ before) + c.utf8Size := by simp; omega
      have hlen : blen t = blen (a ++ before) + c.utf8Size + blen (s ++ r) := by rw [ht]; simp; omega
      have hmin : min l.stop (blen t) = l.stop := by omega
      have hpos := posAt_offset h hbig hs
      have hmin' : min l.start (blen t) = blen (a ++ before) := hm
      unfold LineMap.offsetToLineCol at hpos ⊢
      simp only [] at hpos ⊢
      rw [hmin'] at hpos
      rw [hmin, chunkIdx_inside ht h1 (by omega)]
      cases hx : index (0 :: nls 0 t) (chunkIdx (0 :: nls 0 t) (blen (a ++ before))) with
      | error e => rw [hx] at hpos; cases hpos
      | ok x =>
        rw [hx, run_bind_ok] at hpos
        obtain ⟨m, hm⟩ := htot x l.stop
        obtain ⟨m', hm'⟩ := htot x (blen (a ++ before))
        rw [hm', run_bind_ok] at hpos
        rw [run_bind_ok, hm, run_bind_ok]
        simp only [run_pure, Except.ok.injEq, Prod.mk.injEq] at hpos ⊢
        exact ⟨_, hpos.1, rfl⟩
  obtain ⟨c, hc⟩ := hst
  unfold snipPos
  rw [posAt_offset h hbig hs, run_bind_ok, hc, run_bind_ok]
  simp only [run_pure]
  rw [posAt_col hs]
  exact ⟨_, rfl⟩

theorem underlineLen_single {t : Str} {l : DLabel} {k : Nat} {before lab ln : Str} (hl : LabelOn t l k before lab ln) :
    underlineLen t l = max lab.length 1 := by
  obtain ⟨a, r, hline, ⟨s, rfl⟩, hn, hm, hstop | ⟨c, rfl, h1, h2⟩⟩ := hl
  · unfold underlineLen
    rw [hm, hstop]
    have := strGet_mid (a ++ before) lab (s ++ r)
    have e : t = a ++ before ++ lab ++ (s ++ r) := by rw [hline.text]; simp
    rw [← e] at this
    have e2 : blen (a ++ before ++ lab) = blen (a ++ before) + blen lab := by simp; omega
    rw [e2, this]; rfl
  · have ht : t = (a ++ before) ++ c :: (s ++ r) := by rw [hline.text]; simp
    have hlen : blen t = blen (a ++ before) + c.utf8Size + blen (s ++ r) := by rw [ht]; simp; omega
    have hmin : min l.stop (blen t) = l.stop := by
      have : blen (a ++ before ++ [c]) = blen (a ++ before) + c.utf8Size := by simp; omega
      omega
    have : strGet t (blen (a ++ before)) l.stop = none := by
      cases hg : strGet t (blen (a ++ before)) l.stop with
      | none => rfl
      | some m =>
        exfalso
        obtain ⟨x, y, hxy, hx, hxm⟩ := strGet_eq_some.1 hg
        rw [ht, List.append_assoc x] at hxy
        obtain ⟨h3, h4⟩ := append_inj_blen hxy.symm hx
        cases m with
        | nil => simp at hxm; omega
        | cons d m =>
          rw [List.cons_append, List.cons.injEq] at h4
          have : blen (a ++ before ++ [c]) = blen (a ++ before) + c.utf8Size := by simp; omega
          rw [h4.1] at hxm
          simp at hxm
          simp at this h2 hx h1
          omega
    unfold underlineLen
    rw [hm, hmin, this]; rfl

/-! ### Snippets -/

theorem times_char (n : Nat) (c : Char) : times n [c] = List.replicate n c := by
  unfold times
  induction n with
  | zero => rfl
  | succ n ih => rw [List.replicate_succ, List.flatten_cons, ih]; rfl

theorem padLeft_self (s : Str) : padLeft s.length s = s := by simp [padLeft]

theorem natStr_decimal (n : Nat) : natStr n = decimal n := rfl

theorem vbar_eq (u : Bool) : (Chars.of u).vbar = barOf u := by cases u <;> rfl
theorem ltop_eq (u : Bool) : (Chars.of u).ltop = topOf u := by cases u <;> rfl
theorem lbot_eq (u : Bool) : (Chars.of u).lbot = botOf u := by cases u <;> rfl
theorem hbar_eq (u : Bool) : (Chars.of u).hbar = [dashOf u] := by cases u <;> rfl
theorem url_eq (uri : Option Str) : urlStr uri = fileName uri := by cases uri <;> rfl

theorem plainMsg_eq (l : DLabel) : plainMsg l = msgTail l.message ++ ['\n'] := by
  unfold plainMsg msgTail
  cases l.message with
  | none => rfl
  | some m => simp [lit]

theorem plainSnippet_single {src : Source} {t : Str} (h : Lawful src t) (htot : TextTotal src) (hbig : blen t < 2 ^ 32)
    (unicode : Bool) (uri : Option Str) {l : DLabel} {s : Str} (hs : SnippetOf unicode uri t l s) :
    plainSnippet unicode src ⟨0 :: nls 0 t, blen t⟩ t (rustLines t) l uri = .ok s := by
  obtain ⟨k, before, lab, ln, text, hl, h0, hc, rfl⟩ := hs
  obtain ⟨e, he⟩ := snipPos_single h htot hbig hl
  have hline : (rustLines t)[k]? = some text := by
    obtain ⟨a, r, hline, _⟩ := hl
    exact rustLines_get hline h0 hc
  unfold plainSnippet
  simp only [he, run_bind_ok, run_pure, if_true, plainSingle, hline, underlineLen_single hl]
  have hsp : lit " " = [' '] := rfl
  have hca : lit "^" = ['^'] := rfl
  simp only [hsp, hca, times_char, padLeft_self, natStr_decimal, vbar_eq, ltop_eq, url_eq, plainMsg_eq]
  simp only [singleSnippet, unlines, locationLine, singleBody, List.flatMap_cons, List.flatMap_nil, lit, spaces, carets]
  simp


/-! ### Whole reports -/

theorem mapM_forall₂ {A B : Type} {f : A → Run B} {l : List A} {r : List B} (h : List.Forall₂ (fun a b => f a = .ok b) l r) :
    l.mapM f = .ok r := by
  induction h with
  | nil => rfl
  | cons h1 _ ih => rw [List.mapM_cons, h1, run_bind_ok, ih, run_bind_ok]; rfl

theorem lawful_full {src : Source} {t : Str} (h : Lawful src t) : src.textIn 0 src.length = .ok t := by
  rw [h.length_eq]
  exact h.textIn 0 (blen t) t ⟨[], [], by simp, by simp, by simp⟩

theorem plainRow_first (u : Bool) (lines : List Str) (p : SnipPos) (width : Nat) (l : DLabel) (text : Str)
    (h : lines[p.startLine]? = some text) :
    plainRow (Chars.of u) lines p width l p.startLine =
      (spaces (width - (decimal (p.startLine + 1)).length) ++ decimal (p.startLine + 1) ++ " ".toList ++ barOf u ++ " ".toList ++ topOf u ++ text) ++ ['\n'] := by
  unfold plainRow
  rw [h]
  simp [vbar_eq, ltop_eq, padLeft, natStr_decimal, spaces, lit]

theorem plainRow_mid (u : Bool) (lines : List Str) (p : SnipPos) (width : Nat) (l : DLabel) (text : Str) (i : Nat)
    (h : lines[i]? = some text) (h1 : i ≠ p.startLine) (h2 : i ≠ p.endLine) :
    plainRow (Chars.of u) lines p width l i =
      (spaces (width - (decimal (i + 1)).length) ++ decimal (i + 1) ++ " ".toList ++ barOf u ++ " ".toList ++ barOf u ++ text) ++ ['\n'] := by
  unfold plainRow
  rw [h]
  simp [vbar_eq, padLeft, natStr_decimal, spaces, lit, h1, h2]

theorem plainRow_last (u : Bool) (lines : List Str) (p : SnipPos) (width : Nat) (l : DLabel) (text : Str)
    (h : lines[p.endLine]? = some text) (h1 : p.endLine ≠ p.startLine) :
    plainRow (Chars.of u) lines p width l p.endLine =
      (spaces (width - (decimal (p.endLine + 1)).length) ++ decimal (p.endLine + 1) ++ " ".toList ++ barOf u ++ " ".toList ++ barOf u ++ text) ++ ['\n'] ++
      (spaces width ++ " ".toList ++ barOf u ++ " ".toList ++ botOf u ++
          List.replicate p.endCol (dashOf u) ++ carets (max p.endCol 1) ++ msgTail l.message) ++ ['\n'] := by
  unfold plainRow
  rw [h]
  have hsp : lit " " = [' '] := rfl
  have hca : lit "^" = ['^'] := rfl
  simp only [if_neg h1, if_true, hsp, hca, hbar_eq, times_char, vbar_eq, lbot_eq, plainMsg_eq]
  simp [padLeft, natStr_decimal, spaces, carets, lit]

theorem unlines_append (a b : List Str) : unlines (a ++ b) = unlines a ++ unlines b := by simp [unlines]

theorem plainSnippet_long {src : Source} {t : Str} (h : Lawful src t) (hbig : blen t < 2 ^ 32)
    (unicode : Bool) (uri : Option Str) {l : DLabel} {s : Str} (hs : LongSnippetOf unicode uri t l s) :
    plainSnippet unicode src ⟨0 :: nls 0 t, blen t⟩ t (rustLines t) l uri = .ok s := by
  obtain ⟨k, k', before, upto, texts, hp, hp', hlt, hlen, hrows, rfl⟩ := hs
  have hpos : snipPos src ⟨0 :: nls 0 t, blen t⟩ t l = .ok ⟨k, k', before.length, upto.length⟩ := by
    unfold snipPos
    rw [posAt_offset h hbig hp, run_bind_ok, posAt_offset h hbig hp', run_bind_ok]
    simp only [run_pure]
    rw [posAt_col hp, posAt_col hp']
    rfl
  have hget : ∀ j, j < k' + 1 - k → (rustLines t)[k + j]? = some ((texts[j]?).getD []) := by
    intro j hj
    have hx : texts[j]? = some (texts[j]'(by omega)) := List.getElem?_eq_getElem _
    obtain ⟨a, ln, r, h1, h2, h3⟩ := hrows j _ hx
    rw [rustLines_get h1 h2 h3, hx]; rfl
  unfold plainSnippet
  simp only [hpos, run_bind_ok, run_pure, if_neg (show k ≠ k' by omega), natStr_decimal]
  have hsp : lit " " = [' '] := rfl
  have hmid : ∀ n, n < k' + 1 - k → 
      (List.range n).flatMap (fun j => plainRow (Chars.of unicode) (rustLines t) ⟨k, k', before.length, upto.length⟩
        (decimal (k' + 1)).length l (k + j)) =
      unlines ((List.range n).map fun j =>
        spaces ((decimal (k' + 1)).length - (decimal (k + j + 1)).length) ++ decimal (k + j + 1) ++ " ".toList ++ barOf unicode ++ " ".toList ++
      (if j = 0 then topOf unicode else barOf unicode) ++ (texts[j]?).getD []) := by
    intro n
    induction n with
    | zero => intro _; rfl
    | succ n ih =>
      intro hn
      rw [List.range_succ, List.flatMap_append, List.map_append, unlines_append, ih (by omega), List.append_cancel_left_eq]
      have hg := hget n (by omega)
      by_cases h0 : n = 0
      · subst h0
        have := plainRow_first unicode (rustLines t) ⟨k, k', before.length, upto.length⟩ (decimal (k' + 1)).length l _ hg
        simp only [List.flatMap_cons, List.flatMap_nil, List.append_nil, List.map_cons, List.map_nil, unlines, if_true, Nat.add_zero] at this ⊢
        exact this
      · have := plainRow_mid unicode (rustLines t) ⟨k, k', before.length, upto.length⟩ (decimal (k' + 1)).length l _ (k + n) hg
          (by simp; omega) (by simp; omega)
        simp only [List.flatMap_cons, List.flatMap_nil, List.append_nil, List.map_cons, List.map_nil, unlines, if_neg h0]
        rw [this]
  have hn : k' + 1 - k = (k' - k) + 1 := by omega
  have hlast := plainRow_last unicode (rustLines t) ⟨k, k', before.length, upto.length⟩ (decimal (k' + 1)).length l ((texts[k' - k]?).getD [])
    (by have := hget (k' - k) (by omega); rw [show k + (k' - k) = k' by omega] at this; exact this) (by simp; omega)
  simp only [] at hlast
  rw [hn, List.range_succ, List.flatMap_append, hmid (k' - k) (by omega)]
  simp only [List.flatMap_cons, List.flatMap_nil, List.append_nil]
  rw [show k + (k' - k) = k' by omega, hlast]
  rw [quotedLines, hlen, hn, List.range_succ, List.map_append]
  simp only [hsp, times_char, vbar_eq, ltop_eq, url_eq]
  simp only [List.cons_append, unlines, List.flatMap_cons, List.flatMap_append, List.flatMap_nil, List.map_cons, List.map_nil,
    show k + (k' - k) = k' by omega, if_neg (show k' - k ≠ 0 by omega)]
  simp [locationLine, natStr_decimal, lit, spaces]

/-! ### Console -/

/-- Without its sequences `s` is `v`, whatever follows. -/
def Strips (s v : Str) : Prop := ∀ r, stripAnsi .text (s ++ r) = v ++ stripAnsi .text r

theorem Strips.append {s v s' v' : Str} (h : Strips s v) (h' : Strips s' v') : Strips (s ++ s') (v ++ v') := by
  intro r; rw [List.append_assoc, h, h', List.append_assoc]

theorem strips_plain {s : Str} (h : '\x1b' ∉ s) : Strips s s := fun r => stripAnsi_plain s r h

theorem strips_nil : Strips [] [] := fun _ => rfl

theorem strips_color {c : Str} (h : AnsiColor c) : Strips c [] := by
  obtain ⟨p, rfl, hp⟩ := h
  intro r
  have e : '\x1b' :: '[' :: (p ++ ['m']) ++ r = '\x1b' :: '[' :: (p ++ 'm' :: r) := by simp
  rw [e, stripAnsi, if_pos rfl, stripAnsi, if_pos rfl, stripAnsi_params _ _ hp]; rfl

theorem strips_reset : Strips (lit "\x1b[0m") [] := strips_color ⟨['0'], rfl, by decide⟩

theorem strips_blue {s : Str} (h : '\x1b' ∉ s) : Strips (blue s) s := by
  have h1 : Strips (lit "\x1b[34m") [] := strips_color ⟨['3', '4'], rfl, by decide⟩
  have := (h1.append (strips_plain h)).append strips_reset
  simpa [blue] using this

theorem strips_labelColor {l : DLabel} (h : ∀ c, l.color = some c → AnsiColor c) : Strips (labelColor l) [] := by
  unfold labelColor
  cases hc : l.color with
  | none => exact strips_color ⟨['3', '1', ';', '1'], rfl, by decide⟩
  | some c => exact strips_color (h c hc)

theorem natStr_no_esc (n : Nat) : '\x1b' ∉ natStr n := by
  intro h
  have := Nat.isDigit_of_mem_toDigits (by omega) (by omega) (show '\x1b' ∈ Nat.toDigits 10 n by simpa [natStr, Nat.repr] using h)
  revert this; decide

theorem times_no {c d : Char} (n : Nat) (h : c ≠ d) : c ∉ times n [d] := by
  rw [times_char]; intro hc; exact h (List.mem_replicate.1 hc).2

theorem bar_no_esc (u : Bool) : '\x1b' ∉ (Chars.of u).vbar := by cases u <;> decide
theorem top_no_esc (u : Bool) : '\x1b' ∉ (Chars.of u).ltop := by cases u <;> decide

theorem chomped_sub {ln x : Str} (h : ChompedTo ln x) : ∀ c ∈ x, c ∈ ln := by
  intro c hc
  rcases h with ⟨rfl, _⟩ | rfl | ⟨rfl, _⟩
  · exact List.mem_append_left _ hc
  · exact List.mem_append_left _ hc
  · exact hc

theorem consoleSnippet_single {src : Source} {t : Str} (h : Lawful src t) (htot : TextTotal src) (hbig : blen t < 2 ^ 32)
    (unicode : Bool) (uri : Option Str) {l : DLabel} {s : Str} (hs : SnippetOf unicode uri t l s)
    (ht : '\x1b' ∉ t) (hu : ∀ u, uri = some u → '\x1b' ∉ u) (hm : ∀ m, l.message = some m → '\x1b' ∉ m)
    (hc : ∀ c, l.color = some c → AnsiColor c) :
    ∃ out, consoleSnippet unicode src ⟨0 :: nls 0 t, blen t⟩ t (rustLines t) l uri = .ok out ∧ Strips out s := by
  have hp := plainSnippet_single h htot hbig unicode uri hs
  obtain ⟨k, before, lab, ln, text, hl, h0, hch, rfl⟩ := hs
  obtain ⟨e, he⟩ := snipPos_single h htot hbig hl
  have hline : (rustLines t)[k]? = some text := by
    obtain ⟨a, r, hline, _⟩ := hl
    exact rustLines_get hline h0 hch
  have htext : '\x1b' ∉ text := by
    intro hx
    obtain ⟨a, r, hline, _⟩ := hl
    apply ht
    rw [hline.text]
    exact List.mem_append_left _ (List.mem_append_right _ (chomped_sub hch _ hx))
  have hurl : '\x1b' ∉ urlStr uri := by
    cases uri with
    | none => decide
    | some u => exact hu u rfl
  have hmsg : '\x1b' ∉ plainMsg l := by
    unfold plainMsg
    cases hml : l.message with
    | none => decide
    | some m =>
      have := hm m hml
      simp only [List.mem_append]
      rintro ((h | h) | h)
      · revert h; decide
      · exact this h
      · revert h; decide
  unfold consoleSnippet
  unfold plainSnippet at hp
  simp only [he, run_bind_ok, run_pure, if_true, plainSingle, consoleSingle, hline, Except.ok.injEq] at hp ⊢
  refine ⟨_, rfl, ?_⟩
  rw [← hp]
  have hsp : ∀ n, Strips (times n (lit " ")) (times n (lit " ")) := fun n => strips_plain (times_no n (by decide))
  have hca : ∀ n, Strips (times n (lit "^")) (times n (lit "^")) := fun n => strips_plain (times_no n (by decide))
  have hnum : ∀ n, Strips (natStr n) (natStr n) := fun n => strips_plain (natStr_no_esc n)
  have hpad : Strips (padLeft (natStr (k + 1)).length (natStr (k + 1))) (padLeft (natStr (k + 1)).length (natStr (k + 1))) := by
    rw [padLeft_self]; exact hnum _
  have h1 : Strips (lit " ") (lit " ") := strips_plain (by decide)
  have hnl : Strips (lit "\n") (lit "\n") := strips_plain (by decide)
  have hcol : Strips (lit ":") (lit ":") := strips_plain (by decide)
  have hbar := strips_blue (bar_no_esc unicode)
  have htop := strips_blue (top_no_esc unicode)
  have hsing := ((((((hpad.append h1).append hbar).append h1).append (strips_plain htext)).append hnl).append
    ((((((((hsp (natStr (k + 1)).length).append h1).append hbar).append h1).append (hsp before.length)).append
      (strips_labelColor hc)).append (hca (underlineLen t l))).append strips_reset)).append (strips_plain hmsg)
  have hfoot := (((hsp (natStr (k + 1)).length).append h1).append hbar).append hnl
  have hloc := (((((((strips_plain (s := lit "  ") (by decide)).append htop).append (strips_plain (s := lit " at ") (by decide))).append
    (strips_plain hurl)).append hcol).append (((hnum (k + 1)).append hcol).append (hnum (before.length + 1)))).append hnl)
  have := ((hloc.append hfoot).append hsing).append hfoot
  simpa using this

theorem strips_flatten {ls vs : List Str} (h : List.Forall₂ Strips ls vs) : Strips ls.flatten vs.flatten := by
  induction h with
  | nil => exact strips_nil
  | cons h1 _ ih => exact h1.append ih

theorem Strips.run {s v : Str} (h : Strips s v) : stripAnsi .text s = v := by
  have := h []
  simpa [stripAnsi] using this

end Oaks
