import Verif.Spec.Xml
import Verif.Proofs.JsonLex
import Verif.Proofs.Search
import Mathlib.Tactic.SplitIfs

/-! The XML lexer cuts every text into pieces as specified. -/
namespace Oaks
open Spec

/-! ### Ends -/

theorem upTo_ok {close s m r : Str} (h : upTo close s = some (m, r)) : s = m ++ r := by
  induction s generalizing m r with
  | nil => simp [upTo] at h
  | cons c s ih =>
    rw [upTo] at h
    split at h
    · rename_i hp
      simp only [Option.some.injEq, Prod.mk.injEq] at h
      obtain ⟨rfl, rfl⟩ := h
      obtain ⟨x, hx⟩ := hp
      rw [← hx]; simp
    · cases hu : upTo close s with
      | none => rw [hu] at h; simp at h
      | some p =>
        rw [hu] at h
        simp only [Option.map_some, Option.some.injEq, Prod.mk.injEq] at h
        obtain ⟨rfl, rfl⟩ := h
        rw [List.cons_append, ← ih (m := p.1) (r := p.2) hu]

theorem upToAngle_ok {d : Int} {s m r : Str} (h : upToAngle d s = some (m, r)) : s = m ++ r := by
  induction s generalizing d m r with
  | nil => simp [upToAngle] at h
  | cons c s ih =>
    rw [upToAngle] at h
    split at h
    · rename_i hp
      simp only [Option.some.injEq, Prod.mk.injEq] at h
      obtain ⟨rfl, rfl⟩ := h
      rw [hp.1]; rfl
    · cases hu : upToAngle (d + (if c = '[' then 1 else 0) - (if c = ']' then 1 else 0)) s with
      | none => rw [hu] at h; simp at h
      | some p =>
        rw [hu] at h
        simp only [Option.map_some, Option.some.injEq, Prod.mk.injEq] at h
        obtain ⟨rfl, rfl⟩ := h
        rw [List.cons_append, ← ih (m := p.1) (r := p.2) hu]

theorem upTo_first {close : Str} (hc : close ≠ []) {body rest : Str}
    (h : ∀ a b, body ++ close ++ rest = a ++ close ++ b → body.length ≤ a.length) :
    upTo close (body ++ close ++ rest) = some (body ++ close, rest) := by
  induction body with
  | nil =>
    obtain ⟨c, cs, rfl⟩ := List.exists_cons_of_ne_nil hc
    simp [upTo]
  | cons x body ih =>
    rw [List.cons_append, List.cons_append, upTo, if_neg, ih]
    · rfl
    · intro a b e
      have := h (x :: a) b (by simp [e])
      simpa using this
    · rintro ⟨b, hb⟩
      have := h [] b (by simpa using hb.symm)
      simp at this

theorem upTo_never {close s : Str} (h : ∀ a b, s ≠ a ++ close ++ b) : upTo close s = none := by
  induction s with
  | nil => rfl
  | cons c s ih =>
    rw [upTo, if_neg, ih]
    · rfl
    · intro a b e; exact h (c :: a) b (by simp [e])
    · rintro ⟨b, hb⟩; exact h [] b (by simp [hb])

theorem blockComment_upTo {opener close r m r' : Str} (hc : close ≠ []) {k : Nat} (h : BlockComment opener close r m) (hr : r = m ++ r') :
    between k k opener (upTo close) r = (k, m, r') := by
  obtain ⟨after, rfl, ⟨body, rest, rfl, rfl, h3⟩ | ⟨h3, rfl⟩⟩ := h
  · rw [between, List.drop_left, upTo_first hc h3]
    have : rest = r' := by simpa using hr
    simp [this]
  · rw [between, List.drop_left, upTo_never h3]
    have : r' = [] := by simpa using hr
    simp [this]

theorem litBody_plain {q : Char} {s : Str} (h : q ∉ s) : LitBody q none s := by
  induction s with
  | nil => exact .nil
  | cons c s ih =>
    simp only [List.mem_cons, not_or] at h
    exact .plain (Ne.symm h.1) (by simp) (ih h.2)

theorem not_mem_litBody {q : Char} {s : Str} (h : LitBody q none s) : q ∉ s := by
  induction h with
  | nil => simp
  | plain h1 _ _ ih => simp only [List.mem_cons, not_or]; exact ⟨Ne.symm h1, ih⟩
  | escaped h _ _ => simp at h

theorem literal_upTo {q : Char} {r m r' : Str} {closed : Bool} {k : Nat} (h : Literal q none r m closed) (hr : r = m ++ r') :
    between k k [q] (upTo [q]) r = (k, m, r') := by
  cases closed with
  | true =>
    obtain ⟨body, rest, rfl, h2, rfl⟩ := h
    have hn := not_mem_litBody h2
    have := upTo_first (close := [q]) (by simp) (body := body) (rest := rest) (by
      intro a b e
      by_contra hlt
      have hlt : a.length < body.length := by omega
      have : (body ++ [q] ++ rest)[a.length]? = some q := by rw [e]; simp
      rw [List.append_assoc, List.getElem?_append_left hlt] at this
      exact hn (List.mem_of_getElem? this))
    simp only [List.append_assoc, List.singleton_append] at this
    rw [between]
    simp only [List.length_singleton, List.drop_succ_cons, List.drop_zero, this, List.take_succ_cons, List.take_zero]
    have : rest = r' := by simpa using hr
    simp [this]
  | false =>
    obtain ⟨after, rfl, rfl, h3⟩ := h
    have := upTo_never (close := [q]) (s := after) (by
      intro a b e
      by_cases ha : q ∈ a
      · obtain ⟨x, y, rfl, hx⟩ := List.eq_append_cons_of_mem ha
        exact h3 x (y ++ q :: b) (litBody_plain hx) (by rw [e]; simp)
      · exact h3 a b (litBody_plain ha) (by rw [e]; simp))
    rw [between]
    simp only [List.length_singleton, List.drop_succ_cons, List.drop_zero, this]
    have : r' = [] := by simpa using hr
    simp [this]

/-! ### Scanners -/

/-- What a scanner makes of the text ahead: a piece with its token, or nothing. -/
def Scanned (src : Source) (t l r : Str) (toks : List Tok) (x : Run (Lex × Bool)) : Option (Nat × Str × Str) → Prop
  | some (k, m, r') => ∃ st', x = .ok (st', true) ∧ r = m ++ r' ∧
      LexAt src t (l ++ m) r' (toks ++ [⟨k, blen l, blen l + blen m⟩]) st'
  | none => ∃ st', x = .ok (st', false) ∧ LexAt src t l r toks st'

section
variable {src : Source} {t : Str} (hs : Supplied src t) {l r : Str} {toks : List Tok} {st : Lex}
include hs

/-- `peek_next_n` after any characters. -/
theorem peekAfter_at {m : Str} (h : LexAt src t l (m ++ r) toks st) : st.peekNextN src (blen m) = .ok r.head? := by
  unfold Lex.peekNextN Cur.peekNextN
  have hlen := h.len hs
  have ho := h.cur.offset
  simp only [ho]
  have htx : t = (l ++ m) ++ r := by rw [h.cur.text]; simp
  by_cases hend : blen l + blen m ≥ src.length
  · rw [if_pos hend]
    have : r = [] := blen_eq_zero.mp (by simp at hlen; omega)
    rw [this]; rfl
  · rw [if_neg hend]
    by_cases hin : (decide (blen l + blen m ≥ st.cur.chunk.start) && decide (blen l + blen m < st.cur.chunk.stop)) = true
    · rw [if_pos hin]
      simp at hin
      have hat : CurAt (Linked src t 0) t (l ++ m) r { st.cur with offset := blen (l ++ m) } :=
        ⟨htx, rfl, h.cur.chunk, h.cur.good⟩
      obtain ⟨k, m', r', hci⟩ := curIn_of_contains hat (by simp; omega) (by simp; omega) (fun _ => by simp; omega)
      have hp := hci.pos
      simp at hp
      have : blen l + blen m - st.cur.chunk.start = blen k := by omega
      rw [this, hci.split, strFrom_append]
      simp [hci.head?]
    · rw [if_neg hin]
      have := getCharAt_spec hs htx
      simpa using this

/-- Comparing the characters after `m` with a word of ASCII characters. -/
theorem wordAhead_at {up : Char → Char} (w : Str) {m : Str} (hw : ∀ e ∈ w, ∀ a, up a = e → a.utf8Size = 1)
    (h : LexAt src t l (m ++ r) toks st) :
    Xml.wordAhead src st up (blen m) w = .ok (decide (w = (r.take w.length).map up)) := by
  induction w generalizing m r with
  | nil => simp [Xml.wordAhead]
  | cons e w ih =>
    rw [Xml.wordAhead, peekAfter_at hs h, run_bind_ok]
    cases r with
    | nil => simp
    | cons a r =>
      simp only [List.head?_cons]
      by_cases ha : up a = e
      · rw [if_pos ha]
        have h1 := hw e List.mem_cons_self a ha
        have := ih (m := m ++ [a]) (r := r) (fun e he => hw e (List.mem_cons_of_mem _ he)) (by simpa using h)
        simp only [blen_append, blen_cons, blen_nil, h1, Nat.add_zero] at this
        rw [this]
        simp [ha]
      · rw [if_neg ha]
        simp [Ne.symm ha]

theorem ahead_at {c : Char} {cs : Str} (hc : ∀ e ∈ c :: cs, e.utf8Size = 1) (h : LexAt src t l r toks st) :
    ∃ st', Xml.ahead src st c cs = .ok (st', decide (c :: cs <+: r)) ∧ LexAt src t l r toks st' := by
  obtain ⟨s1, h1, h2⟩ := peek_at hs h
  unfold Xml.ahead
  simp only [h1, run_bind_ok]
  cases r with
  | nil => exact ⟨s1, by simp, h2⟩
  | cons d r =>
    by_cases hd : d = c
    · subst hd
      simp only [List.head?_cons, if_true]
      have := wordAhead_at hs (up := id) cs (m := [d]) (r := r) (fun e he a ha => by
        subst ha; exact hc _ (List.mem_cons_of_mem _ he)) (by simpa using h2)
      have hb : blen [d] = 1 := by simp [hc d List.mem_cons_self]
      rw [hb] at this
      rw [this]
      refine ⟨s1, ?_, h2⟩
      simp only [run_bind_ok, run_pure, List.map_id]
      congr 2
      rw [decide_eq_decide, List.cons_prefix_cons]
      simp only [true_and]
      rw [List.prefix_iff_eq_take]
    · refine ⟨s1, ?_, h2⟩
      simp [hd, List.cons_prefix_cons, Ne.symm hd]

theorem doctypeLoop_at (fuel : Nat) (d : Int) (h : LexAt src t l r toks st) (hf : r.length < fuel) :
    ∃ st' b, Xml.doctypeLoop src fuel d st = .ok (st', b) ∧
      match upToAngle d r with
      | some (m, r') => b = true ∧ LexAt src t (l ++ m) r' toks st'
      | none => b = false ∧ LexAt src t (l ++ r) [] toks st' := by
  induction fuel generalizing l r st d with
  | zero => omega
  | succ fuel ih =>
    unfold Xml.doctypeLoop
    rw [h.notAtEnd hs]
    cases r with
    | nil => exact ⟨st, false, by simp, rfl, by simpa using h⟩
    | cons c r =>
      rw [if_pos (by simp)]
      obtain ⟨s1, h1, h2⟩ := peek_at hs h
      simp only [h1, run_bind_ok, List.head?_cons]
      have hadv := advance_char hs h2
      have hf' : r.length < fuel := by simp at hf; omega
      have fin : ∀ (d' : Int), d' = d + (if c = '[' then 1 else 0) - (if c = ']' then 1 else 0) → ¬ (c = '>' ∧ d = 0) →
          ∃ st' b, Xml.doctypeLoop src fuel d' (s1.advance src c.utf8Size) = .ok (st', b) ∧
            match upToAngle d (c :: r) with
            | some (m, r') => b = true ∧ LexAt src t (l ++ m) r' toks st'
            | none => b = false ∧ LexAt src t (l ++ c :: r) [] toks st' := by
        rintro d' rfl hn
        obtain ⟨s2, b, g1, g2⟩ := ih _ hadv hf'
        refine ⟨s2, b, g1, ?_⟩
        rw [upToAngle, if_neg hn]
        cases hu : upToAngle (d + (if c = '[' then 1 else 0) - (if c = ']' then 1 else 0)) r with
        | none => rw [hu] at g2; simpa using g2
        | some p => rw [hu] at g2; simpa using g2
      by_cases hc1 : c = '['
      · subst hc1
        rw [if_pos rfl]
        exact fin (d + 1) (by simp) (by simp)
      rw [if_neg hc1]
      by_cases hc2 : c = ']'
      · subst hc2
        rw [if_pos rfl]
        exact fin (d - 1) (by simp) (by simp)
      rw [if_neg hc2]
      by_cases hc3 : c = '>'
      · subst hc3
        rw [if_pos rfl]
        by_cases hd : d = 0
        · rw [if_pos hd]
          exact ⟨_, true, rfl, by rw [upToAngle, if_pos ⟨rfl, hd⟩]; exact ⟨rfl, hadv⟩⟩
        · rw [if_neg hd]
          exact fin d (by simp) (by simp [hd])
      rw [if_neg hc3]
      exact fin d (by simp [hc1, hc2]) (by simp [hc3])

theorem closeLoop_at {c : Char} {cs : Str} (hc : ∀ e ∈ c :: cs, e.utf8Size = 1) (fuel : Nat) (h : LexAt src t l r toks st)
    (hf : r.length < fuel) :
    ∃ st' b, Xml.closeLoop src c cs fuel st = .ok (st', b) ∧
      match upTo (c :: cs) r with
      | some (m, r') => b = true ∧ LexAt src t (l ++ m) r' toks st'
      | none => b = false ∧ LexAt src t (l ++ r) [] toks st' := by
  have hbl : ∀ w : Str, (∀ e ∈ w, e.utf8Size = 1) → blen w = w.length := by
    intro w hw
    induction w with
    | nil => rfl
    | cons a w ihw =>
      have := ihw (fun e he => hw e (List.mem_cons_of_mem _ he))
      simp [this, hw a List.mem_cons_self]; omega
  induction fuel generalizing l r st with
  | zero => omega
  | succ fuel ih =>
    unfold Xml.closeLoop
    rw [h.notAtEnd hs]
    cases r with
    | nil => exact ⟨st, false, by simp, rfl, by simpa using h⟩
    | cons d r =>
      rw [if_pos (by simp)]
      obtain ⟨s1, h1, h2⟩ := ahead_at hs hc h
      simp only [h1, run_bind_ok, upTo]
      by_cases hp : c :: cs <+: d :: r
      · rw [if_pos hp, if_pos (by simpa using hp)]
        obtain ⟨x, hx⟩ := hp
        rw [← hx] at h2
        have := advance_at hs h2
        rw [hbl _ hc] at this
        refine ⟨_, true, rfl, rfl, ?_⟩
        rw [← hx, List.drop_left, Nat.add_comm]
        simpa using this
      · rw [if_neg hp, if_neg (by simpa using hp)]
        obtain ⟨s2, k1, k2⟩ := peek_at hs h2
        simp only [k1, run_bind_ok, List.head?_cons]
        obtain ⟨s3, b, g1, g2⟩ := ih (advance_char hs k2) (by simp at hf; omega)
        refine ⟨s3, b, g1, ?_⟩
        cases hu : upTo (c :: cs) r with
        | none => rw [hu] at g2; simpa using g2
        | some p => rw [hu] at g2; simpa using g2

theorem spaces_at (ws : Char → Bool) (h : LexAt src t l r toks st) :
    Scanned src t l r toks (scanWhitespace ws true src st Xml.whitespace)
      (if r.takeWhile ws ≠ [] then some (longest Xml.whitespace 0 ws r) else none) := by
  obtain ⟨s1, b, m, r', new, h1, h2, h3, h4, h5, h6⟩ := whitespace_at hs h ws true Xml.whitespace
  simp only [if_true] at h4
  by_cases hm : m = []
  · rw [if_neg (by rw [← h4]; simpa using hm)]
    obtain rfl : b = false := by
      cases b with
      | false => rfl
      | true => exact absurd hm (h5.mp rfl)
    subst hm
    rw [List.nil_append] at h2
    subst h2
    exact ⟨s1, h1, by simpa [h6] using h3⟩
  · rw [if_pos (by rw [← h4]; exact hm)]
    obtain rfl : b = true := h5.mpr hm
    rw [h6, if_neg hm] at h3
    have hr' : r' = r.dropWhile ws := by
      have := List.takeWhile_append_dropWhile (p := ws) (l := r)
      rw [← h4] at this
      exact List.append_cancel_left (h2.symm.trans this.symm)
    refine ⟨s1, h1, by simp, ?_⟩
    simpa [← h4, ← hr'] using h3

theorem xmlComment_at (h : LexAt src t l r toks st) :
    Scanned src t l r toks (Xml.commentCfg.scan src st Xml.comment Xml.comment)
      (if "<!--".toList <+: r then some (between Xml.comment Xml.comment "<!--".toList (upTo "-->".toList) r) else none) := by
  obtain ⟨s1, b, m, r', new, h1, h2, h3, h4⟩ := comment_at hs h Xml.commentCfg Xml.comment Xml.comment
  cases h4 with
  | line hn _ => exact absurd rfl hn
  | block _ _ _ _ hb =>
    have hp : "<!--".toList <+: r := by obtain ⟨a, ha, _⟩ := hb; exact ⟨a, ha.symm⟩
    have he : between Xml.comment Xml.comment "<!--".toList (upTo "-->".toList) r = (Xml.comment, m, r') :=
      blockComment_upTo (by decide) hb h2
    rw [if_pos hp, he]
    exact ⟨s1, h1, h2, h3⟩
  | nested _ _ _ hn => simp [Xml.commentCfg] at hn
  | unclosable _ _ _ hn => simp [Xml.commentCfg] at hn
  | absent _ hb =>
    have hb' : ¬ "<!--".toList <+: r := hb.resolve_left (by simp [Xml.commentCfg])
    rw [if_neg hb']
    rw [List.nil_append] at h2
    subst h2
    exact ⟨s1, h1, by simpa using h3⟩

omit hs in
/-- After the end of an between piece has been looked for. -/
theorem between_at {pre : Str} {stop : Str → Option (Str × Str)} {x : Run (Lex × Bool)} {k bad start : Nat} {r0 : Str} (hr : r = pre ++ r0)
    (hstart : start = blen l)
    (hok : ∀ m r', stop r0 = some (m, r') → r0 = m ++ r')
    (hx : ∃ st' b, x = .ok (st', b) ∧
      match stop r0 with
      | some (m, r') => b = true ∧ LexAt src t (l ++ pre ++ m) r' toks st'
      | none => b = false ∧ LexAt src t (l ++ pre ++ r0) [] toks st') :
    Scanned src t l r toks (do
      let (st, found) ← x
      pure (st.addToken (if found then k else bad) start st.pos, true)) (some (between k bad pre stop r)) := by
  obtain ⟨s1, b, h1, h2⟩ := hx
  rw [between, hr, List.drop_left]
  simp only [h1, run_bind_ok]
  cases hu : stop r0 with
  | none =>
    rw [hu] at h2
    obtain ⟨rfl, h2⟩ := h2
    rw [List.append_assoc] at h2
    exact ⟨_, rfl, by simp, record_at hstart h2 _⟩
  | some p =>
    obtain ⟨m, r'⟩ := p
    rw [hu] at h2
    obtain ⟨rfl, h2⟩ := h2
    rw [List.append_assoc] at h2
    refine ⟨_, rfl, by rw [hok _ _ hu]; simp, ?_⟩
    rw [List.take_left]
    exact record_at hstart h2 _

theorem doctype_at (h : LexAt src t l r toks st) :
    Scanned src t l r toks (Xml.lexDoctype src st)
      (if beginsAnyCase "<!DOCTYPE".toList r then some (between Xml.doctype Xml.error "<!DOCTYPE".toList (upToAngle 0) r) else none) := by
  obtain ⟨s1, h1, h2⟩ := ahead_at hs (c := '<') (cs := ['!']) (by decide) h
  have hup : ∀ e ∈ "DOCTYPE".toList, ∀ a : Char, a.toUpper = e → a.utf8Size = 1 := by
    intro e he a ha
    have he' : e.toNat < 128 := by
      have : ∀ e ∈ "DOCTYPE".toList, e.toNat < 128 := by decide
      exact this e he
    refine utf8Size_ascii ?_
    by_cases hl : 'a'.val ≤ a.val ∧ a.val ≤ 'z'.val
    · have := UInt32.le_iff_toNat_le.mp hl.2
      have e : 'z'.val.toNat = 122 := rfl
      rw [e] at this
      show a.val.toNat ≤ 127
      omega
    · rw [Char.toUpper, dif_neg hl] at ha
      subst ha; omega
  unfold Xml.lexDoctype
  simp only [h1, run_bind_ok]
  by_cases hp : ['<', '!'] <+: r
  · simp only [hp, decide_true, if_true]
    obtain ⟨r1, rfl⟩ := hp
    have hw := wordAhead_at hs (up := Char.toUpper) "DOCTYPE".toList (m := ['<', '!']) (r := r1) hup h2
    have e2 : blen ['<', '!'] = 2 := by decide
    rw [e2] at hw
    simp only [hw, run_bind_ok]
    have hiff : beginsAnyCase "<!DOCTYPE".toList (['<', '!'] ++ r1) ↔ "DOCTYPE".toList = (r1.take "DOCTYPE".toList.length).map Char.toUpper := by
      have e : "<!DOCTYPE".toList = '<' :: '!' :: "DOCTYPE".toList := by decide
      unfold beginsAnyCase
      rw [e]
      have u1 : '<'.toUpper = '<' := by decide
      have u2 : '!'.toUpper = '!' := by decide
      simp only [List.length_cons, List.cons_append, List.nil_append, List.take_succ_cons, List.map_cons, u1, u2, List.cons.injEq,
        true_and]
    by_cases hd : "DOCTYPE".toList = (r1.take "DOCTYPE".toList.length).map Char.toUpper
    · rw [if_pos (hiff.mpr hd)]
      simp only [← hd, decide_true, if_true]
      have hlen : (r1.take 7).length = 7 := by
        have := congrArg List.length hd
        have e7 : "DOCTYPE".toList.length = 7 := by decide
        rw [e7] at this
        simpa using this.symm
      have hsz : ∀ a ∈ r1.take 7, a.utf8Size = 1 := by
        intro a ha
        have : a.toUpper ∈ (r1.take "DOCTYPE".toList.length).map Char.toUpper := List.mem_map_of_mem ha
        rw [← hd] at this
        exact hup _ this a rfl
      have hb : blen (r1.take 7) = 7 := by rw [blen_ascii hsz, hlen]
      have h3 : LexAt src t l ((['<', '!'] ++ r1.take 7) ++ r1.drop 7) toks s1 := by
        rw [List.append_assoc, List.take_append_drop]; exact h2
      have h4 := advance_at hs h3
      have hb9 : blen (['<', '!'] ++ r1.take 7) = 9 := by rw [blen_append, hb, e2]
      rw [hb9] at h4
      have := between_at (k := Xml.doctype) (bad := Xml.error) (r := ['<', '!'] ++ r1) (pre := ['<', '!'] ++ r1.take 7) (r0 := r1.drop 7)
        (by rw [List.append_assoc, List.take_append_drop]) h.pos (fun _ _ => upToAngle_ok)
        (doctypeLoop_at hs _ 0 h4 (show _ < src.length + 1 by rw [h4.len hs]; have := length_le_blen (r1.drop 7); omega))
      have he : between Xml.doctype Xml.error "<!DOCTYPE".toList (upToAngle 0) (['<', '!'] ++ r1) =
          between Xml.doctype Xml.error (['<', '!'] ++ r1.take 7) (upToAngle 0) (['<', '!'] ++ r1) := by
        have e9 : "<!DOCTYPE".toList.length = 9 := by decide
        have e9' : (['<', '!'] ++ r1.take 7).length = 9 := by simp [hlen]
        unfold between
        rw [e9, e9']
      rw [he]
      exact this
    · rw [if_neg (fun hh => hd (hiff.mp hh))]
      simp only [hd, decide_false, Bool.false_eq_true, if_false]
      exact ⟨s1, rfl, h2⟩
  · have hnot : ¬ beginsAnyCase "<!DOCTYPE".toList r := by
      intro hh
      unfold beginsAnyCase at hh
      have e : "<!DOCTYPE".toList = '<' :: '!' :: "DOCTYPE".toList := by decide
      rw [e] at hh
      cases r with
      | nil => simp at hh
      | cons a r =>
        cases r with
        | nil => simp at hh
        | cons b r =>
          simp only [List.length_cons, List.take_succ_cons, List.map_cons, List.cons.injEq] at hh
          have up : ∀ {a e : Char}, e = a.toUpper → e.val < 65 → a = e := by
            intro a e he hlt
            by_cases hl : 'a'.val ≤ a.val ∧ a.val ≤ 'z'.val
            · exfalso
              rw [Char.toUpper, dif_pos hl] at he
              have h1 := UInt32.le_iff_toNat_le.mp hl.1
              have h2 := UInt32.le_iff_toNat_le.mp hl.2
              have h3 := UInt32.lt_iff_toNat_lt.mp hlt
              rw [he] at h3
              have e1 : 'z'.val.toNat = 122 := rfl
              have e2 : 'a'.val.toNat = 97 := rfl
              have e3 : ('A'.val - 'a'.val).toNat = 4294967264 := rfl
              have e4 : (65 : UInt32).toNat = 65 := rfl
              rw [UInt32.toNat_add, e3, e4] at h3
              omega
            · rw [Char.toUpper, dif_neg hl] at he; exact he.symm
          have := up hh.1 (by decide)
          have := up hh.2.1 (by decide)
          subst_vars
          exact hp ⟨r, rfl⟩
    rw [if_neg hnot]
    simp only [hp, decide_false, Bool.false_eq_true, if_false]
    exact ⟨s1, rfl, h2⟩

theorem cdata_at (h : LexAt src t l r toks st) :
    Scanned src t l r toks (Xml.lexCdata src st)
      (if "<![CDATA[".toList <+: r then some (between Xml.cdata Xml.error "<![CDATA[".toList (upTo [']', ']', '>']) r) else none) := by
  obtain ⟨s1, h1, h2⟩ := ahead_at hs (c := '<') (cs := "![CDATA[".toList) (by decide) h
  have e : '<' :: "![CDATA[".toList = "<![CDATA[".toList := by decide
  have eb : blen "<![CDATA[".toList = 9 := by decide
  rw [e] at h1
  unfold Xml.lexCdata
  simp only [h1, run_bind_ok]
  by_cases hp : "<![CDATA[".toList <+: r
  · simp only [hp, decide_true, if_true]
    obtain ⟨r0, hr⟩ := hp
    have h3 := h2
    rw [← hr] at h3
    have h4 := advance_at hs h3
    rw [eb] at h4
    exact between_at hr.symm h.pos (fun _ _ => upTo_ok)
      (closeLoop_at hs (c := ']') (cs := [']', '>']) (by decide) _ h4 (by rw [h4.len hs]; have := length_le_blen r0; omega))
  · simp only [hp, decide_false, Bool.false_eq_true, if_false]
    exact ⟨s1, rfl, h2⟩

theorem instruction_at (h : LexAt src t l r toks st) :
    Scanned src t l r toks (Xml.lexInstruction src st)
      (if ['<', '?'] <+: r then some (between Xml.instruction Xml.error ['<', '?'] (upTo ['?', '>']) r) else none) := by
  obtain ⟨s1, h1, h2⟩ := ahead_at hs (c := '<') (cs := ['?']) (by decide) h
  have e : '<' :: ['?'] = ['<', '?'] := by decide
  have eb : blen ['<', '?'] = 2 := by decide
  rw [e] at h1
  unfold Xml.lexInstruction
  simp only [h1, run_bind_ok]
  by_cases hp : ['<', '?'] <+: r
  · simp only [hp, decide_true, if_true]
    obtain ⟨r0, hr⟩ := hp
    have h3 := h2
    rw [← hr] at h3
    have h4 := advance_at hs h3
    rw [eb] at h4
    exact between_at hr.symm h.pos (fun _ _ => upTo_ok)
      (closeLoop_at hs (c := '?') (cs := ['>']) (by decide) _ h4 (by rw [h4.len hs]; have := length_le_blen r0; omega))
  · simp only [hp, decide_false, Bool.false_eq_true, if_false]
    exact ⟨s1, rfl, h2⟩

omit hs in
/-- A token over the characters passed. -/
theorem mark_at {m r0 : Str} {k n : Nat} (hn : n = m.length) (hr : r = m ++ r0) (h : LexAt src t l r toks st) {st' : Lex} (h' : LexAt src t (l ++ m) r0 toks st') :
    Scanned src t l r toks (pure (st'.addToken k st.pos st'.pos, true)) (some (mark k n r)) := by
  rw [hr, mark, hn]
  exact ⟨_, rfl, by simp, by simpa using record_at h.pos h' k⟩

theorem single_at {c : Char} (hc : c.utf8Size = 1) (k : Nat) (h : LexAt src t l (c :: r) toks st) :
    Scanned src t l (c :: r) toks (Xml.single src st k) (some (mark k 1 (c :: r))) := by
  have := advance_char hs h
  rw [hc] at this
  exact mark_at (m := [c]) rfl rfl h this

/-- The pieces of `lex_tag_start`. -/
def tagPiece (s : Str) : Option (Nat × Str × Str) :=
  if ['<', '/'] <+: s then some (mark Xml.leftAngleSlash 2 s)
  else if ['<'] <+: s then some (mark Xml.leftAngle 1 s)
  else if ['/', '>'] <+: s then some (mark Xml.slashRightAngle 2 s)
  else if ['>'] <+: s then some (mark Xml.rightAngle 1 s)
  else if ['='] <+: s then some (mark Xml.equals 1 s)
  else none

omit hs in
theorem one_prefix {c d : Char} {s : Str} : [c] <+: d :: s ↔ c = d := by simp

omit hs in
theorem two_prefix {c c' d : Char} {s : Str} : [c, c'] <+: d :: s ↔ c = d ∧ s.head? = some c' := by
  cases s <;> simp [eq_comm]

theorem tag_at (h : LexAt src t l r toks st) : Scanned src t l r toks (Xml.lexTagStart src st) (tagPiece r) := by
  obtain ⟨s1, h1, h2⟩ := peek_at hs h
  unfold Xml.lexTagStart
  simp only [h1, run_bind_ok]
  cases r with
  | nil => exact ⟨s1, rfl, h2⟩
  | cons c r =>
    simp only [List.head?_cons]
    by_cases c1 : c = '<'
    · subst c1
      simp only [if_true]
      unfold Xml.lexOpen
      have h3 : LexAt src t (l ++ ['<']) r toks (s1.advance src 1) := advance_char hs h2
      obtain ⟨s2, g1, g2⟩ := peek_at hs h3
      simp only [g1, run_bind_ok]
      by_cases hd : r.head? = some '/'
      · cases r with
        | nil => simp at hd
        | cons d r =>
          simp at hd
          subst hd
          have hpc : tagPiece ('<' :: '/' :: r) = some (mark Xml.leftAngleSlash 2 ('<' :: '/' :: r)) := by simp [tagPiece]
          rw [hpc]
          have h4 : LexAt src t (l ++ ['<'] ++ ['/']) r toks (s2.advance src 1) := advance_char hs g2
          rw [List.append_assoc] at h4
          simp only [List.head?_cons, if_true]
          exact mark_at (m := ['<', '/']) rfl rfl h2 h4
      · have hpc : tagPiece ('<' :: r) = some (mark Xml.leftAngle 1 ('<' :: r)) := by
          simp only [tagPiece, two_prefix, hd, and_false, if_false, one_prefix, if_true]
        rw [hpc, if_neg hd]
        exact mark_at (m := ['<']) rfl rfl h2 g2
    by_cases c2 : c = '/'
    · subst c2
      simp only [c1, if_false, if_true]
      unfold Xml.lexSlash
      have hpn : s1.peekNextN src 1 = .ok r.head? := peekAfter_at hs (m := ['/']) h2
      simp only [hpn, run_bind_ok]
      by_cases hd : r.head? = some '>'
      · cases r with
        | nil => simp at hd
        | cons d r =>
          simp at hd
          subst hd
          have hpc : tagPiece ('/' :: '>' :: r) = some (mark Xml.slashRightAngle 2 ('/' :: '>' :: r)) := by
            simp [tagPiece]
          rw [hpc]
          simp only [List.head?_cons, if_true]
          have h4 : LexAt src t (l ++ ['/', '>']) r toks (s1.advance src 2) := advance_at hs (m := ['/', '>']) h2
          exact mark_at (m := ['/', '>']) rfl rfl h2 h4
      · have hpc : tagPiece ('/' :: r) = none := by
          simp only [tagPiece, two_prefix, hd, and_false, if_false, one_prefix]; simp
        rw [hpc, if_neg hd]
        exact ⟨s1, rfl, h2⟩
    by_cases c3 : c = '>'
    · subst c3
      simp only [c1, c2, if_false, if_true]
      have hpc : tagPiece ('>' :: r) = some (mark Xml.rightAngle 1 ('>' :: r)) := by
        simp [tagPiece]
      rw [hpc]
      exact single_at hs rfl _ h2
    by_cases c4 : c = '='
    · subst c4
      simp only [c1, c2, c3, if_false, if_true]
      have hpc : tagPiece ('=' :: r) = some (mark Xml.equals 1 ('=' :: r)) := by
        simp [tagPiece]
      rw [hpc]
      exact single_at hs rfl _ h2
    simp only [c1, c2, c3, c4, if_false]
    have hpc : tagPiece (c :: r) = none := by
      simp only [tagPiece, two_prefix, one_prefix, Ne.symm c1, Ne.symm c2, Ne.symm c3, Ne.symm c4, false_and, if_false]
    rw [hpc]
    exact ⟨s1, rfl, h2⟩

/-- The pieces of `lex_entity_reference`. -/
def andPiece (s : Str) : Option (Nat × Str × Str) :=
  if ['&', '#', 'x'] <+: s then some (refPiece Xml.characterReference 3 Json.isHexDigit s)
  else if ['&', '#'] <+: s then some (refPiece Xml.characterReference 2 Json.isDigit s)
  else if ['&'] <+: s then some (refPiece Xml.entityReference 1 Xml.isAlnum s)
  else none

theorem reference_at {m r0 : Str} {n k start : Nat} {p : Char → Bool} (hn : n = m.length) (hr : r = m ++ r0) (hstart : start = blen l)
    (h : LexAt src t (l ++ m) r0 toks st) :
    Scanned src t l r toks (Xml.reference src start p k st) (some (refPiece k n p r)) := by
  obtain ⟨s1, h1, h2⟩ := takeWhile_at hs h p
  obtain ⟨s2, g1, g2⟩ := peek_at hs h2
  unfold Xml.reference refPiece
  simp only [h1, run_bind_ok, g1, hn, hr, List.drop_left, List.take_left]
  rw [g2.pos, h.pos]
  have hbad : ∀ rest, rest = r0.dropWhile p → Scanned src t l (m ++ r0) toks
      (pure (s2.addToken Xml.error start (blen (l ++ m ++ r0.takeWhile p)), true)) (some (Xml.error, m ++ r0.takeWhile p, rest)) := by
    rintro rest rfl
    have g3 := g2
    rw [List.append_assoc] at g3
    have := record_at hstart g3 Xml.error
    rw [g2.pos] at this
    exact ⟨_, rfl, by simp, this⟩
  cases hrest : r0.dropWhile p with
  | nil =>
    rw [if_neg (by simp)]
    exact hbad _ hrest.symm
  | cons d rest =>
    by_cases hd : d = ';'
    · subst hd
      by_cases hb : r0.takeWhile p = []
      · rw [if_neg (by rw [hb]; simp)]
        simp only [hb, if_true]
        have := hbad _ hrest.symm
        rw [hb] at this
        exact this
      · rw [if_pos ⟨pos_lt.mpr hb, rfl⟩]
        simp only [hb, if_false]
        rw [hrest] at g2
        have h4 : LexAt src t (l ++ m ++ r0.takeWhile p ++ [';']) rest toks (s2.advance src 1) := advance_char hs g2
        rw [List.append_assoc, List.append_assoc] at h4
        refine ⟨_, rfl, ?_, ?_⟩
        · have := List.takeWhile_append_dropWhile (p := p) (l := r0)
          rw [hrest] at this
          simp [this]
        · have := record_at hstart h4 k
          simpa using this
    · rw [if_neg (by simp [hd])]
      have : ∀ rest', d :: rest ≠ ';' :: rest' := by intro x hx; simp at hx; exact hd hx.1
      split
      · rename_i x hx; exact absurd hx (this _)
      · exact hbad _ hrest.symm

theorem and_at (h : LexAt src t l r toks st) : Scanned src t l r toks (Xml.lexReference src st) (andPiece r) := by
  obtain ⟨s1, h1, h2⟩ := peek_at hs h
  unfold Xml.lexReference
  simp only [h1, run_bind_ok]
  cases r with
  | nil => exact ⟨s1, rfl, h2⟩
  | cons c r =>
    by_cases c1 : c = '&'
    · subst c1
      simp only [List.head?_cons, if_true]
      unfold Xml.anyReference
      have h3 : LexAt src t (l ++ ['&']) r toks (s1.advance src 1) := advance_char hs h2
      obtain ⟨s2, g1, g2⟩ := peek_at hs h3
      simp only [g1, run_bind_ok]
      by_cases hd : r.head? = some '#'
      · cases r with
        | nil => simp at hd
        | cons d r =>
          simp at hd
          subst hd
          simp only [List.head?_cons, if_true]
          unfold Xml.charReference
          have h4 : LexAt src t (l ++ ['&'] ++ ['#']) r toks (s2.advance src 1) := advance_char hs g2
          rw [List.append_assoc] at h4
          obtain ⟨s3, k1, k2⟩ := peek_at hs h4
          simp only [k1, run_bind_ok]
          by_cases he : r.head? = some 'x'
          · cases r with
            | nil => simp at he
            | cons e r =>
              simp at he
              subst he
              have hpc : andPiece ('&' :: '#' :: 'x' :: r) = some (refPiece Xml.characterReference 3 Json.isHexDigit ('&' :: '#' :: 'x' :: r)) := by
                simp [andPiece]
              rw [hpc]
              simp only [List.head?_cons, if_true]
              have h5 : LexAt src t (l ++ (['&'] ++ ['#']) ++ ['x']) r toks (s3.advance src 1) := advance_char hs k2
              rw [List.append_assoc] at h5
              exact reference_at hs (m := ['&', '#', 'x']) rfl rfl h.pos h5
          · have hpc : andPiece ('&' :: '#' :: r) = some (refPiece Xml.characterReference 2 Json.isDigit ('&' :: '#' :: r)) := by
              have : ¬ ['&', '#', 'x'] <+: '&' :: '#' :: r := by
                rw [List.cons_prefix_cons, two_prefix]; simp [he]
              simp [andPiece, this]
            rw [hpc, if_neg he]
            exact reference_at hs (m := ['&', '#']) rfl rfl h.pos k2
      · have hpc : andPiece ('&' :: r) = some (refPiece Xml.entityReference 1 Xml.isAlnum ('&' :: r)) := by
          have : ¬ ['&', '#', 'x'] <+: '&' :: r := by
            rw [List.cons_prefix_cons]
            rintro ⟨_, x, rfl⟩
            simp at hd
          simp only [andPiece, this, two_prefix, one_prefix, hd, and_false, if_false, if_true]
        rw [hpc, if_neg hd]
        exact reference_at hs (m := ['&']) rfl rfl h.pos g2
    · have hpc : andPiece (c :: r) = none := by
        simp [andPiece, Ne.symm c1]
      rw [hpc, if_neg (by simpa using c1)]
      exact ⟨s1, rfl, h2⟩

theorem xmlString_at (h : LexAt src t l r toks st) :
    Scanned src t l r toks (Xml.stringCfg.scan src st Xml.stringLiteral)
      (if ['"'] <+: r then some (between Xml.stringLiteral Xml.stringLiteral ['"'] (upTo ['"']) r)
       else if ['\''] <+: r then some (between Xml.stringLiteral Xml.stringLiteral ['\''] (upTo ['\'']) r)
       else none) := by
  obtain ⟨s1, b, m, r', new, h1, h2, h3, h4⟩ := string_at hs h Xml.stringCfg Xml.stringLiteral
  rcases h4 with ⟨rfl, ⟨q, s, hr, hq, hl⟩, _, rfl⟩ | ⟨rfl, hn, rfl, rfl⟩
  · obtain ⟨cl, hcl⟩ := hl (by simp [Xml.stringCfg])
    have he := literal_upTo (k := Xml.stringLiteral) hcl h2
    have hq' : q = '"' ∨ q = '\'' := by simpa [Xml.stringCfg] using hq
    rcases hq' with rfl | rfl
    · rw [if_pos (by rw [hr]; simp)]
      have he' : between Xml.stringLiteral Xml.stringLiteral ['"'] (upTo ['"']) r = (Xml.stringLiteral, m, r') := he
      rw [he']
      exact ⟨s1, h1, h2, h3⟩
    · rw [if_neg (by rw [hr]; simp), if_pos (by rw [hr]; simp)]
      have he' : between Xml.stringLiteral Xml.stringLiteral ['\''] (upTo ['\'']) r = (Xml.stringLiteral, m, r') := he
      rw [he']
      exact ⟨s1, h1, h2, h3⟩
  · rw [List.nil_append] at h2
    subst h2
    rw [if_neg, if_neg]
    · exact ⟨s1, h1, by simpa using h3⟩
    · rintro ⟨x, hx⟩; exact hn _ x hx.symm (by simp [Xml.stringCfg])
    · rintro ⟨x, hx⟩; exact hn _ x hx.symm (by simp [Xml.stringCfg])

theorem name_at (h : LexAt src t l r toks st) :
    Scanned src t l r toks (Xml.lexName src st)
      (if (r.head?.map Xml.nameStart).getD false then some (longest Xml.identifier 1 Xml.nameChar r) else none) := by
  obtain ⟨s1, h1, h2⟩ := peek_at hs h
  unfold Xml.lexName
  simp only [h1, run_bind_ok]
  cases r with
  | nil => exact ⟨s1, rfl, h2⟩
  | cons c r =>
    have e : ((c :: r).head?.map Xml.nameStart).getD false = Xml.nameStart c := rfl
    rw [e]
    simp only [List.head?_cons]
    by_cases hc : Xml.nameStart c = true
    · rw [if_pos hc, if_pos hc]
      obtain ⟨s2, g1, g2⟩ := takeWhile_at hs (advance_char hs h2) Xml.nameChar
      simp only [g1, run_bind_ok]
      rw [List.append_assoc] at g2
      exact ⟨_, rfl, by simp, by simpa using record_at h.pos g2 Xml.identifier⟩
    · rw [if_neg hc, if_neg hc]
      exact ⟨s1, rfl, h2⟩

theorem xmlSingle_at (h : LexAt src t l r toks st) :
    Scanned src t l r toks (Xml.lexSingle src st) ((r.head?.bind Xml.singleKind).map (fun k => mark k 1 r)) := by
  obtain ⟨s1, h1, h2⟩ := peek_at hs h
  unfold Xml.lexSingle
  simp only [h1, run_bind_ok]
  cases r with
  | nil => exact ⟨s1, rfl, h2⟩
  | cons c r =>
    simp only [List.head?_cons, Option.bind_some]
    cases hk : Xml.singleKind c with
    | none => exact ⟨s1, rfl, h2⟩
    | some k =>
      have hsz : c.utf8Size = 1 := by
        unfold Xml.singleKind at hk
        split_ifs at hk <;> subst_vars <;> rfl
      exact single_at hs hsz k h2

theorem text_at (h : LexAt src t l r toks st) :
    Scanned src t l r toks (Xml.lexText src st)
      (if r.takeWhile (fun c => !Xml.textStop c) ≠ [] then some (longest Xml.text 0 (fun c => !Xml.textStop c) r) else none) := by
  obtain ⟨s1, h1, h2⟩ := takeWhile_at hs h (fun c => !Xml.textStop c)
  unfold Xml.lexText
  simp only [h1, run_bind_ok]
  by_cases hm : r.takeWhile (fun c => !Xml.textStop c) = []
  · rw [if_neg (by rw [h2.pos, h.pos, hm]; simp), if_neg (by simpa using hm)]
    have := List.takeWhile_append_dropWhile (p := fun c => !Xml.textStop c) (l := r)
    rw [hm] at this h2
    rw [List.nil_append] at this
    rw [this] at h2
    exact ⟨s1, rfl, by simpa using h2⟩
  · rw [if_pos (by rw [h2.pos, h.pos]; exact pos_lt.mpr hm), if_pos hm]
    exact ⟨_, rfl, by simp, by simpa using record_at h.pos h2 Xml.text⟩

/-- The first scanner that finds something decides. -/
theorem firstOf_at {fs : List (Lex → Run (Lex × Bool))} {os : List (Option (Nat × Str × Str))}
    (hf : List.Forall₂ (fun f o => ∀ st, LexAt src t l r toks st → Scanned src t l r toks (f st) o) fs os)
    (h : LexAt src t l r toks st) : Scanned src t l r toks (Xml.firstOf fs st) (os.findSome? id) := by
  induction hf generalizing st with
  | nil => exact ⟨st, rfl, h⟩
  | @cons f o fs os h1 _ ih =>
    unfold Xml.firstOf
    have := h1 st h
    cases o with
    | none =>
      obtain ⟨s1, g1, g2⟩ := this
      simp only [g1, run_bind_ok, Bool.false_eq_true, if_false, List.findSome?_cons, id]
      exact ih g2
    | some p =>
      obtain ⟨k, m, r'⟩ := p
      obtain ⟨s1, g1, g2, g3⟩ := this
      simp only [g1, run_bind_ok, if_true, List.findSome?_cons, id]
      exact ⟨s1, rfl, g2, g3⟩

end

/-- What the scanners make of a text. -/
def xmlOptions (ws : Char → Bool) (r : Str) : List (Option (Nat × Str × Str)) :=
  [if r.takeWhile ws ≠ [] then some (longest Xml.whitespace 0 ws r) else none,
   if "<!--".toList <+: r then some (between Xml.comment Xml.comment "<!--".toList (upTo "-->".toList) r) else none,
   if beginsAnyCase "<!DOCTYPE".toList r then some (between Xml.doctype Xml.error "<!DOCTYPE".toList (upToAngle 0) r) else none,
   if "<![CDATA[".toList <+: r then some (between Xml.cdata Xml.error "<![CDATA[".toList (upTo [']', ']', '>']) r) else none,
   if ['<', '?'] <+: r then some (between Xml.instruction Xml.error ['<', '?'] (upTo ['?', '>']) r) else none,
   tagPiece r,
   andPiece r,
   if ['"'] <+: r then some (between Xml.stringLiteral Xml.stringLiteral ['"'] (upTo ['"']) r)
    else if ['\''] <+: r then some (between Xml.stringLiteral Xml.stringLiteral ['\''] (upTo ['\'']) r)
    else none,
   if (r.head?.map Xml.nameStart).getD false then some (longest Xml.identifier 1 Xml.nameChar r) else none,
   (r.head?.bind Xml.singleKind).map (fun k => mark k 1 r),
   if r.takeWhile (fun c => !Xml.textStop c) ≠ [] then some (longest Xml.text 0 (fun c => !Xml.textStop c) r) else none]

theorem findSome_if {α : Type} {c : Prop} [Decidable c] {x : α} {os : List (Option α)} :
    ((if c then some x else none) :: os).findSome? id = if c then some x else os.findSome? id := by
  split <;> simp

theorem xmlOptions_piece {ws : Char → Bool} (hws : XmlSpaces ws) {r : Str} (hr : r ≠ []) :
    (xmlOptions ws r).findSome? id = some (xmlPiece ws r) := by
  obtain ⟨c, s, rfl⟩ := List.exists_cons_of_ne_nil hr
  unfold xmlOptions xmlPiece
  simp only [findSome_if]
  by_cases h1 : (c :: s).takeWhile ws ≠ []
  · rw [if_pos h1, if_pos h1]
  have hc : ws c = false := by
    by_contra hh
    apply h1
    rw [List.takeWhile_cons_of_pos (by simpa using hh)]
    simp
  rw [if_neg h1, if_neg h1]
  by_cases h2 : "<!--".toList <+: c :: s
  · rw [if_pos h2, if_pos h2]
  rw [if_neg h2, if_neg h2]
  by_cases h3 : beginsAnyCase "<!DOCTYPE".toList (c :: s)
  · rw [if_pos h3, if_pos h3]
  rw [if_neg h3, if_neg h3]
  by_cases h4 : "<![CDATA[".toList <+: c :: s
  · rw [if_pos h4, if_pos h4]
  rw [if_neg h4, if_neg h4]
  by_cases h5 : ['<', '?'] <+: c :: s
  · rw [if_pos h5, if_pos h5]
  rw [if_neg h5, if_neg h5]
  unfold tagPiece
  by_cases h6 : ['<', '/'] <+: c :: s
  · simp only [if_pos h6]; rfl
  by_cases h7 : ['<'] <+: c :: s
  · simp only [if_neg h6, if_pos h7]; rfl
  by_cases h8 : ['/', '>'] <+: c :: s
  · simp only [if_neg h6, if_neg h7, if_pos h8]; rfl
  by_cases h9 : ['>'] <+: c :: s
  · simp only [if_neg h6, if_neg h7, if_neg h8, if_pos h9]; rfl
  by_cases h10 : ['='] <+: c :: s
  · simp only [if_neg h6, if_neg h7, if_neg h8, if_neg h9, if_pos h10]; rfl
  simp only [if_neg h6, if_neg h7, if_neg h8, if_neg h9, if_neg h10, List.findSome?_cons, id]
  unfold andPiece
  by_cases a1 : ['&', '#', 'x'] <+: c :: s
  · simp only [if_pos a1]
  by_cases a2 : ['&', '#'] <+: c :: s
  · simp only [if_neg a1, if_pos a2]
  by_cases a3 : ['&'] <+: c :: s
  · simp only [if_neg a1, if_neg a2, if_pos a3]
  simp only [if_neg a1, if_neg a2, if_neg a3]
  by_cases b1 : ['"'] <+: c :: s
  · simp only [if_pos b1]
  by_cases b2 : ['\''] <+: c :: s
  · simp only [if_neg b1, if_pos b2]
  simp only [if_neg b1, if_neg b2]
  by_cases d1 : (((c :: s).head?.map Xml.nameStart).getD false) = true
  · simp only [if_pos d1]
  simp only [if_neg d1]
  have n7 : c ≠ '<' := fun h => h7 (by rw [h]; simp)
  have n9 : c ≠ '>' := fun h => h9 (by rw [h]; simp)
  have n10 : c ≠ '=' := fun h => h10 (by rw [h]; simp)
  have na : c ≠ '&' := fun h => a3 (by rw [h]; simp)
  have nb : c ≠ '"' := fun h => b1 (by rw [h]; simp)
  have nb' : c ≠ '\'' := fun h => b2 (by rw [h]; simp)
  by_cases e1 : c = '!'
  · subst e1; simp [Xml.singleKind]
  by_cases e2 : c = '?'
  · subst e2; simp [Xml.singleKind]
  by_cases e3 : c = ';'
  · subst e3; simp [Xml.singleKind]
  have hk : Xml.singleKind c = none := by simp [Xml.singleKind, *]
  have hts : Xml.textStop c = false := by
    have nw : ∀ d, (d = ' ' ∨ d = '\t' ∨ d = '\n' ∨ d = '\r') → c ≠ d := by
      rintro d hd rfl
      rw [hws.space c hd] at hc
      simp at hc
    have m1 := nw ' ' (by simp)
    have m2 := nw '\t' (by simp)
    have m3 := nw '\n' (by simp)
    have m4 := nw '\r' (by simp)
    simp [Xml.textStop, *]
  have ht : (c :: s).takeWhile (fun c => !Xml.textStop c) ≠ [] := by
    rw [List.takeWhile_cons_of_pos (by simp [hts])]; simp
  simp only [List.head?_cons, Option.bind_some, hk, Option.map_none, if_pos ht, one_prefix, Ne.symm e1, Ne.symm e2, Ne.symm e3, if_false]

section
variable {src : Source} {t : Str} (hs : Supplied src t) {l r : Str} {toks : List Tok} {st : Lex}
include hs

theorem scanners_at {ws : Char → Bool} (hws : XmlSpaces ws) (hr : r ≠ []) (h : LexAt src t l r toks st) :
    Scanned src t l r toks (Xml.firstOf (Xml.scanners ws src) st) (some (xmlPiece ws r)) := by
  rw [← xmlOptions_piece hws hr]
  refine firstOf_at hs ?_ h
  exact .cons (fun _ h => spaces_at hs ws h) (.cons (fun _ h => xmlComment_at hs h) (.cons (fun _ h => doctype_at hs h)
    (.cons (fun _ h => cdata_at hs h) (.cons (fun _ h => instruction_at hs h) (.cons (fun _ h => tag_at hs h)
    (.cons (fun _ h => and_at hs h) (.cons (fun _ h => xmlString_at hs h) (.cons (fun _ h => name_at hs h)
    (.cons (fun _ h => xmlSingle_at hs h) (.cons (fun _ h => text_at hs h) .nil))))))))))

end

/-- A piece is never empty, and the text goes on after it. -/
def PieceOk (s : Str) (p : Nat × Str × Str) : Prop := p.2.1 ≠ [] ∧ s = p.2.1 ++ p.2.2

theorem take_ne_nil {s : Str} {n : Nat} (hs : s ≠ []) (hn : n ≠ 0) : s.take n ≠ [] := by
  simp [hs, hn]

theorem mark_ok {s : Str} {k n : Nat} (hs : s ≠ []) (hn : n ≠ 0) : PieceOk s (mark k n s) :=
  ⟨take_ne_nil hs hn, by simp [mark]⟩

theorem longest_ok {s : Str} {k n : Nat} {p : Char → Bool} (h : s.take n ++ (s.drop n).takeWhile p ≠ []) :
    PieceOk s (longest k n p s) := ⟨h, by simp [longest]⟩

theorem between_ok {s pre : Str} {k bad : Nat} {stop : Str → Option (Str × Str)} (hs : s ≠ []) (hp : pre ≠ [])
    (hstop : ∀ {s m r}, stop s = some (m, r) → s = m ++ r) : PieceOk s (between k bad pre stop s) := by
  unfold between
  cases hu : stop (s.drop pre.length) with
  | none => exact ⟨hs, by simp⟩
  | some q =>
    refine ⟨?_, ?_⟩
    · have := take_ne_nil (n := pre.length) hs (by simpa using hp)
      simp only [ne_eq, List.append_eq_nil_iff, not_and]
      intro h; exact absurd h this
    · simp only [List.append_assoc]
      rw [← hstop (m := q.1) (r := q.2) hu, List.take_append_drop]

theorem refPiece_ok {s : Str} {k n : Nat} {p : Char → Bool} (hs : s ≠ []) (hn : n ≠ 0) : PieceOk s (refPiece k n p s) := by
  have hne : ∀ x : Str, s.take n ++ x ≠ [] := by
    intro x
    simp only [ne_eq, List.append_eq_nil_iff, not_and]
    intro h; exact absurd h (take_ne_nil hs hn)
  have htext : ∀ rest, (s.drop n).dropWhile p = rest → s = (s.take n ++ (s.drop n).takeWhile p) ++ rest := by
    rintro rest rfl
    rw [List.append_assoc, List.takeWhile_append_dropWhile, List.take_append_drop]
  unfold refPiece
  simp only []
  split
  · rename_i rest hrest
    split
    · exact ⟨hne _, htext _ rfl⟩
    · refine ⟨?_, ?_⟩
      · simp
      · have := htext _ hrest
        simpa using this
  · exact ⟨hne _, htext _ rfl⟩

theorem xmlPiece_text {ws : Char → Bool} (hws : XmlSpaces ws) {r : Str} (hr : r ≠ []) : PieceOk r (xmlPiece ws r) := by
  obtain ⟨o, ho, he⟩ := List.exists_of_findSome?_eq_some (xmlOptions_piece hws hr)
  have he : o = some (xmlPiece ws r) := he
  have key : ∀ o ∈ xmlOptions ws r, ∀ p, o = some p → PieceOk r p := by
    have cond : ∀ {c : Prop} [Decidable c] {x p : Nat × Str × Str} {o : Option (Nat × Str × Str)}, (c → PieceOk r x) →
        (¬ c → o = some p → PieceOk r p) → (if c then some x else o) = some p → PieceOk r p := by
      intro c _ x p o h1 h2 h3
      split at h3
      · rename_i hc; simp at h3; subst h3; exact h1 hc
      · rename_i hc; exact h2 hc h3
    have none' : ∀ {c : Prop} {p : Nat × Str × Str}, ¬ c → none = some p → PieceOk r p := by intro _ _ _ h; simp at h
    intro o ho p hp
    simp only [xmlOptions, List.mem_cons, List.not_mem_nil, or_false] at ho
    rcases ho with rfl | rfl | rfl | rfl | rfl | rfl | rfl | rfl | rfl | rfl | rfl
    · exact cond (fun h => longest_ok (by simpa using h)) none' hp
    · exact cond (fun _ => between_ok hr (by decide) upTo_ok) none' hp
    · exact cond (fun _ => between_ok hr (by decide) upToAngle_ok) none' hp
    · exact cond (fun _ => between_ok hr (by decide) upTo_ok) none' hp
    · exact cond (fun _ => between_ok hr (by decide) upTo_ok) none' hp
    · unfold tagPiece at hp
      exact cond (fun _ => mark_ok hr (by decide)) (fun _ => cond (fun _ => mark_ok hr (by decide)) (fun _ =>
        cond (fun _ => mark_ok hr (by decide)) (fun _ => cond (fun _ => mark_ok hr (by decide)) (fun _ =>
        cond (fun _ => mark_ok hr (by decide)) none')))) hp
    · unfold andPiece at hp
      exact cond (fun _ => refPiece_ok hr (by decide)) (fun _ => cond (fun _ => refPiece_ok hr (by decide)) (fun _ =>
        cond (fun _ => refPiece_ok hr (by decide)) none')) hp
    · exact cond (fun _ => between_ok hr (by decide) upTo_ok) (fun _ => cond (fun _ => between_ok hr (by decide) upTo_ok) none') hp
    · exact cond (fun _ => longest_ok (by
        have := take_ne_nil (n := 1) hr (by decide)
        simp only [ne_eq, List.append_eq_nil_iff, not_and]
        intro h; exact absurd h this)) none' hp
    · cases hk : r.head?.bind Xml.singleKind with
      | none => rw [hk] at hp; simp at hp
      | some k =>
        rw [hk] at hp
        simp at hp
        subst hp
        exact mark_ok hr (by decide)
    · exact cond (fun h => longest_ok (by simpa using h)) none' hp
  exact key o ho _ he

section
variable {src : Source} {t : Str} (hs : Supplied src t) {l r : Str} {toks : List Tok} {st : Lex}
include hs

theorem xmlRun_at {ws : Char → Bool} (hws : XmlSpaces ws) (fuel : Nat) (h : LexAt src t l r toks st) (hf : r.length ≤ fuel) :
    ∃ st' ps, Xml.run ws src fuel st = .ok st' ∧ Cut (XmlToken ws) r ps ∧
      LexAt src t t [] (toks ++ tokensOf (blen l) ps) st' := by
  induction fuel generalizing l r toks st with
  | zero =>
    obtain rfl : r = [] := List.length_eq_zero_iff.mp (by omega)
    have hl : l = t := by rw [h.cur.text]; simp
    unfold Xml.run
    rw [h.notAtEnd hs]
    exact ⟨st, [], by simp, .nil, by rw [hl] at h; simpa [tokensOf] using h⟩
  | succ fuel ih =>
    unfold Xml.run
    rw [h.notAtEnd hs]
    by_cases hr : r = []
    · subst hr
      have hl : l = t := by rw [h.cur.text]; simp
      exact ⟨st, [], by simp, .nil, by rw [hl] at h; simpa [tokensOf] using h⟩
    · rw [if_pos (by simpa using hr)]
      obtain ⟨hm, htext⟩ := xmlPiece_text hws hr
      have := scanners_at hs hws hr h
      generalize hp : xmlPiece ws r = p at this hm htext
      obtain ⟨k, m, r'⟩ := p
      obtain ⟨s1, g1, g2, g3⟩ := this
      simp only [g1, run_bind_ok, if_true]
      have := List.length_pos_iff.mpr hm
      have hlen := congrArg List.length g2
      obtain ⟨st', ps, j1, j2, j3⟩ := ih g3 (by simp at hlen; simp only at this; omega)
      refine ⟨st', (some k, m) :: ps, j1, ?_, ?_⟩
      · have hc : XmlToken ws (some k) m r' := ⟨k, rfl, by rw [← g2]; exact hp⟩
        rw [g2]
        exact .cons hm hc j2
      · rw [tokensOf_cons]
        simpa [pieceToks] using j3

/-- The tokens are those of a cut of the text, then the end-of-file token. -/
theorem xmlLex_spec {ws : Char → Bool} (hws : XmlSpaces ws) :
    ∃ ps, Cut (XmlToken ws) t ps ∧ Xml.lex ws src = .ok (tokensOf 0 ps ++ [⟨Xml.error, blen t, blen t⟩]) := by
  obtain ⟨s0, h1, h2⟩ := lex_new hs
  obtain ⟨st, ps, g1, g2, g3⟩ := xmlRun_at hs hws src.length h2 (by rw [hs.length_eq]; exact length_le_blen t)
  refine ⟨ps, g2, ?_⟩
  unfold Xml.lex
  simp only [h1, run_bind_ok, g1]
  simp [Lex.addEof, Lex.addToken, g3.toks, g3.pos]

end

end Oaks
