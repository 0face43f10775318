import Verif.Proofs.LexComment

/-! The scanners of comments, identifiers and white space. -/
namespace Oaks
open Spec

/-! ### Lead bytes -/

theorem encode_lead (c : Char) : ∃ b rest, String.utf8EncodeChar c = b :: rest ∧ (b.toNat < 128 ∨ 192 ≤ b.toNat) ∧
    ∀ x ∈ rest, 128 ≤ x.toNat ∧ x.toNat < 192 := by
  have key : ∀ x, x < 256 → (UInt8.ofNat x).toNat = x := by
    intro x h; simp [UInt8.toNat_ofNat']; omega
  unfold String.utf8EncodeChar
  simp only []
  split
  · rename_i h
    exact ⟨_, [], rfl, Or.inl (by rw [key _ (by omega)]; omega), by simp⟩
  · split
    · rename_i h1 h2
      refine ⟨_, _, rfl, Or.inr ?_, ?_⟩
      · rw [key _ (by omega)]; omega
      · intro x hx
        simp only [List.mem_cons, List.not_mem_nil, or_false] at hx
        subst hx
        rw [key _ (by omega)]; omega
    · split
      · rename_i h1 h2 h3
        refine ⟨_, _, rfl, Or.inr ?_, ?_⟩
        · rw [key _ (by omega)]; omega
        · intro x hx
          simp only [List.mem_cons, List.not_mem_nil, or_false] at hx
          rcases hx with rfl | rfl <;> (rw [key _ (by omega)]; omega)
      · rename_i h1 h2 h3
        refine ⟨_, _, rfl, Or.inr ?_, ?_⟩
        · rw [key _ (by omega)]; omega
        · intro x hx
          simp only [List.mem_cons, List.not_mem_nil, or_false] at hx
          rcases hx with rfl | rfl | rfl <;> (rw [key _ (by omega)]; omega)

/-- A lead byte is found on character boundaries only. -/
theorem lead_boundary {t : Str} {o : Nat} {b : UInt8} (h : (bytes t)[o]? = some b) (hb : b.toNat < 128 ∨ 192 ≤ b.toNat) :
    Boundary t o := by
  induction t generalizing o with
  | nil => simp at h
  | cons c t ih =>
    obtain ⟨x, rest, he, _, hr⟩ := encode_lead c
    have hsz : c.utf8Size = rest.length + 1 := by
      have := congrArg List.length he
      simpa using this
    rw [bytes_cons, he] at h
    cases o with
    | zero => exact ⟨[], c :: t, rfl, rfl⟩
    | succ o =>
      rw [List.cons_append, List.getElem?_cons_succ] at h
      by_cases ho : o < rest.length
      · rw [List.getElem?_append_left ho] at h
        have := hr b (List.mem_of_getElem? h)
        omega
      · rw [List.getElem?_append_right (by omega)] at h
        obtain ⟨l, r, h1, h2⟩ := ih h
        exact ⟨c :: l, r, by simp [h1], by simp; omega⟩

theorem bytes_head {p : Str} (hp : p ≠ []) : ∃ b, (bytes p)[0]? = some b ∧ (b.toNat < 128 ∨ 192 ≤ b.toNat) := by
  cases p with
  | nil => exact absurd rfl hp
  | cons c p =>
    obtain ⟨x, rest, he, hx, _⟩ := encode_lead c
    exact ⟨x, by rw [bytes_cons, he]; rfl, hx⟩

theorem occursAt_byte {t p : Str} {j : Nat} (h : OccursAt t p j) (hp : p ≠ []) : (bytes t)[j]? = (bytes p)[0]? := by
  obtain ⟨l, r, rfl, rfl, _⟩ := h
  obtain ⟨b, hb, _⟩ := bytes_head hp
  rw [hb]
  have hlen := (List.getElem?_eq_some_iff.mp hb).1
  rw [bytes_append, bytes_append, List.getElem?_append_left (by simp [length_bytes] at *; omega),
    List.getElem?_append_right (by simp [length_bytes]), length_bytes, Nat.sub_self, hb]

/-! ### Skipping from any byte -/

variable {G : Chunk → Prop}

theorem slice_tail {t m : Str} {a b : Nat} (h : IsSlice t a b m) {o : Nat} (h1 : a ≤ o) (h2 : o ≤ b) :
    (bytes t).drop o = (bytes m).drop (o - a) ++ (bytes t).drop b := by
  obtain ⟨l, r, rfl, rfl, rfl⟩ := h
  have e : bytes (l ++ m ++ r) = bytes l ++ (bytes m ++ bytes r) := by simp
  have h3 : (bytes l ++ (bytes m ++ bytes r)).drop (blen l + blen m) = bytes r := by
    rw [← List.append_assoc]
    exact List.drop_left' (by simp [length_bytes])
  rw [e, h3, List.drop_append, List.drop_of_length_le (l := bytes l) (by rw [length_bytes]; exact h1), length_bytes,
    List.nil_append, List.drop_append_of_le_length (by rw [length_bytes]; omega)]

theorem takeWhile_before {α} {p : α → Bool} {l : List α} {j : Nat} (h : j < (l.takeWhile p).length) :
    ∃ x, l[j]? = some x ∧ p x = true := by
  induction l generalizing j with
  | nil => simp at h
  | cons a l ih =>
    by_cases ha : p a = true
    · rw [List.takeWhile_cons_of_pos ha] at h
      cases j with
      | zero => exact ⟨a, rfl, ha⟩
      | succ j => simpa using ih (j := j) (by simpa using h)
    · rw [List.takeWhile_cons_of_neg ha] at h; simp at h

theorem takeWhile_stop {α} {p : α → Bool} {l : List α} (h : (l.takeWhile p).length < l.length) :
    ∃ x, l[(l.takeWhile p).length]? = some x ∧ p x = false := by
  induction l with
  | nil => simp at h
  | cons a l ih =>
    by_cases ha : p a = true
    · rw [List.takeWhile_cons_of_pos ha] at h ⊢
      simpa using ih (by simpa using h)
    · rw [List.takeWhile_cons_of_neg ha]; exact ⟨a, rfl, by simpa using ha⟩

theorem skipWith_byte {src : Source} {t : Str} (hs : Supply src t G) (scan : List UInt8 → Nat)
    (p : UInt8 → Bool) (hscan : ∀ bs, scan bs = (bs.takeWhile p).length)
    (fuel : Nat) {o : Nat} {cur : Cur} (h : ByteAt G t o cur) (hf : blen t - o < fuel) :
    ∃ cur', Cur.skipWith src scan fuel cur = .ok cur' ∧
      ByteAt G t (o + (((bytes t).drop o).takeWhile p).length) cur' := by
  induction fuel generalizing o cur with
  | zero => omega
  | succ fuel ih =>
    obtain ⟨cur1, e1, e2, e3, e4, e5⟩ := ensureChunk_byte hs h
    have hlen := hs.length_eq
    have hle := h.le
    have hcb : blen cur1.chunk.text = cur1.chunk.stop - cur1.chunk.start := by unfold Chunk.stop; omega
    have hstop : cur1.chunk.stop ≤ blen t := by
      obtain ⟨l, r, q1, q2, q3⟩ := e2.chunk
      have := congrArg blen q1
      simp at this; omega
    have htail : cur1.tailBytes = (bytes cur1.chunk.text).drop (o - cur1.chunk.start) := by
      unfold Cur.tailBytes
      simp only [e2.offset]
      by_cases hlt : o - cur1.chunk.start < blen cur1.chunk.text
      · rw [if_pos hlt]
      · rw [if_neg hlt, List.drop_of_length_le (by rw [length_bytes]; omega)]
    have hdrop := slice_tail e2.chunk e3 e4
    rw [← htail] at hdrop
    have htl : cur1.tailBytes.length = cur1.chunk.stop - o := by
      rw [htail, List.length_drop, length_bytes]; omega
    unfold Cur.skipWith
    simp only [e1, run_bind_ok, e2.offset]
    by_cases hb : cur1.tailBytes = []
    · rw [hb] at htl
      simp at htl
      have hend : o = blen t := by
        by_cases hlt : o < blen t
        · have := e5 hlt; omega
        · omega
      rw [if_pos hb, if_pos (by omega)]
      refine ⟨cur1, rfl, ?_⟩
      rw [List.drop_of_length_le (by rw [length_bytes]; omega)]
      exact e2
    · rw [if_neg hb, hscan]
      have hle' := takeWhile_length_le p cur1.tailBytes
      by_cases hshort : (cur1.tailBytes.takeWhile p).length < cur1.tailBytes.length
      · simp only [hshort, decide_true, Bool.true_or, if_true]
        refine ⟨_, rfl, ?_⟩
        rw [hdrop, takeWhile_append_short hshort]
        exact ⟨rfl, by omega, e2.chunk, Or.inl ⟨by show cur1.chunk.start ≤ _; omega, by show _ ≤ cur1.chunk.stop; omega⟩, e2.good⟩
      · have hfull : (cur1.tailBytes.takeWhile p).length = cur1.tailBytes.length := by omega
        simp only [hshort, decide_false, Bool.false_or, hfull]
        have hpos : 0 < cur1.tailBytes.length := List.length_pos_iff.mpr hb
        have hadd : o + cur1.tailBytes.length = cur1.chunk.stop := by omega
        have hat : ByteAt G t cur1.chunk.stop { cur1 with offset := o + cur1.tailBytes.length } :=
          ⟨hadd, hstop, e2.chunk, Or.inl ⟨by show cur1.chunk.start ≤ _; omega, Nat.le_refl _⟩, e2.good⟩
        have htw : (((bytes t).drop o).takeWhile p).length =
            cur1.tailBytes.length + (((bytes t).drop cur1.chunk.stop).takeWhile p).length := by
          rw [hdrop, takeWhile_append_full hfull]; simp
        by_cases hend : o + cur1.tailBytes.length ≥ src.length
        · rw [if_pos (by simpa using hend)]
          refine ⟨_, rfl, ?_⟩
          rw [htw, List.drop_of_length_le (i := cur1.chunk.stop) (by rw [length_bytes]; omega)]
          simp only [List.takeWhile_nil, List.length_nil, Nat.add_zero, hadd]
          rw [hadd] at hat
          exact hat
        · rw [if_neg (by simpa using hend)]
          obtain ⟨cur2, g1, g2⟩ := ih hat (by omega)
          refine ⟨cur2, g1, ?_⟩
          rw [htw, ← Nat.add_assoc, hadd]
          exact g2

/-- A byte position on a boundary is a split of the text. -/
theorem ByteAt.split {t : Str} {o : Nat} {cur : Cur} (h : ByteAt G t o cur) (hb : Boundary t o) :
    ∃ l r, blen l = o ∧ CurAt G t l r cur := by
  obtain ⟨l, r, h1, h2⟩ := hb
  exact ⟨l, r, h2, h1, by rw [h.offset, h2], h.chunk, h.good⟩

section
variable {src : Source} {t : Str} (hs : Supplied src t) {toks : List Tok} {st : Lex}
include hs

theorem blockLoop_spec {close : Str} (hc : close ≠ []) (fuel : Nat) {o : Nat}
    (h : ByteAt (Linked src t 0) t o st.cur) (ht : st.toks = toks) (hf : blen t - o < fuel) :
    ∃ st' found, Lex.blockCommentLoop src close fuel st = .ok (st', found) ∧
      ((found = true ∧ ∃ l r, t = l ++ close ++ r ∧ FirstFrom t o close (some (blen l)) ∧
          LexAt src t (l ++ close) r toks st') ∨
        (found = false ∧ FirstFrom t o close none ∧ LexAt src t t [] toks st')) := by
  induction fuel generalizing o st with
  | zero => omega
  | succ fuel ih =>
    obtain ⟨cur1, e1, e2, e3, e4, e5⟩ := peekByte_spec hs h
    obtain ⟨b0, hb0, hlead⟩ := bytes_head hc
    have hle := h.le
    unfold Lex.blockCommentLoop
    simp only [Lex.peekByte, e1, run_bind_ok, run_pure]
    by_cases hend : o < blen t
    · have hbt : (bytes t)[o]? = some ((bytes t)[o]'(by rw [length_bytes]; exact hend)) := List.getElem?_eq_getElem _
      rw [hbt]
      simp only [hb0]
      obtain ⟨cur2, f1, f2⟩ := skipWith_byte hs (fun bs => Simd.skipUntil bs b0) (fun x => !(x == b0))
        (fun bs => by simp only [Simd.skipUntil, Simd.untilLoop_eq _ _ (fun _ => rfl) bs 0 (Nat.zero_le _),
          List.drop_zero, Nat.zero_add]) (src.length + 1) e2 (by rw [hs.length_eq]; omega)
      simp only [Lex.skipUntil, Cur.skipUntil, f1, run_bind_ok, run_pure]
      generalize ho' : o + (((bytes t).drop o).takeWhile fun x => !(x == b0)).length = o' at f2
      have hle' := f2.le
      -- no occurrence before the stop
      have hnone : ∀ j, o ≤ j → j < o' → ¬ OccursAt t close j := by
        intro j h1 h2 hocc
        have := occursAt_byte hocc hc
        rw [hb0] at this
        have hj : ((bytes t).drop o)[j - o]? = some b0 := by
          rw [List.getElem?_drop, ← this]; congr 1; omega
        obtain ⟨x, hx, hp⟩ := takeWhile_before (p := fun x => !(x == b0)) (l := (bytes t).drop o) (j := j - o) (by omega)
        rw [hj] at hx
        cases hx
        simp at hp
      have hbound : Boundary t o' := by
        by_cases hlt : o' < blen t
        · obtain ⟨x, hx, hp⟩ := takeWhile_stop (p := fun x => !(x == b0)) (l := (bytes t).drop o)
            (by rw [List.length_drop, length_bytes]; omega)
          rw [List.getElem?_drop, ho'] at hx
          simp at hp
          rw [hp] at hx
          exact lead_boundary hx hlead
        · exact ⟨t, [], by simp, by omega⟩
      obtain ⟨l', r', hl', hcur⟩ := f2.split hbound
      have hat : LexAt src t l' r' toks { st with cur := cur2 } := ⟨hcur, ht⟩
      rcases consumeIf_at hs hat close with ⟨r'', g1, st', g2, g3⟩ | ⟨g1, st', g2, g3⟩
      · simp only [g2, run_bind_ok, if_true]
        have htext : t = l' ++ close ++ r'' := by rw [hcur.text, g1]; simp
        refine ⟨st', true, rfl, .inl ⟨rfl, l', r'', htext, ⟨by omega, ⟨l', r'', htext, rfl, rfl⟩, ?_⟩, g3⟩⟩
        intro j h1 h2
        exact hnone j h1 (by omega)
      · simp only [g2, run_bind_ok, Bool.false_eq_true, if_false]
        obtain ⟨cur4, k1, k2⟩ := advanceByte_spec hs g3.cur.byteAt
        simp only [Lex.advanceByte, k1, run_bind_ok, run_pure]
        rw [hl'] at k2
        have hno : ¬ OccursAt t close o' := by
          rintro ⟨a, b, q1, q2, q3⟩
          rw [hcur.text, List.append_assoc] at q1
          have := append_inj_blen q1 (by omega)
          exact g1 ⟨b, this.2⟩
        by_cases hlt : o' < blen t
        · rw [if_pos hlt] at k2
          obtain ⟨stf, found, m1, m2⟩ := ih (st := { st' with cur := cur4 }) k2 g3.toks (by omega)
          refine ⟨stf, found, m1, ?_⟩
          have hext : ∀ j, o ≤ j → j < o' + 1 → ¬ OccursAt t close j := by
            intro j h1 h2
            by_cases hj : j = o'
            · rw [hj]; exact hno
            · exact hnone j h1 (by omega)
          rcases m2 with ⟨q1, l, r, q2, q3, q4⟩ | ⟨q1, q2, q3⟩
          · obtain ⟨w1, w2, w3⟩ := q3
            refine .inl ⟨q1, l, r, q2, ⟨by omega, w2, ?_⟩, q4⟩
            intro j h1 h2
            by_cases hj : j < o' + 1
            · exact hext j h1 hj
            · exact w3 j (by omega) h2
          · refine .inr ⟨q1, ?_, q3⟩
            intro j h1
            by_cases hj : j < o' + 1
            · exact hext j h1 hj
            · exact q2 j (by omega)
        · rw [if_neg hlt] at k2
          obtain ⟨stf, found, m1, m2⟩ := ih (st := { st' with cur := cur4 }) k2 g3.toks (by omega)
          refine ⟨stf, found, m1, ?_⟩
          have hfar : ∀ j, o' ≤ j → ¬ OccursAt t close j := by
            rintro j h1 ⟨a, b, q1, q2, q3⟩
            have hq := congrArg blen q1
            have := blen_pos hc
            simp at hq
            omega
          rcases m2 with ⟨q1, l, r, q2, q3, q4⟩ | ⟨q1, q2, q3⟩
          · exact absurd q3.2.1 (hfar _ q3.1)
          · refine .inr ⟨q1, ?_, q3⟩
            intro j h1
            by_cases hj : j < o'
            · exact hnone j h1 hj
            · exact hfar j (by omega)
    · have hn : (bytes t)[o]? = none := by simp [length_bytes]; omega
      rw [hn]
      refine ⟨{ st with cur := cur1 }, false, rfl, .inr ⟨rfl, ?_, ⟨⟨by simp, by rw [e2.offset]; omega, e2.chunk, e2.good⟩, ht⟩⟩⟩
      rintro j h1 ⟨a, b, q1, q2, q3⟩
      have hq := congrArg blen q1
      have := blen_pos hc
      simp at hq
      omega


variable {l r : Str}

theorem blockLoop_at {close : Str} (hc : close ≠ []) (h : LexAt src t l r toks st) :
    ∃ st' found m r', Lex.blockCommentLoop src close (src.length + 1) st = .ok (st', found) ∧ r = m ++ r' ∧
      LexAt src t (l ++ m) r' toks st' ∧
      ((∃ body, m = body ++ close ∧ ∀ a b, r = a ++ close ++ b → body.length ≤ a.length) ∨
        ((∀ a b, r ≠ a ++ close ++ b) ∧ m = r)) := by
  obtain ⟨st', found, h1, h2⟩ := blockLoop_spec hs hc (src.length + 1) h.cur.byteAt h.toks (by rw [hs.length_eq]; omega)
  have htext := h.cur.text
  have hocc : ∀ a b, r = a ++ close ++ b → OccursAt t close (blen (l ++ a)) := by
    intro a b hab
    exact ⟨l ++ a, b, by rw [htext, hab]; simp, rfl, rfl⟩
  rcases h2 with ⟨rfl, l', r', q1, ⟨w1, _, w3⟩, q4⟩ | ⟨rfl, q2, q3⟩
  · have hh : l ++ r = l' ++ (close ++ r') := by rw [← htext, q1]; simp
    obtain ⟨body, hb, hb2⟩ := append_split_of_le hh w1
    refine ⟨st', true, body ++ close, r', h1, by rw [hb2]; simp, by rw [hb] at q4; simpa using q4, .inl ⟨body, rfl, ?_⟩⟩
    intro a b hab
    have hge : blen l' ≤ blen (l ++ a) := by
      by_cases hlt : blen (l ++ a) < blen l'
      · exact absurd (hocc a b hab) (w3 _ (by simp) hlt)
      · omega
    have hle : blen body ≤ blen a := by rw [hb] at hge; simp at hge; omega
    rw [hb2, List.append_assoc] at hab
    obtain ⟨k, hk, _⟩ := append_split_of_le hab hle
    rw [hk]; simp
  · refine ⟨st', false, r, [], h1, by simp, by rw [← htext]; exact q3, .inr ⟨?_, rfl⟩⟩
    intro a b hab
    exact q2 _ (by simp) (hocc a b hab)

theorem lineComment_of {marker after : Str} : LineComment marker (marker ++ after) (marker ++ after.takeWhile (· ≠ '\n')) := by
  refine ⟨after.takeWhile (· ≠ '\n'), after.dropWhile (· ≠ '\n'), by simp, rfl, ?_, ?_⟩
  · intro hm
    have := List.all_takeWhile (p := fun c => decide (c ≠ '\n')) (l := after)
    rw [List.all_eq_true] at this
    simpa using this _ hm
  · cases hd : after.dropWhile (· ≠ '\n') with
    | nil => exact .inl rfl
    | cons x s =>
      right
      have := List.head?_dropWhile_not (fun c => decide (c ≠ '\n')) after
      rw [hd] at this
      simp at this
      exact ⟨s, by rw [this]⟩

theorem lineComment_at (h : LexAt src t l r toks st) (kind : Nat) (marker : Str) :
    ∃ st' b m r' new, st.scanLineComment src kind marker = .ok (st', b) ∧ r = m ++ r' ∧ LexAt src t (l ++ m) r' (toks ++ new) st' ∧
      ((b = true ∧ LineComment marker r m ∧ new = [⟨kind, blen l, blen l + blen m⟩]) ∨
        (b = false ∧ ¬ marker <+: r ∧ m = [] ∧ new = [])) := by
  unfold Lex.scanLineComment
  rcases consumeIf_at hs h marker with ⟨after, rfl, st1, g2, g3⟩ | ⟨g1, st1, g2, g3⟩
  · obtain ⟨st2, k1, k2⟩ := skipUntil_at hs g3 0x0a (by decide)
    have hcl : (fun c : Char => c.toNat != (0x0a : UInt8).toNat) = (fun c => decide (c ≠ '\n')) := by
      funext c
      have := char_eq_iff c '\n'
      by_cases hc : c = '\n'
      · subst hc; rfl
      · have hb : (c == '\n') = false := by simpa using hc
        rw [hb] at this
        simp only [bne, hc, ne_eq, not_false_eq_true, decide_true]
        rw [show ((0x0a : UInt8).toNat) = '\n'.toNat from rfl, ← this]; rfl
    rw [hcl] at k2
    simp only [g2, run_bind_ok, if_true, k1, run_pure]
    refine ⟨_, true, marker ++ after.takeWhile (· ≠ '\n'), after.dropWhile (· ≠ '\n'), _, rfl, by simp,
      by rw [← List.append_assoc]; exact addToken_at k2 _ _ _, .inl ⟨rfl, lineComment_of hs, ?_⟩⟩
    rw [h.pos, k2.pos]; simp [Nat.add_assoc]
  · simp only [g2, run_bind_ok, Bool.false_eq_true, if_false, run_pure]
    refine ⟨st1, false, [], r, [], rfl, rfl, by simpa using g3, .inr ⟨rfl, ?_, rfl, rfl⟩⟩
    rintro ⟨x, hx⟩
    exact g1 ⟨x, hx.symm⟩

theorem blockComment_at (h : LexAt src t l r toks st) (kind : Nat) (opener close : Str) (hc : close ≠ []) :
    ∃ st' b m r' new, st.scanBlockComment src kind opener close = .ok (st', b) ∧ r = m ++ r' ∧ LexAt src t (l ++ m) r' (toks ++ new) st' ∧
      ((b = true ∧ BlockComment opener close r m ∧ new = [⟨kind, blen l, blen l + blen m⟩]) ∨
        (b = false ∧ ¬ opener <+: r ∧ m = [] ∧ new = [])) := by
  unfold Lex.scanBlockComment
  rcases consumeIf_at hs h opener with ⟨after, rfl, st1, g2, g3⟩ | ⟨g1, st1, g2, g3⟩
  · obtain ⟨st2, found, m, r', k1, k2, k3, k4⟩ := blockLoop_at hs hc g3
    simp only [g2, run_bind_ok, if_true, k1, run_pure]
    refine ⟨_, true, opener ++ m, r', _, rfl, by rw [k2]; simp, by rw [← List.append_assoc]; exact addToken_at k3 _ _ _,
      .inl ⟨rfl, ⟨after, rfl, ?_⟩, by rw [h.pos, k3.pos]; simp [Nat.add_assoc]⟩⟩
    rcases k4 with ⟨body, rfl, k4⟩ | ⟨k4, rfl⟩
    · exact .inl ⟨body, r', k2, by simp, k4⟩
    · exact .inr ⟨k4, rfl⟩
  · simp only [g2, run_bind_ok, Bool.false_eq_true, if_false, run_pure]
    refine ⟨st1, false, [], r, [], rfl, rfl, by simpa using g3, .inr ⟨rfl, ?_, rfl, rfl⟩⟩
    rintro ⟨x, hx⟩
    exact g1 ⟨x, hx.symm⟩

/-- `if !marker.is_empty() && state.starts_with(marker)`. -/
theorem tryMarker_at (h : LexAt src t l r toks st) (p : Str) :
    ∃ st' b, st.tryMarker src p = .ok (st', b) ∧
      LexAt src t l r toks st' ∧ ((b = true ∧ p ≠ [] ∧ ∃ x, r = p ++ x) ∨ (b = false ∧ (p = [] ∨ ¬ p <+: r))) := by
  by_cases hp : p = []
  · exact ⟨st, false, by simp [Lex.tryMarker, hp], h, .inr ⟨rfl, .inl hp⟩⟩
  · obtain ⟨st1, h1, h2⟩ := startsWith_at hs h p
    refine ⟨st1, _, by rw [Lex.tryMarker, if_pos hp]; exact h1, h2, ?_⟩
    cases hb : p.isPrefixOf r with
    | true => exact .inl ⟨rfl, hp, isPrefixOf_iff.mp hb⟩
    | false =>
      refine .inr ⟨rfl, .inr fun hx => ?_⟩
      rw [isPrefixOf_eq] at hb
      simp [hx] at hb

theorem comment_at (h : LexAt src t l r toks st) (cfg : CommentCfg) (lk bk : Nat) :
    ∃ st' b m r' new, cfg.scan src st lk bk = .ok (st', b) ∧ r = m ++ r' ∧ LexAt src t (l ++ m) r' (toks ++ new) st' ∧
      CommentOutcome cfg lk bk (blen l) r m b new := by
  unfold CommentCfg.scan
  obtain ⟨st1, b1, e1, e2, e3⟩ := tryMarker_at hs h cfg.line
  simp only [e1, run_bind_ok]
  rcases e3 with ⟨rfl, hne, after, rfl⟩ | ⟨rfl, hnl⟩
  · obtain ⟨st2, k1, k2⟩ := takeWhileByte_newline hs (advance_at hs e2)
    simp only [if_true, k1, run_bind_ok, run_pure]
    refine ⟨_, true, cfg.line ++ after.takeWhile (· ≠ '\n'), after.dropWhile (· ≠ '\n'), _, rfl, by simp,
      by rw [← List.append_assoc]; exact addToken_at k2 _ _ _, ?_⟩
    have hpos : st2.pos = blen l + blen (cfg.line ++ after.takeWhile (· ≠ '\n')) := by rw [k2.pos]; simp [Nat.add_assoc]
    rw [h.pos, hpos]
    exact .line hne (lineComment_of hs)
  · simp only [Bool.false_eq_true, if_false]
    obtain ⟨st2, b2, f1, f2, f3⟩ := tryMarker_at hs e2 cfg.opener
    simp only [f1, run_bind_ok]
    rcases f3 with ⟨rfl, hne, after, rfl⟩ | ⟨rfl, hno⟩
    · simp only [if_true]
      have hadv := advance_at hs f2
      have hlen := h.len hs
      have hopos := blen_pos hne
      have hfuel : blen after < src.length + 1 := by simp at hlen; omega
      by_cases hc : cfg.close = []
      · obtain ⟨st3, k1, k2⟩ := open_loop hs cfg hc (src.length + 1) 1 (by omega) hadv hfuel
        simp only [k1, run_bind_ok, run_pure]
        refine ⟨_, true, cfg.opener ++ after, [], _, rfl, by simp, by rw [← List.append_assoc]; exact addToken_at k2 _ _ _, ?_⟩
        have hpos : st3.pos = blen l + blen (cfg.opener ++ after) := by rw [k2.pos]; simp [Nat.add_assoc]
        rw [h.pos, hpos]
        exact .unclosable hnl hne ⟨after, rfl⟩ hc
      · cases hn : cfg.nested with
        | false =>
          obtain ⟨m, r', st3, k1, k2, k3, k4⟩ := plain_loop hs cfg hn hc (src.length + 1) hadv hfuel
          simp only [k1, run_bind_ok, run_pure]
          refine ⟨_, true, cfg.opener ++ m, r', _, rfl, by rw [k2]; simp, by rw [← List.append_assoc]; exact addToken_at k3 _ _ _, ?_⟩
          have hpos : st3.pos = blen l + blen (cfg.opener ++ m) := by rw [k3.pos]; simp [Nat.add_assoc]
          rw [h.pos, hpos]
          refine .block hnl hne hc hn ⟨after, rfl, ?_⟩
          rcases k4 with ⟨body, rfl, k4⟩ | ⟨k4, rfl⟩
          · exact .inl ⟨body, r', k2, by simp, k4⟩
          · exact .inr ⟨k4, rfl⟩
        | true =>
          obtain ⟨ps, m, r', st3, k0, k1, k2, k3, k4⟩ := nested_loop hs cfg hn hne hc (src.length + 1) 1 hadv hfuel
          simp only [k1, run_bind_ok, run_pure]
          refine ⟨_, true, cfg.opener ++ m, r', _, rfl, by rw [k2]; simp, by rw [← List.append_assoc]; exact addToken_at k3 _ _ _, ?_⟩
          have hpos : st3.pos = blen l + blen (cfg.opener ++ m) := by rw [k3.pos]; simp [Nat.add_assoc]
          rw [h.pos, hpos]
          refine .nested hnl hne hc hn ⟨after, ps, rfl, k0, ?_⟩
          rcases k4 with ⟨inside, rest, q1, q2, q3, q4⟩ | ⟨q1, q2⟩
          · exact .inl ⟨inside, rest, q1, by rw [q2], q3, fun a b hab hb => by have := q4 a b hab hb; omega⟩
          · refine .inr ⟨fun a b hab => by have := q1 a b hab; omega, by rw [q2, reads_text k0]⟩
    · simp only [Bool.false_eq_true, if_false, run_pure]
      exact ⟨st2, false, [], r, [], rfl, rfl, by simpa using f2, .absent hnl hno⟩

theorem identifier_at (h : LexAt src t l r toks st) (kind : Nat) :
    ∃ st' b m r' new, st.scanAsciiIdentifier src kind = .ok (st', b) ∧ r = m ++ r' ∧ LexAt src t (l ++ m) r' (toks ++ new) st' ∧
      ((b = true ∧ (∃ c s, r = c :: s ∧ isIdent c = true ∧ isDigit c = false) ∧ m = r.takeWhile isIdent ∧
          new = [⟨kind, blen l, blen l + blen m⟩]) ∨
        (b = false ∧ (∀ c s, r = c :: s → isIdent c = false ∨ isDigit c = true) ∧ m = [] ∧ new = [])) := by
  obtain ⟨cur1, e1, e2, e3, e4, e5⟩ := peekByte_spec hs h.cur.byteAt
  unfold Lex.scanAsciiIdentifier
  simp only [Lex.peekByte, e1, run_bind_ok, run_pure]
  have hcur1 : CurAt (Linked src t 0) t l r cur1 := ⟨h.cur.text, e2.offset, e2.chunk, e2.good⟩
  cases r with
  | nil =>
    have : (bytes t)[blen l]? = none := by
      have := congrArg blen h.cur.text
      simp at this
      simp [length_bytes]; omega
    rw [this]
    exact ⟨_, false, [], [], [], rfl, rfl, by simpa using (⟨hcur1, h.toks⟩ : LexAt src t l [] toks { st with cur := cur1 }),
      .inr ⟨rfl, by simp, rfl, rfl⟩⟩
  | cons c s =>
    obtain ⟨b, rest, he, hlead, hrest⟩ := encode_lead c
    have hb : (bytes t)[blen l]? = some b := by
      rw [h.cur.text, bytes_append, List.getElem?_append_right (by simp [length_bytes]), length_bytes, bytes_cons, he]
      simp
    have hchar : Lex.isIdentStart b = (isIdent c && !isDigit c) := by
      by_cases hc : c.toNat < 128
      · have hbc : b = UInt8.ofNat c.toNat := by
          rw [encode_ascii (by omega)] at he
          simp at he; exact he.1.symm
        rw [hbc]
        simp only [Lex.isIdentStart, isIdent, isDigit, char_le, char_eq_iff, ofNat_eq_iff hc, ofNat_le hc, ofNat_ge hc]
        rw [Bool.eq_iff_iff]
        simp
        omega
      · have := encode_high (c := c) (by omega) b (by rw [he]; simp)
        rw [Bool.eq_iff_iff]
        simp [Lex.isIdentStart, isIdent, isDigit, char_le, char_eq_iff, UInt8.le_iff_toNat_le, ← UInt8.toNat_inj]
        omega
    rw [hb]
    simp only [hchar]
    by_cases hi : (isIdent c && !isDigit c) = true
    · rw [if_pos hi]
      simp only [Bool.and_eq_true, Bool.not_eq_true'] at hi
      have hsz : c.utf8Size = 1 := by
        by_cases hc : c.toNat < 128
        · exact utf8Size_ascii (by omega)
        · have := hi.1
          simp [isIdent, isDigit, char_le, char_eq_iff] at this
          omega
      obtain ⟨cur2, k1, k2⟩ := advanceByte_spec hs e2
      have hlt : blen l < blen t := by rw [h.cur.text]; simp; omega
      rw [if_pos hlt] at k2
      have hcur2 : LexAt src t (l ++ [c]) s toks { st with cur := cur2 } :=
        ⟨⟨by rw [h.cur.text]; simp, by rw [k2.offset]; simp [hsz], k2.chunk, k2.good⟩, h.toks⟩
      obtain ⟨st3, j1, j2⟩ := skipIdent_at hs hcur2
      simp only [Lex.advanceByte, k1, run_bind_ok, run_pure, j1]
      refine ⟨_, true, c :: s.takeWhile isIdent, s.dropWhile isIdent, _, rfl, by simp,
        by simpa using addToken_at j2 _ _ _, .inl ⟨rfl, ⟨c, s, rfl, hi.1, hi.2⟩, by rw [List.takeWhile_cons_of_pos hi.1], ?_⟩⟩
      rw [h.pos, j2.pos]; simp [Nat.add_assoc]
    · rw [if_neg hi]
      refine ⟨_, false, [], c :: s, [], rfl, rfl, by simpa using (⟨hcur1, h.toks⟩ : LexAt src t l (c :: s) toks { st with cur := cur1 }),
        .inr ⟨rfl, ?_, rfl, rfl⟩⟩
      intro c' s' hcs
      cases hcs
      revert hi
      cases isIdent c <;> cases isDigit c <;> simp

theorem whitespace_at (h : LexAt src t l r toks st) (ws : Char → Bool) (unicode : Bool) (kind : Nat) :
    ∃ st' b m r' new, scanWhitespace ws unicode src st kind = .ok (st', b) ∧ r = m ++ r' ∧ LexAt src t (l ++ m) r' (toks ++ new) st' ∧
      m = r.takeWhile (if unicode then ws else isWs) ∧ (b = true ↔ m ≠ []) ∧
      new = if m = [] then [] else [⟨kind, blen l, blen l + blen m⟩] := by
  have key : ∃ st1, skipSpace ws unicode src st = .ok st1 ∧
      LexAt src t (l ++ r.takeWhile (if unicode then ws else isWs)) (r.dropWhile (if unicode then ws else isWs)) toks st1 := by
    cases unicode with
    | true => simpa [skipSpace] using takeWhile_at hs h ws
    | false => simpa [skipSpace] using skipWs_at hs h
  obtain ⟨st1, k1, k2⟩ := key
  generalize (if unicode = true then ws else isWs) = p at k2 ⊢
  unfold scanWhitespace
  simp only [k1, run_bind_ok, h.pos, k2.pos, blen_append]
  by_cases hm : r.takeWhile p = []
  · rw [if_neg (by rw [hm]; simp)]
    refine ⟨st1, false, [], r, [], rfl, rfl, ?_, hm.symm, by simp, by simp⟩
    have := List.takeWhile_append_dropWhile (p := p) (l := r)
    rw [hm] at this k2
    simp at this k2
    rw [this] at k2
    simpa using k2
  · have := blen_pos hm
    rw [if_pos (by omega)]
    exact ⟨_, true, _, _, _, rfl, (List.takeWhile_append_dropWhile).symm, addToken_at k2 _ _ _, rfl, by simp [hm], by rw [if_neg hm]⟩

end
end Oaks
