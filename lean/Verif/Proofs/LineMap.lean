import Verif.Model.LineMap
import Verif.Spec.LineMap
import Verif.Proofs.Lawful
import Verif.Base.Utf8

/-! Line maps. -/

namespace Oaks
open Spec

/-- Reading one chunk of a lawful source at a boundary before the end. -/
theorem Spec.Lawful.step {src : Source} {t : Str} (h : Lawful src t) {l r : Str} (ht : t = l ++ r)
    (hr : r ≠ []) : ∃ c m r', src.chunkAt (blen l) = .ok c ∧ c.sliceFrom (blen l) = m ∧ r = m ++ r' ∧
      m ≠ [] ∧ c.stop = blen (l ++ m) := by
  have hpos := blen_pos hr
  obtain ⟨c, hc, ⟨cl, cr, hct, hcs, hce⟩, hle, hlt'⟩ :=
    h.chunk (blen l) (by rw [ht]; simp; omega) ⟨l, r, ht, rfl⟩
  rw [ht] at hct
  obtain ⟨k, hk, hk2⟩ := append_split_of_le (a := cl) (b := c.text ++ cr) (c := l) (d := r)
    (by rw [hct]; simp) (by omega)
  have hbl : blen l = blen cl + blen k := by rw [hk]; simp
  obtain ⟨m, hm, hm2⟩ := append_split_of_le hk2.symm (by unfold Chunk.stop at *; omega)
  have hsl : c.sliceFrom (blen l) = m := by
    unfold Chunk.sliceFrom
    by_cases h0 : blen l ≤ c.start
    · have : k = [] := blen_eq_zero.mp (by omega)
      rw [if_pos h0, hm, this]; rfl
    · rw [if_neg h0, show blen l - c.start = blen k by omega, hm, strFrom_append]; rfl
  have hstop : c.stop = blen (l ++ m) := by
    have : blen c.text = blen k + blen m := by rw [hm]; simp
    unfold Chunk.stop; simp; omega
  refine ⟨c, m, cr, hc, hsl, hm2, ?_, hstop⟩
  intro h0
  subst h0
  simp at hstop
  omega

/-- The offsets right after the newlines of `s`, which begins at offset `o`. -/
def nls : Nat → Str → List Nat
  | _, [] => []
  | o, c :: s => if c = '\n' then (o + 1) :: nls (o + 1) s else nls (o + c.utf8Size) s

theorem nls_append (o : Nat) (a b : Str) : nls o (a ++ b) = nls o a ++ nls (o + blen a) b := by
  induction a generalizing o with
  | nil => simp [nls]
  | cons c a ih =>
    simp only [List.cons_append, nls, ih, blen_cons]
    split
    · next h => subst h; simp [show Char.utf8Size '\n' = 1 from rfl, Nat.add_assoc]
    · simp [Nat.add_assoc]

theorem nls_length (o : Nat) (s : Str) : (nls o s).length = s.count '\n' := by
  induction s generalizing o with
  | nil => rfl
  | cons c s ih =>
    simp only [nls, List.count_cons]
    split
    · next h => subst h; simp [ih]
    · next h => simp [ih, h]

theorem nls_mem {o : Nat} {s : Str} {x : Nat} (h : x ∈ nls o s) : o < x ∧ x ≤ o + blen s := by
  induction s generalizing o with
  | nil => simp [nls] at h
  | cons c s ih =>
    have := utf8Size_pos c
    simp only [nls] at h
    rw [blen_cons]
    split at h
    · rcases List.mem_cons.1 h with rfl | h
      · omega
      · have := ih h; omega
    · have := ih h; omega

theorem nls_sorted (o : Nat) (s : Str) : (nls o s).Pairwise (· < ·) := by
  induction s generalizing o with
  | nil => simp [nls]
  | cons c s ih =>
    simp only [nls]
    split
    · exact List.pairwise_cons.2 ⟨fun x hx => (nls_mem hx).1, ih _⟩
    · exact ih _

theorem nls_nil {o : Nat} {s : Str} (h : '\n' ∉ s) : nls o s = [] := by
  apply List.eq_nil_of_length_eq_zero
  rw [nls_length]; exact List.count_eq_zero.2 h

theorem newlineStarts_append (len o : Nat) (a b : List UInt8) :
    newlineStarts len o (a ++ b) = newlineStarts len o a ++ newlineStarts len (o + a.length) b := by
  induction a generalizing o with
  | nil => simp [newlineStarts]
  | cons c a ih =>
    simp only [List.cons_append, newlineStarts, ih, List.length_cons]
    rw [show o + 1 + a.length = o + (a.length + 1) by omega]
    by_cases h1 : c = 10 <;> by_cases h2 : o + 1 ≤ len <;> simp [h1, h2]

theorem newlineStarts_none {len o : Nat} {a : List UInt8} (h : ∀ b ∈ a, b ≠ 10) :
    newlineStarts len o a = [] := by
  induction a generalizing o with
  | nil => rfl
  | cons c a ih =>
    have := h c (by simp)
    simp only [newlineStarts, this, if_false]
    exact ih (fun b hb => h b (by simp [hb]))

theorem newlineStarts_eq {len o : Nat} {s : Str} (h : o + blen s ≤ len) :
    newlineStarts len o (bytes s) = nls o s := by
  induction s generalizing o with
  | nil => rfl
  | cons c s ih =>
    rw [blen_cons] at h
    rw [bytes_cons, newlineStarts_append]
    have hl : (String.utf8EncodeChar c).length = c.utf8Size := by
      have := length_bytes [c]; simpa using this
    rw [hl, ih (by omega)]
    simp only [nls]
    by_cases hc : c = '\n'
    · subst hc
      rw [show String.utf8EncodeChar '\n' = [10] from rfl, if_pos rfl]
      have : o + 1 ≤ len := by
        have : Char.utf8Size '\n' = 1 := rfl
        omega
      simp [newlineStarts, this, show Char.utf8Size '\n' = 1 from rfl]
    · rw [if_neg hc, newlineStarts_none, List.nil_append]
      intro b hb hb10
      by_cases ha : c.toNat ≤ 127
      · rw [encode_ascii ha] at hb
        simp at hb
        subst hb
        apply hc
        have : c.toNat = 10 := by
          have := congrArg UInt8.toNat hb10
          simp at this
          omega
        exact Char.toNat_inj.1 this
      · have := encode_high (c := c) (by omega)
        have := this b hb
        rw [hb10] at this
        simp at this

theorem lineMapLoop_spec {src : Source} {t : Str} (h : Lawful src t) (fuel : Nat) (l r : Str)
    (ht : t = l ++ r) (hf : blen r ≤ fuel) : lineMapLoop src fuel (blen l) = .ok (nls (blen l) r) := by
  induction fuel generalizing l r with
  | zero =>
    have : r = [] := blen_eq_zero.mp (by omega)
    subst this
    unfold lineMapLoop
    simp [h.length_eq, ht, nls]
  | succ fuel ih =>
    unfold lineMapLoop
    by_cases hr : r = []
    · subst hr; simp [h.length_eq, ht, nls]
    · have hpos := blen_pos hr
      have hlt : blen l < src.length := by rw [h.length_eq, ht]; simp; omega
      obtain ⟨c, m, r', h1, h2, h3, h4, h5⟩ := h.step ht hr
      have hm := blen_pos h4
      rw [if_pos hlt]
      have := ih (l ++ m) r' (by rw [ht, h3]; simp) (by rw [h3] at hf; simp at hf; omega)
      simp only [h1, run_bind_ok, h2, h5, this, run_pure]
      rw [newlineStarts_eq (by rw [h.length_eq, ht, h3]; simp), h3, nls_append, blen_append]

theorem fromSource_spec {src : Source} {t : Str} (h : Lawful src t) :
    LineMap.fromSource src src.length = .ok ⟨0 :: nls 0 t, blen t⟩ := by
  have := lineMapLoop_spec h src.length [] t rfl (by rw [h.length_eq]; omega)
  simp only [blen_nil, h.length_eq] at this
  simp only [LineMap.fromSource, h.length_eq, this, run_bind_ok, run_pure]

theorem starts_get {a : Str} (ha : LineBegin a) (rest : List Nat) :
    (0 :: (nls 0 a ++ rest))[a.count '\n']? = some (blen a) := by
  rcases ha with rfl | ⟨a', rfl⟩
  · simp
  · rw [nls_append]
    simp only [List.count_append, List.count_singleton, beq_self_eq_true, if_true]
    rw [List.getElem?_cons_succ, List.append_assoc, List.getElem?_append_right (by rw [nls_length]; exact Nat.le_refl _)]
    simp [nls_length, nls, show Char.utf8Size '\n' = 1 from rfl]

theorem starts_sorted (t : Str) : (0 :: nls 0 t).Pairwise (· < ·) :=
  List.pairwise_cons.2 ⟨fun x hx => (nls_mem hx).1, nls_sorted 0 t⟩

/-- Every text before an offset splits at its last line start. -/
theorem lineBegin_split (l : Str) : ∃ a b, l = a ++ b ∧ LineBegin a ∧ '\n' ∉ b := by
  induction l with
  | nil => exact ⟨[], [], rfl, .inl rfl, by simp⟩
  | cons c l ih =>
    obtain ⟨a, b, rfl, ha, hb⟩ := ih
    rcases ha with rfl | ⟨a', rfl⟩
    · by_cases hc : c = '\n'
      · exact ⟨[c], b, rfl, .inr ⟨[], by simp [hc]⟩, hb⟩
      · exact ⟨[], c :: b, rfl, .inl rfl, by simp [hb]; exact fun h => hc h.symm⟩
    · exact ⟨c :: (a' ++ ['\n']), b, by simp, .inr ⟨c :: a', by simp⟩, hb⟩

/-- What follows a line start begins with a line. -/
theorem line_split (r : Str) : ∃ ln r', r = ln ++ r' ∧
    (('\n' ∉ ln ∧ r' = []) ∨ ∃ b, ln = b ++ ['\n'] ∧ '\n' ∉ b) := by
  induction r with
  | nil => exact ⟨[], [], rfl, .inl ⟨by simp, rfl⟩⟩
  | cons c r ih =>
    by_cases hc : c = '\n'
    · exact ⟨['\n'], r, by simp [hc], .inr ⟨[], rfl, by simp⟩⟩
    · obtain ⟨ln, r', rfl, h⟩ := ih
      have hc' : '\n' ≠ c := fun h => hc h.symm
      refine ⟨c :: ln, r', rfl, ?_⟩
      rcases h with ⟨h1, h2⟩ | ⟨b, rfl, h2⟩
      · exact .inl ⟨by simp [h1, hc'], h2⟩
      · exact .inr ⟨c :: b, by simp, by simp [h2, hc']⟩

theorem isLine_exists (t : Str) (n : Nat) (hn : n ≤ t.count '\n') : ∃ a ln r, IsLine t n a ln r := by
  suffices h : ∃ a r, t = a ++ r ∧ LineBegin a ∧ a.count '\n' = n by
    obtain ⟨a, r, rfl, h1, h2⟩ := h
    obtain ⟨ln, r', rfl, h3⟩ := line_split r
    exact ⟨a, ln, r', by simp, h1, h2, h3⟩
  induction n generalizing t with
  | zero => exact ⟨[], t, rfl, .inl rfl, rfl⟩
  | succ n ih =>
    obtain ⟨ln, r', rfl, h3⟩ := line_split t
    rcases h3 with ⟨h1, rfl⟩ | ⟨b, rfl, h2⟩
    · rw [List.append_nil, List.count_eq_zero.2 h1] at hn; omega
    · have hb := List.count_eq_zero.2 h2
      simp only [List.count_append, hb, List.count_singleton, beq_self_eq_true, if_true] at hn
      obtain ⟨a, r, rfl, h4, h5⟩ := ih r' (by omega)
      refine ⟨b ++ ['\n'] ++ a, r, by simp, ?_, ?_⟩
      · rcases h4 with rfl | ⟨a', rfl⟩
        · exact .inr ⟨b, by simp⟩
        · exact .inr ⟨b ++ ['\n'] ++ a', by simp⟩
      · simp only [List.count_append, hb, List.count_singleton, beq_self_eq_true, if_true, h5]; omega

theorem lineStart_spec {t a ln r : Str} {n : Nat} (h : IsLine t n a ln r) :
    (LineMap.mk (0 :: nls 0 t) (blen t)).lineStart n = some (blen a) := by
  rw [← h.number, LineMap.lineStart, h.text, List.append_assoc, nls_append]
  exact starts_get h.first _

theorem lineEnd_spec {t a ln r : Str} {n : Nat} (h : IsLine t n a ln r) :
    (LineMap.mk (0 :: nls 0 t) (blen t)).lineEnd n = some (blen a + blen ln) := by
  have h1 := lineStart_spec h
  simp only [LineMap.lineStart] at h1
  simp only [LineMap.lineEnd, h1, Option.bind_eq_bind, Option.bind_some]
  rcases h.last with ⟨h2, hr⟩ | ⟨b, hb, h2⟩
  · have : (0 :: nls 0 t)[n + 1]? = none := by
      rw [List.getElem?_eq_none]
      simp [nls_length, h.text, hr, List.count_append, List.count_eq_zero.2 h2, h.number]
    rw [this]
    simp [h.text, hr]
  · have : (0 :: nls 0 t)[n + 1]? = some (blen a + blen ln) := by
      have hb' := List.count_eq_zero.2 h2
      have := starts_get (a := a ++ ln) (.inr ⟨a ++ b, by simp [hb]⟩) (nls (0 + blen (a ++ ln)) r)
      rw [← nls_append, ← h.text] at this
      simp only [List.count_append, h.number] at this
      rw [show List.count '\n' ln = 1 by simp [hb, hb', List.count_append], blen_append] at this
      exact this
    rw [this]
    simp

theorem lenUtf16_sum (s : Str) : (s.map lenUtf16).sum = utf16Count s := by
  induction s with
  | nil => rfl
  | cons c s ih =>
    have : lenUtf16 c = (utf16Of c).length := by
      unfold lenUtf16 utf16Of; split <;> rfl
    simp [utf16Count, this, ih] at *

theorem utf16Count_append (a b : Str) : utf16Count (a ++ b) = utf16Count a + utf16Count b := by
  simp [utf16Count]

theorem utf16Count_le (s : Str) : utf16Count s ≤ blen s := by
  induction s with
  | nil => simp [utf16Count]
  | cons c s ih =>
    have h1 : utf16Count (c :: s) = (utf16Of c).length + utf16Count s := by simp [utf16Count]
    have h2 : (utf16Of c).length ≤ c.utf8Size := by
      unfold utf16Of
      have := utf8Size_pos c
      split
      · exact this
      · next h =>
        simp only [List.length_cons, List.length_nil]
        unfold Char.utf8Size
        have hv : c.val.toNat = c.toNat := rfl
        by_cases h' : c.val ≤ UInt32.ofNatLT 127 (by decide)
        · have := UInt32.le_iff_toNat_le.1 h'; simp at this; omega
        · simp only [h', if_false]; (split; omega); (split <;> omega)
    rw [h1, blen_cons]; omega

theorem offsetToLineCol_spec {src : Source} {t : Str} (h : Lawful src t) {a b r : Str}
    (ht : t = a ++ b ++ r) (ha : LineBegin a) (hb : '\n' ∉ b) :
    (LineMap.mk (0 :: nls 0 t) (blen t)).offsetToLineCol src (blen (a ++ b)) =
      .ok (a.count '\n' % 2 ^ 32, utf16Count b % 2 ^ 32) := by
  unfold LineMap.offsetToLineCol
  have hmin : min (blen (a ++ b)) (blen t) = blen (a ++ b) := by rw [ht]; simp
  have hsp : (0 :: nls 0 t) = (0 :: nls 0 a) ++ nls (blen (a ++ b)) r := by
    rw [ht, nls_append, nls_append, nls_nil hb]; simp
  have hidx : chunkIdx (0 :: nls 0 t) (blen (a ++ b)) = a.count '\n' := by
    rw [chunkIdx_eq (starts_sorted t), hsp, List.takeWhile_append_of_pos]
    · have : (nls (blen (a ++ b)) r).takeWhile (fun y => decide (y ≤ blen (a ++ b))) = [] := by
        cases hn : nls (blen (a ++ b)) r with
        | nil => rfl
        | cons x xs =>
          have := nls_mem (o := blen (a ++ b)) (s := r) (x := x) (by rw [hn]; simp)
          rw [List.takeWhile_cons_of_neg (by simp only [decide_eq_true_eq]; omega)]
      rw [this]
      simp [nls_length]
    · intro x hx
      rcases List.mem_cons.1 hx with rfl | hx
      · simp
      · have := nls_mem hx; simp; omega
  have hget : index (0 :: nls 0 t) (a.count '\n') = .ok (blen a) := by
    have := starts_get ha (nls (0 + blen a) (b ++ r))
    rw [← nls_append, ← List.append_assoc, ← ht] at this
    simp only [index, this]
  have htx := h.textIn (blen a) (blen (a ++ b)) b ⟨a, r, ht, rfl, by simp⟩
  simp only [hmin, hidx, hget, run_bind_ok, htx, lenUtf16_sum, run_pure]

theorem colLoop_spec (target : Nat) (k p : Str) :
    match colLoop target (utf16Count k) (blen k) p with
    | some i => ∃ q q', p = q ++ q' ∧ i = blen (k ++ q) ∧ target ≤ utf16Count (k ++ q) ∧
        ∀ q0, q0 <+: q → q0 ≠ q → utf16Count (k ++ q0) < target
    | none => ∀ q0, q0 <+: p → q0 ≠ p → utf16Count (k ++ q0) < target := by
  induction p generalizing k with
  | nil =>
    simp only [colLoop]
    intro q0 h1 h2
    exact absurd (List.prefix_nil.1 h1) h2
  | cons c p ih =>
    simp only [colLoop]
    by_cases hc : utf16Count k ≥ target
    · rw [if_pos hc]
      refine ⟨[], c :: p, rfl, by simp, by simpa using hc, ?_⟩
      intro q0 h1 h2
      exact absurd (List.prefix_nil.1 h1) h2
    · rw [if_neg hc]
      have hk := ih (k ++ [c])
      rw [show utf16Count (k ++ [c]) = utf16Count k + lenUtf16 c by
        rw [utf16Count_append, ← lenUtf16_sum [c]]; simp, show blen (k ++ [c]) = blen k + c.utf8Size by simp] at hk
      cases hl : colLoop target (utf16Count k + lenUtf16 c) (blen k + c.utf8Size) p with
      | some i =>
        rw [hl] at hk
        obtain ⟨q, q', rfl, h1, h2, h3⟩ := hk
        refine ⟨c :: q, q', rfl, by rw [h1]; simp, by simpa using h2, ?_⟩
        intro q0 g1 g2
        cases q0 with
        | nil => simp; omega
        | cons d q0 =>
          rw [List.cons_prefix_cons] at g1
          have := h3 q0 g1.2 (fun h => g2 (by rw [g1.1, h]))
          rw [g1.1]; simpa using this
      | none =>
        rw [hl] at hk
        intro q0 g1 g2
        cases q0 with
        | nil => simp; omega
        | cons d q0 =>
          rw [List.cons_prefix_cons] at g1
          have := hk q0 g1.2 (fun h => g2 (by rw [g1.1, h]))
          rw [g1.1]; simpa using this

theorem lineColToOffset_spec {src : Source} {t : Str} (h : Lawful src t) {a ln r : Str} {n : Nat}
    (hl : IsLine t n a ln r) (col : Nat) :
    ∃ p, CutAt ln col p ∧
      (LineMap.mk (0 :: nls 0 t) (blen t)).lineColToOffset src n col = .ok (blen a + blen p) := by
  unfold LineMap.lineColToOffset
  rw [lineStart_spec hl]
  simp only [lineEnd_spec hl, Option.getD_some]
  rw [h.textIn (blen a) (blen a + blen ln) ln ⟨a, r, hl.text, rfl, rfl⟩]
  simp only [run_bind_ok]
  have hlen : blen t = blen a + blen ln + blen r := by rw [hl.text]; simp; omega
  have := colLoop_spec col [] ln
  simp only [blen_nil, List.nil_append, show utf16Count [] = 0 from rfl] at this
  cases hc : colLoop col 0 0 ln with
  | some i =>
    rw [hc] at this
    obtain ⟨q, q', rfl, h1, h2, h3⟩ := this
    refine ⟨q, ⟨⟨q', rfl⟩, .inl h2, h3⟩, ?_⟩
    simp only [blen_append] at hlen
    simp only [run_pure, h1]
    rw [Nat.min_eq_left (by omega)]
  | none =>
    rw [hc] at this
    refine ⟨ln, ⟨List.prefix_refl _, .inr rfl, this⟩, ?_⟩
    simp only [run_pure]
    rw [Nat.min_eq_left (by omega)]

end Oaks
