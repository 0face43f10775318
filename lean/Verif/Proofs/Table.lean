import Verif.Model.Source

/-! Chunk tables: well-formedness, lookup. -/

namespace Oaks

/-! ### binary search on strictly increasing lists -/

theorem takeWhile_lt_length_of_sorted {l : List Nat} (hs : l.Pairwise (· < ·)) {x i : Nat}
    (hi : l[i]? = some x) : (l.takeWhile (fun y => decide (y ≤ x))).length = i + 1 := by
  induction l generalizing i with
  | nil => simp at hi
  | cons a l ih =>
    rw [List.pairwise_cons] at hs
    cases i with
    | zero =>
      simp at hi; subst hi
      rw [List.takeWhile_cons_of_pos (by simp)]
      cases l with
      | nil => simp
      | cons b l =>
        have := hs.1 b (by simp)
        rw [List.takeWhile_cons_of_neg (by simp; omega)]; simp
    | succ i =>
      simp at hi
      have hm : x ∈ l := List.mem_of_getElem? hi
      have := hs.1 x hm
      rw [List.takeWhile_cons_of_pos (by simp; omega)]
      simp [ih hs.2 hi]

theorem takeWhile_lt_eq_le {l : List Nat} {x : Nat} (h : x ∉ l) :
    l.takeWhile (fun y => decide (y < x)) = l.takeWhile (fun y => decide (y ≤ x)) := by
  induction l with
  | nil => rfl
  | cons a l ih =>
    simp only [List.mem_cons, not_or] at h
    by_cases ha : a < x
    · rw [List.takeWhile_cons_of_pos (by simpa using ha),
        List.takeWhile_cons_of_pos (by simp; omega), ih h.2]
    · rw [List.takeWhile_cons_of_neg (by simpa using ha),
        List.takeWhile_cons_of_neg (by simp; omega)]

theorem idxOf?_some {l : List Nat} {x i : Nat} (h : l.idxOf? x = some i) : l[i]? = some x := by
  unfold List.idxOf? at h
  rw [List.findIdx?_eq_some_iff_getElem] at h
  obtain ⟨hl, he, _⟩ := h
  simp at he
  simp [hl, he]

theorem idxOf?_none {l : List Nat} {x : Nat} (h : l.idxOf? x = none) : x ∉ l := by
  unfold List.idxOf? at h
  rw [List.findIdx?_eq_none_iff] at h
  intro hm
  simpa using h x hm

theorem chunkIdx_eq {l : List Nat} (hs : l.Pairwise (· < ·)) (x : Nat) :
    chunkIdx l x = (l.takeWhile (fun y => decide (y ≤ x))).length - 1 := by
  unfold chunkIdx bsearch
  cases h : l.idxOf? x with
  | some i => simp [takeWhile_lt_length_of_sorted hs (idxOf?_some h)]
  | none =>
    simp only []
    rw [takeWhile_lt_eq_le (idxOf?_none h)]
    cases (List.takeWhile (fun y => decide (y ≤ x)) l).length <;> simp

theorem bsearch_found {l : List Nat} (hs : l.Pairwise (· < ·)) {x i : Nat}
    (hi : l[i]? = some x) : bsearch l x = .ok i := by
  unfold bsearch
  cases h : l.idxOf? x with
  | none => exact absurd (List.mem_of_getElem? hi) (idxOf?_none h)
  | some j =>
    have h1 := takeWhile_lt_length_of_sorted hs hi
    have h2 := takeWhile_lt_length_of_sorted hs (idxOf?_some h)
    simp; omega

/-! ### prefix sums -/

theorem rebuildStartsFrom_len (o : Nat) (cs : List Str) :
    (rebuildStartsFrom o cs).2 = o + blen cs.flatten := by
  induction cs generalizing o with
  | nil => simp [rebuildStartsFrom]
  | cons c cs ih => simp [rebuildStartsFrom, ih]; omega

theorem rebuildStartsFrom_length (o : Nat) (cs : List Str) :
    (rebuildStartsFrom o cs).1.length = cs.length := by
  induction cs generalizing o with
  | nil => simp [rebuildStartsFrom]
  | cons c cs ih => simp [rebuildStartsFrom, ih]

theorem rebuildStartsFrom_append (o : Nat) (as bs : List Str) :
    (rebuildStartsFrom o (as ++ bs)).1 =
      (rebuildStartsFrom o as).1 ++ (rebuildStartsFrom (o + blen as.flatten) bs).1 := by
  induction as generalizing o with
  | nil => simp [rebuildStartsFrom]
  | cons a as ih => simp [rebuildStartsFrom, ih, Nat.add_assoc]

theorem rebuildStartsFrom_ge (o : Nat) (cs : List Str) :
    ∀ x ∈ (rebuildStartsFrom o cs).1, o ≤ x := by
  induction cs generalizing o with
  | nil => simp [rebuildStartsFrom]
  | cons c cs ih =>
    intro x hx
    simp [rebuildStartsFrom] at hx
    rcases hx with rfl | hx
    · omega
    · have := ih _ x hx; omega

theorem rebuildStartsFrom_sorted (o : Nat) (cs : List Str) (h : ∀ c ∈ cs, c ≠ []) :
    (rebuildStartsFrom o cs).1.Pairwise (· < ·) := by
  induction cs generalizing o with
  | nil => simp [rebuildStartsFrom]
  | cons c cs ih =>
    simp only [rebuildStartsFrom, List.pairwise_cons]
    refine ⟨?_, ih _ (fun d hd => h d (by simp [hd]))⟩
    intro x hx
    have := rebuildStartsFrom_ge _ _ x hx
    have := blen_pos (h c (by simp))
    omega

theorem rebuildStartsFrom_get (o : Nat) (pre post : List Str) (h : post ≠ []) :
    (rebuildStartsFrom o (pre ++ post)).1[pre.length]? = some (o + blen pre.flatten) := by
  rw [rebuildStartsFrom_append, List.getElem?_append_right (by simp [rebuildStartsFrom_length])]
  rw [rebuildStartsFrom_length]
  cases post with
  | nil => exact absurd rfl h
  | cons c post => simp [rebuildStartsFrom]

theorem startsCount (o : Nat) (cs : List Str) (hne : cs ≠ []) (h : ∀ c ∈ cs, c ≠ [])
    (x : Nat) (hx : o ≤ x) :
    ∃ pre c post, cs = pre ++ c :: post ∧
      ((rebuildStartsFrom o cs).1.takeWhile (fun y => decide (y ≤ x))).length = pre.length + 1 ∧
      o + blen pre.flatten ≤ x ∧ (post ≠ [] → x < o + blen pre.flatten + blen c) := by
  induction cs generalizing o with
  | nil => exact absurd rfl hne
  | cons c cs ih =>
    have hst : (rebuildStartsFrom o (c :: cs)).1 = o :: (rebuildStartsFrom (o + blen c) cs).1 := by
      simp [rebuildStartsFrom]
    by_cases hcs : cs = []
    · subst hcs
      refine ⟨[], c, [], by simp, ?_, by simpa using hx, by simp⟩
      simp [rebuildStartsFrom, hx]
    · by_cases hlt : x < o + blen c
      · refine ⟨[], c, cs, by simp, ?_, by simpa using hx, by simpa using fun _ => hlt⟩
        rw [hst, List.takeWhile_cons_of_pos (by simpa using hx)]
        cases cs with
        | nil => exact absurd rfl hcs
        | cons d cs =>
          simp only [rebuildStartsFrom]
          rw [List.takeWhile_cons_of_neg (by simpa using hlt)]; simp
      · obtain ⟨pre, d, post, heq, hlen, hle, hpost⟩ :=
          ih (o + blen c) hcs (fun d hd => h d (by simp [hd])) (by omega)
        refine ⟨c :: pre, d, post, by simp [heq], ?_, by simp; omega, ?_⟩
        · rw [hst, List.takeWhile_cons_of_pos (by simpa using hx)]
          simp [hlen]
        · intro hp; have := hpost hp; simp; omega

/-! ### well-formed tables -/

/-- The table invariant: no empty chunk, `starts` are the prefix sums, `len` the total. -/
structure Table.WF (t : Table) : Prop where
  nonempty : ∀ c ∈ t.chunks, c ≠ []
  starts : t.starts = (rebuildStarts t.chunks).1
  len : t.len = (rebuildStarts t.chunks).2

/-- The text a table stands for. -/
def Table.text (t : Table) : Str := t.chunks.flatten

theorem Table.WF.len_eq {t : Table} (h : t.WF) : t.len = blen t.text := by
  rw [h.len, rebuildStarts, rebuildStartsFrom_len]; simp [Table.text]

theorem Table.WF.sorted {t : Table} (h : t.WF) : t.starts.Pairwise (· < ·) := by
  rw [h.starts]; exact rebuildStartsFrom_sorted 0 _ h.nonempty

theorem Table.WF.ofChunks {cs : List Str} (h : ∀ c ∈ cs, c ≠ []) : (Table.ofChunks cs).WF :=
  ⟨h, rfl, rfl⟩

@[simp] theorem Table.text_ofChunks (cs : List Str) : (Table.ofChunks cs).text = cs.flatten := rfl

theorem Table.WF.get_start {t : Table} (h : t.WF) {pre post : List Str}
    (he : t.chunks = pre ++ post) (hp : post ≠ []) :
    t.starts[pre.length]? = some (blen pre.flatten) := by
  rw [h.starts, rebuildStarts, he, rebuildStartsFrom_get 0 pre post hp]; simp

/-- Where lookup lands, for any offset (including the end). -/
theorem Table.WF.locate {t : Table} (h : t.WF) (hne : t.chunks ≠ []) (x : Nat) :
    ∃ pre c post, t.chunks = pre ++ c :: post ∧ chunkIdx t.starts x = pre.length ∧
      t.starts[pre.length]? = some (blen pre.flatten) ∧ t.chunks[pre.length]? = some c ∧
      blen pre.flatten ≤ x ∧ (post ≠ [] → x < blen pre.flatten + blen c) := by
  obtain ⟨pre, c, post, he, hl, hle, hpost⟩ := startsCount 0 t.chunks hne h.nonempty x (by omega)
  refine ⟨pre, c, post, he, ?_, h.get_start he (by simp), by simp [he], by simpa using hle,
    by simpa using hpost⟩
  rw [chunkIdx_eq h.sorted, h.starts, rebuildStarts, hl]; simp

/-- Lookup of an offset inside the text. -/
theorem Table.WF.locate_lt {t : Table} (h : t.WF) {x : Nat} (hx : x < t.len) :
    ∃ pre c post, t.chunks = pre ++ c :: post ∧ chunkIdx t.starts x = pre.length ∧
      t.starts[pre.length]? = some (blen pre.flatten) ∧ t.chunks[pre.length]? = some c ∧
      blen pre.flatten ≤ x ∧ x < blen pre.flatten + blen c := by
  have hne : t.chunks ≠ [] := by
    intro he
    have := h.len_eq
    simp [Table.text, he] at this; omega
  obtain ⟨pre, c, post, he, hi, hs, hc, hle, hpost⟩ := h.locate hne x
  refine ⟨pre, c, post, he, hi, hs, hc, hle, ?_⟩
  by_cases hp : post = []
  · have := h.len_eq
    simp [Table.text, he, hp] at this
    omega
  · exact hpost hp

theorem index_of_getElem? {α} {xs : List α} {i : Nat} {a : α} (h : xs[i]? = some a) :
    index xs i = .ok a := by simp [index, h]

/-- `chunk_at` on a well-formed table. -/
theorem Table.WF.chunkAt_spec {t : Table} (h : t.WF) {x : Nat} (hx : x < t.len) :
    ∃ pre c post, t.chunks = pre ++ c :: post ∧ t.chunkAt x = .ok ⟨blen pre.flatten, c⟩ ∧
      blen pre.flatten ≤ x ∧ x < blen pre.flatten + blen c := by
  obtain ⟨pre, c, post, he, hi, hs, hc, hle, hlt⟩ := h.locate_lt hx
  refine ⟨pre, c, post, he, ?_, hle, hlt⟩
  simp [Table.chunkAt, Nat.not_le.mpr hx, hi, index_of_getElem? hs, index_of_getElem? hc]

theorem Table.WF.chunkIndex_spec {t : Table} (h : t.WF) {x : Nat} (hx : x < t.len) :
    ∃ pre c post, t.chunks = pre ++ c :: post ∧
      t.chunkIndex x = .ok (pre.length, blen pre.flatten) ∧
      blen pre.flatten ≤ x ∧ x < blen pre.flatten + blen c := by
  obtain ⟨pre, c, post, he, hi, hs, hc, hle, hlt⟩ := h.locate_lt hx
  refine ⟨pre, c, post, he, ?_, hle, hlt⟩
  unfold Table.chunkIndex
  rw [show min x (t.len - 1) = x by omega]
  unfold chunkIdx at hi
  split at hi <;> rename_i heq <;> simp only [heq]
  · simp [hi, index_of_getElem? hs]
  · have hp : pre = [] := List.eq_nil_of_length_eq_zero hi.symm
    simp [hp]
  · simp [hi, index_of_getElem? hs]

theorem Table.WF.bufferChunkAt_eq {t : Table} (h : t.WF) (x : Nat) :
    t.bufferChunkAt x = t.chunkAt x := by
  by_cases hx : x < t.len
  · obtain ⟨pre, c, post, he, hi, hs, hc, hle, hlt⟩ := h.locate_lt hx
    obtain ⟨pre', c', post', he', hci, hle', hlt'⟩ := h.chunkIndex_spec hx
    have : t.chunkIndex x = .ok (pre.length, blen pre.flatten) := by
      unfold Table.chunkIndex
      rw [show min x (t.len - 1) = x by omega]
      unfold chunkIdx at hi
      split at hi <;> rename_i heq <;> simp only [heq]
      · simp [hi, index_of_getElem? hs]
      · have hp : pre = [] := List.eq_nil_of_length_eq_zero hi.symm
        simp [hp]
      · simp [hi, index_of_getElem? hs]
    simp [Table.chunkAt, Table.bufferChunkAt, Nat.not_le.mpr hx, this, hi, index_of_getElem? hs,
      index_of_getElem? hc]
  · simp [Table.chunkAt, Table.bufferChunkAt, Nat.le_of_not_lt hx]

end Oaks
