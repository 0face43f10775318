import Verif.Spec.Comment
import Verif.Proofs.Diagnostic

namespace Oaks
open Spec

theorem picks_filter {α : Type} {p : α → Prop} {f : α → Bool} (h : ∀ x, f x = true ↔ p x) (l : List α) : Picks p l (l.filter f) := by
  induction l with
  | nil => exact .nil
  | cons x l ih =>
    by_cases hx : f x = true
    · rw [List.filter_cons_of_pos hx]; exact .keep ((h x).mp hx) ih
    · rw [List.filter_cons_of_neg hx]; exact .drop (fun hp => hx ((h x).mpr hp)) ih

theorem Spec.Picks.unique {α : Type} {p : α → Prop} {l r r' : List α} (h : Picks p l r) (h' : Picks p l r') : r = r' := by
  induction h generalizing r' with
  | nil => cases h'; rfl
  | keep hx _ ih =>
    cases h' with
    | keep _ h' => rw [ih h']
    | drop hx' _ => exact absurd hx hx'
  | drop hx _ ih =>
    cases h' with
    | keep hx' _ => exact absurd hx' hx
    | drop _ h' => exact ih h'

section
variable {ws : Char → Bool}

theorem dropWhile_split (s : Str) : ∃ l, s = l ++ s.dropWhile ws ∧ Blank ws l ∧ ∀ c, (s.dropWhile ws).head? = some c → ws c = false := by
  induction s with
  | nil => exact ⟨[], rfl, by simp [Blank], by simp⟩
  | cons c s ih =>
    by_cases hc : ws c = true
    · obtain ⟨l, h1, h2, h3⟩ := ih
      rw [List.dropWhile_cons_of_pos hc]
      refine ⟨c :: l, by rw [List.cons_append, ← h1], ?_, h3⟩
      intro d hd
      rcases List.mem_cons.mp hd with rfl | hd
      · exact hc
      · exact h2 d hd
    · rw [List.dropWhile_cons_of_neg hc]
      exact ⟨[], rfl, by simp [Blank], by intro d hd; simp at hd; simpa [← hd] using hc⟩

theorem trimWs_trimmed (s : Str) : TrimmedTo ws s (trimWs ws s) := by
  obtain ⟨l, h1, h2, h3⟩ := dropWhile_split (ws := ws) s
  obtain ⟨r, h4, h5, h6⟩ := dropWhile_split (ws := ws) (s.dropWhile ws).reverse
  have h7 : s.dropWhile ws = trimWs ws s ++ r.reverse := by
    have := congrArg List.reverse h4
    rwa [List.reverse_reverse, List.reverse_append] at this
  refine ⟨l, r.reverse, by rw [← h7]; exact h1, h2, fun c hc => h5 c (List.mem_reverse.mp hc), ?_, ?_⟩
  · intro c hc
    refine h3 c ?_
    rw [h7, List.head?_append, hc]; rfl
  · intro c hc
    refine h6 c ?_
    rw [trimWs, List.getLast?_reverse] at hc
    exact hc

theorem Spec.TrimmedTo.unique {s b b' : Str} (h : TrimmedTo ws s b) (h' : TrimmedTo ws s b') : b = b' := by
  obtain ⟨l, r, rfl, hl, hr, hh, ht⟩ := h
  obtain ⟨l', r', he, hl', hr', hh', ht'⟩ := h'
  -- the blanks in front
  have front : ∀ {l l' x x' : Str}, Blank ws l → Blank ws l' → (∀ c, x.head? = some c → ws c = false) →
      (∀ c, x'.head? = some c → ws c = false) → x ≠ [] → x' ≠ [] → l ++ x = l' ++ x' → l = l' ∧ x = x' := by
    intro l l' x x' h1 h2 h3 h4 h5 h6 h7
    obtain ⟨c, x, rfl⟩ := List.exists_cons_of_ne_nil h5
    obtain ⟨c', x', rfl⟩ := List.exists_cons_of_ne_nil h6
    induction l generalizing l' with
    | nil =>
      cases l' with
      | nil => exact ⟨rfl, h7⟩
      | cons d l' =>
        simp at h7
        have := h2 d List.mem_cons_self
        rw [← h7.1, h3 c rfl] at this; simp at this
    | cons d l ih =>
      cases l' with
      | nil =>
        simp at h7
        have := h1 d List.mem_cons_self
        rw [h7.1, h4 c' rfl] at this; simp at this
      | cons d' l' =>
        simp at h7
        obtain ⟨e1, e2⟩ := ih (fun y hy => h1 y (List.mem_cons_of_mem _ hy)) (fun y hy => h2 y (List.mem_cons_of_mem _ hy)) h7.2
        exact ⟨by rw [h7.1, e1], e2⟩
  have allBlank : ∀ {l b r : Str}, Blank ws (l ++ (b ++ r)) → (∀ c, b.head? = some c → ws c = false) → b = [] := by
    intro l b r h hb
    cases b with
    | nil => rfl
    | cons c b =>
      have := h c (by simp)
      rw [hb c rfl] at this; simp at this
  have blank3 : ∀ {l r : Str}, Blank ws l → Blank ws r → Blank ws (l ++ r) := by
    intro l r h1 h2 c hc
    rcases List.mem_append.mp hc with hc | hc
    · exact h1 c hc
    · exact h2 c hc
  by_cases hb : b = []
  · subst hb
    exact (allBlank (l := l') (r := r') (by rw [← he]; exact blank3 hl hr) hh').symm
  by_cases hb' : b' = []
  · subst hb'
    exact allBlank (l := l) (r := r) (by rw [he]; exact blank3 hl' hr') hh
  have hd : ∀ {b r : Str}, b ≠ [] → (∀ c, b.head? = some c → ws c = false) → ∀ c, (b ++ r).head? = some c → ws c = false := by
    intro b r h0 h c hc
    obtain ⟨d, b, rfl⟩ := List.exists_cons_of_ne_nil h0
    exact h c (by simpa using hc)
  obtain ⟨_, e2⟩ := front hl hl' (hd (r := r) hb hh) (hd (r := r') hb' hh') (by simp [hb]) (by simp [hb']) he
  have e3 := congrArg List.reverse e2
  rw [List.reverse_append, List.reverse_append] at e3
  have rv : ∀ {r : Str}, Blank ws r → Blank ws r.reverse := fun h c hc => h c (List.mem_reverse.mp hc)
  obtain ⟨_, e4⟩ := front (rv hr) (rv hr') (by simpa [List.head?_reverse] using ht) (by simpa [List.head?_reverse] using ht')
    (by simpa using hb) (by simpa using hb') e3
  have := congrArg List.reverse e4
  rwa [List.reverse_reverse, List.reverse_reverse] at this

theorem trimmed_chomp (hr : ws '\r' = true) {l x b : Str} (h : l = x ∨ l = x ++ ['\r']) (hb : TrimmedTo ws x b) : TrimmedTo ws l b := by
  rcases h with rfl | rfl
  · exact hb
  · obtain ⟨a, r, rfl, h1, h2, h3⟩ := hb
    refine ⟨a, r ++ ['\r'], by simp, h1, ?_, h3⟩
    intro c hc
    rcases List.mem_append.mp hc with hc | hc
    · exact h2 c hc
    · simp at hc; rw [hc]; exact hr

theorem chompLine_line {l : Str} (hl : '\n' ∉ l) : l = chompLine (l ++ ['\n']) ∨ l = chompLine (l ++ ['\n']) ++ ['\r'] := by
  unfold chompLine
  rw [List.getLast?_append]
  simp only [List.getLast?_singleton, Option.some_or, if_true]
  rw [List.dropLast_concat]
  split
  · rename_i h
    right
    obtain ⟨x, rfl⟩ := List.getLast?_eq_some_iff.mp h
    rw [List.dropLast_concat]
  · exact .inl rfl

theorem chompLine_last {l : Str} (hl : '\n' ∉ l) : chompLine l = l := by
  unfold chompLine
  rw [if_neg]
  intro h
  exact hl (List.mem_of_getLast? h)

/-- The lines the code sees are the lines of the text up to a carriage return. -/
theorem rustLines_spec (hr : ws '\r' = true) (n : Nat) : ∀ s : Str, s.length ≤ n →
    ∃ ls, LinesOf s ls ∧ List.Forall₂ (fun l b => TrimmedTo ws l b) ls ((rustLines s).map (trimWs ws)) := by
  induction n with
  | zero =>
    intro s hs
    have : s = [] := List.eq_nil_of_length_eq_zero (by omega)
    subst this
    exact ⟨[], .nil, .nil⟩
  | succ n ih =>
    intro s hs
    by_cases hn : '\n' ∈ s
    · obtain ⟨l, t, rfl, hl⟩ := List.eq_append_cons_of_mem hn
      obtain ⟨ls, h1, h2⟩ := ih t (by simp at hs; omega)
      refine ⟨l :: ls, .cons hl h1, ?_⟩
      unfold rustLines at h2 ⊢
      rw [splitInclusive_line l t hl, List.map_cons, List.map_cons]
      exact .cons (trimmed_chomp hr (chompLine_line hl) (trimWs_trimmed _)) h2
    · by_cases h0 : s = []
      · subst h0; exact ⟨[], .nil, .nil⟩
      · refine ⟨[s], .last h0 hn, ?_⟩
        unfold rustLines
        rw [splitInclusive_last s hn h0, List.map_cons, List.map_cons, chompLine_last hn]
        exact .cons (trimWs_trimmed _) .nil

end

/-! ### Comment marks -/

theorem Spec.NoClose.append {x y : Str} (hx : NoClose x) (hy : NoClose y) (h : x.getLast? ≠ some '*' ∨ y.head? ≠ some '/') :
    NoClose (x ++ y) := by
  intro a b he
  rcases List.append_eq_append_iff.mp he with ⟨z, h1, h2⟩ | ⟨z, h1, h2⟩
  · exact hy z b h2
  · cases z with
    | nil => exact hy [] b (by simpa using h2.symm)
    | cons c z =>
      simp only [List.cons_append, List.cons.injEq] at h2
      obtain ⟨rfl, h2⟩ := h2
      cases z with
      | nil =>
        simp only [List.nil_append] at h2
        rcases h with h | h
        · rw [h1] at h; simp at h
        · rw [← h2] at h; simp at h
      | cons d z =>
        simp only [List.cons_append, List.cons.injEq] at h2
        obtain ⟨rfl, rfl⟩ := h2
        exact hx a z h1

theorem Spec.NoClose.infix {x y l r : Str} (h : NoClose x) (he : x = l ++ (y ++ r)) : NoClose y := by
  intro a b hy
  exact h (l ++ a) (b ++ r) (by rw [he, hy]; simp)

theorem Spec.NoClose.of_not_mem {x : Str} (h : '/' ∉ x) : NoClose x := by
  intro a b he
  exact h (by rw [he]; simp)

/-- A block comment ends with its marker. -/
theorem blockComment_closed {body rest : Str} (h : NoClose body) :
    BlockComment "/*".toList "*/".toList ("/*".toList ++ (body ++ ("*/".toList ++ rest))) ("/*".toList ++ (body ++ "*/".toList)) := by
  refine ⟨body ++ ("*/".toList ++ rest), rfl, .inl ⟨body, rest, by simp, by simp, ?_⟩⟩
  intro a b he
  rw [List.append_assoc] at he
  rcases List.append_eq_append_iff.mp he with ⟨z, h1, h2⟩ | ⟨z, h1, h2⟩
  · rw [h1]; simp
  · cases z with
    | nil => rw [h1]; simp
    | cons c z =>
      exfalso
      simp at h2
      obtain ⟨rfl, h2⟩ := h2
      cases z with
      | nil => simp at h2
      | cons d z =>
        simp at h2
        obtain ⟨rfl, rfl⟩ := h2
        exact h a z h1

theorem split_at_char {l l' t t' : Str} (he : l ++ '\n' :: t = l' ++ '\n' :: t') (hl : '\n' ∉ l) (hl' : '\n' ∉ l') :
    l = l' ∧ True ∧ t = t' := by
  induction l generalizing l' with
  | nil =>
    cases l' with
    | nil => simpa using he
    | cons c l' => simp at he hl'; exact absurd he.1 hl'.1
  | cons c l ih =>
    cases l' with
    | nil => simp at he hl; exact absurd he.1.symm hl.1
    | cons c' l' =>
      simp at he hl hl'
      obtain ⟨e1, _, e2⟩ := ih he.2 hl.2 hl'.2
      exact ⟨by rw [he.1, e1], trivial, e2⟩

theorem Spec.LinesOf.unique {s : Str} {ls ls' : List Str} (h : LinesOf s ls) (h' : LinesOf s ls') : ls = ls' := by
  have key : ∀ {s : Str} {ls' : List Str}, LinesOf s ls' → ∀ {l t : Str}, '\n' ∉ l → s = l ++ '\n' :: t → ∃ ls'', ls' = l :: ls'' ∧ LinesOf t ls'' := by
    intro s ls' h' l t hl he
    cases h' with
    | nil => simp at he
    | last _ hn => exact absurd (show '\n' ∈ s by rw [he]; simp) hn
    | @cons l' t' ls hl' h' =>
      obtain ⟨rfl, _, rfl⟩ := split_at_char he hl' hl
      exact ⟨_, rfl, h'⟩
  induction h generalizing ls' with
  | nil =>
    generalize hs : ([] : Str) = s at h'
    cases h' with
    | nil => rfl
    | last h => exact absurd hs.symm h
    | cons => simp at hs
  | @last l h0 hn =>
    cases h' with
    | nil => exact absurd rfl h0
    | last => rfl
    | cons => simp at hn
  | cons hl _ ih =>
    obtain ⟨ls'', rfl, h''⟩ := key h' hl rfl
    rw [ih h'']

theorem noClose_rows {ws : Char → Bool} {indent : Str} (hi : '/' ∉ indent) {bs : List Str} (h : ∀ b ∈ bs, NoClose b) :
    NoClose (bs.flatMap (fun b => indent ++ (" * ".toList ++ (b ++ ['\n'])))) := by
  induction bs with
  | nil => exact .of_not_mem (by simp)
  | cons b bs ih =>
    rw [List.flatMap_cons]
    have hb : NoClose (b ++ ['\n']) := (h b List.mem_cons_self).append (.of_not_mem (by simp)) (.inr (by simp))
    have h1 : NoClose (" * ".toList ++ (b ++ ['\n'])) := NoClose.append (.of_not_mem (by decide)) hb (.inl (by decide))
    have h2 : NoClose (indent ++ (" * ".toList ++ (b ++ ['\n']))) := NoClose.append (.of_not_mem hi) h1 (.inr (by simp))
    refine h2.append (ih fun c hc => h c (List.mem_cons_of_mem _ hc)) (.inl ?_)
    rw [← List.append_assoc, ← List.append_assoc, List.getLast?_append]
    simp

end Oaks
