import Verif.Model.SourceBuffer
import Verif.Spec.Words

/-! # C11: code emission -/

namespace Oaks
open Spec

theorem emitted_of_pushAll (alnum : Char → Bool) (ps : List Str) (b : SBuf)
    (hb : b.lastChar = b.inner.getLast?) :
    Emitted (fun c => (alnum c || c == '_') = true) b.inner ps (b.pushAll alnum ps) := by
  induction ps generalizing b with
  | nil => exact .nil _
  | cons p ps ih =>
    cases p with
    | nil =>
      refine .empty ?_
      have : (b.push alnum []) = b := rfl
      simpa [SBuf.pushAll, this] using ih b hb
    | cons y p =>
      have hlast : ∀ x : Str, (x ++ y :: p).getLast? = (y :: p).getLast? := by
        intro x
        rw [List.getLast?_append, List.getLast?_cons]; simp
      by_cases ht : Touching (fun c => (alnum c || c == '_') = true) b.inner (y :: p)
      · refine .spaced (by simp) ht ?_
        obtain ⟨a', x, y', b', h1, h2, h3, h4⟩ := ht
        simp at h2
        obtain ⟨rfl, rfl⟩ := h2
        have hl : b.lastChar = some x := by rw [hb, h1]; simp
        have hpush : b.push alnum (y :: p) = ⟨b.inner ++ ' ' :: y :: p, (y :: p).getLast?⟩ := by
          simp only [SBuf.push, List.head?_cons, hl, isWordOpt, h3, h4, Bool.and_self, if_true]
          simp
        have := ih ⟨b.inner ++ ' ' :: y :: p, (y :: p).getLast?⟩ (by
          have := hlast (b.inner ++ [' '])
          rw [← this]; simp)
        simpa [SBuf.pushAll, hpush] using this
      · refine .joined (by simp) ht ?_
        have hno : (isWordOpt alnum b.lastChar && isWordOpt alnum (some y)) = false := by
          rw [Bool.eq_false_iff]
          intro hh
          rw [Bool.and_eq_true] at hh
          apply ht
          rcases List.eq_nil_or_concat b.inner with h0 | ⟨a', x, h0⟩
          · rw [hb, h0] at hh; simp [isWordOpt] at hh
          · rw [hb, h0] at hh
            refine ⟨a', x, y, p, by simpa using h0, rfl, ?_, hh.2⟩
            simpa [isWordOpt] using hh.1
        have hpush : b.push alnum (y :: p) = ⟨b.inner ++ y :: p, (y :: p).getLast?⟩ := by
          simp [SBuf.push, hno]
        have := ih ⟨b.inner ++ y :: p, (y :: p).getLast?⟩ (hlast _).symm
        simpa [SBuf.pushAll, hpush] using this

/-- Removing the inserted spaces gives back the concatenation: nothing is dropped or reordered. -/
theorem emitted_sublist {word : Char → Prop} {done : Str} {ps : List Str} {out : Str}
    (h : Emitted word done ps out) : (done ++ ps.flatten).Sublist out ∧
      (done ++ ps.flatten).filter (· != ' ') = out.filter (· != ' ') := by
  induction h with
  | nil done => simp
  | empty _ ih => simpa using ih
  | joined _ _ _ ih => simpa using ih
  | @spaced done p ps out _ _ _ ih =>
    simp at ih ⊢
    exact ⟨(List.Sublist.append (List.Sublist.refl done) (List.sublist_cons_self _ _)).trans ih.1, ih.2⟩

/-! words -/

theorem wordsOf_not (word : Char → Bool) {c : Char} (h : word c = false) (s : Str) :
    wordsOf word (c :: s) = wordsOf word s := by
  cases s <;> simp [wordsOf, h]

/-- Words of a concatenation whose seam is not inside a word. -/
theorem wordsOf_append (word : Char → Bool) (a b : Str)
    (h : ¬ Touching (fun c => word c = true) a b) : wordsOf word (a ++ b) = wordsOf word a ++ wordsOf word b := by
  induction a with
  | nil => simp [wordsOf]
  | cons c a ih =>
    have h' : ¬ Touching (fun c => word c = true) a b := by
      rintro ⟨a', x, y, b', h1, h2⟩
      exact h ⟨c :: a', x, y, b', by simp [h1], h2⟩
    by_cases hc : word c = true
    · cases a with
      | nil =>
        cases b with
        | nil => simp [wordsOf]
        | cons d b =>
          have hd : word d = false := by
            rw [Bool.eq_false_iff]; intro hd
            exact h ⟨[], c, d, b, rfl, rfl, hc, hd⟩
          simp [wordsOf, hc, hd]
      | cons d a =>
        rw [List.cons_append, List.cons_append] at *
        by_cases hd : word d = true
        · have e1 : wordsOf word (c :: d :: (a ++ b)) =
              consWord c (wordsOf word (d :: (a ++ b))) := by rw [wordsOf]; simp [hc, hd]
          have e2 : wordsOf word (c :: d :: a) =
              consWord c (wordsOf word (d :: a)) := by rw [wordsOf]; simp [hc, hd]
          rw [e1, e2, ih h']
          have hne : wordsOf word (d :: a) ≠ [] := by
            cases a with
            | nil => simp [wordsOf, hd]
            | cons e a =>
              rw [wordsOf]; simp only [hd, if_true]
              split
              · cases wordsOf word (e :: a) <;> simp [consWord]
              · simp
          cases hw : wordsOf word (d :: a) with
          | nil => exact absurd hw hne
          | cons w ws => simp [consWord]
        · have hd' : word d = false := by simpa using hd
          have e1 : wordsOf word (c :: d :: (a ++ b)) = [c] :: wordsOf word (d :: (a ++ b)) := by
            rw [wordsOf]; simp [hc, hd']
          have e2 : wordsOf word (c :: d :: a) = [c] :: wordsOf word (d :: a) := by
            rw [wordsOf]; simp [hc, hd']
          rw [e1, e2, ih h']; simp
    · have hc' : word c = false := by simpa using hc
      rw [List.cons_append, wordsOf_not word hc', wordsOf_not word hc', ih h']

theorem emitted_words (word : Char → Bool) (hsp : word ' ' = false) {done : Str} {ps : List Str} {out : Str}
    (h : Emitted (fun c => word c = true) done ps out) :
    wordsOf word out = wordsOf word done ++ ps.flatMap (wordsOf word) := by
  induction h with
  | nil done => simp
  | empty _ ih => simpa [wordsOf] using ih
  | @joined done p ps out _ hn _ ih => rw [ih, wordsOf_append word _ _ hn]; simp
  | @spaced done p ps out _ _ _ ih =>
    rw [ih, wordsOf_append word done (' ' :: p), wordsOf_not word hsp]
    · simp
    · rintro ⟨a', x, y, b', _, h2, _, h4⟩
      simp at h2
      rw [← h2.1, hsp] at h4
      simp at h4

end Oaks

namespace Oaks.Props
open Oaks Oaks.Spec

/-- The buffer after any pushes is the pieces in order, with one space exactly between a word
character and a word character of consecutive non-empty pieces. -/
theorem C11_emission (alnum : Char → Bool) (pieces : List Str) :
    Emitted (fun c => (alnum c || c == '_') = true) [] pieces (SBuf.new.pushAll alnum pieces) :=
  emitted_of_pushAll alnum pieces SBuf.new rfl

/-- Nothing is dropped: the pieces are contained in order, and only spaces are added. -/
theorem C11_nothing_dropped (alnum : Char → Bool) (pieces : List Str) :
    pieces.flatten.Sublist (SBuf.new.pushAll alnum pieces) ∧
      pieces.flatten.filter (· != ' ') = (SBuf.new.pushAll alnum pieces).filter (· != ' ') := by
  simpa using emitted_sublist (C11_emission alnum pieces)

/-- Words never merge: the words of the output are exactly the words of the pieces, in order. -/
theorem C11_words_never_merge (alnum : Char → Bool) (hsp : alnum ' ' = false) (pieces : List Str) :
    wordsOf (fun c => alnum c || c == '_') (SBuf.new.pushAll alnum pieces) =
      pieces.flatMap (wordsOf (fun c => alnum c || c == '_')) := by
  have := emitted_words (fun c => alnum c || c == '_') (by simp [hsp]) (C11_emission alnum pieces)
  simpa [wordsOf] using this

/-- Non-vacuity. -/
example : SBuf.new.pushAll Char.isAlphanum ["let".toList, "".toList, "a".toList, "=".toList, "1".toList] =
    "let a=1".toList := by decide
example : wordsOf (fun c => c.isAlphanum || c == '_') "let a=1".toList =
    ["let".toList, "a".toList, "1".toList] := by decide

end Oaks.Props
