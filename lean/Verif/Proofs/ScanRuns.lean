import Verif.Spec.Json
import Verif.Spec.Xml
import Verif.Proofs.ScanEval

/-! Longest runs, characters of one byte. -/
namespace Oaks
open Spec

instance (c : Char) : Decidable (AsciiLetter c) := by unfold AsciiLetter; infer_instance
instance (c : Char) : Decidable (AsciiDigit c) := by unfold AsciiDigit; infer_instance

instance {P : Char → Prop} [DecidablePred P] (m rest : Str) : Decidable (LongRun P m rest) := by
  unfold LongRun
  have : Decidable (∀ c, rest.head? = some c → ¬ P c) := by
    cases rest with
    | nil => exact isTrue (by simp)
    | cons a s => exact decidable_of_iff (¬ P a) (by simp)
  infer_instance

/-- The first piece of a text and the pieces of the rest. -/
theorem Spec.Cut.step {P : Option Nat → Str → Str → Prop} {t m : Str} {k : Option Nat} {ps : List (Option Nat × Str)} (rest : Str)
    (e : t = m ++ rest) (hm : m ≠ []) (hp : P k m rest) (h : Cut P rest ps) : Cut P t ((k, m) :: ps) := e ▸ .cons hm hp h

/-- Every token comes from a piece of its kind. -/
theorem mem_tokensOf {ps : List (Option Nat × Str)} {n : Nat} {k : Tok} (h : k ∈ tokensOf n ps) : ∃ p ∈ ps, p.1 = some k.kind := by
  induction ps generalizing n with
  | nil => simp [tokensOf] at h
  | cons x ps ih =>
    obtain ⟨a, m⟩ := x
    cases a with
    | none => obtain ⟨p, hp, e⟩ := ih h; exact ⟨p, List.mem_cons_of_mem _ hp, e⟩
    | some a =>
      rcases List.mem_cons.mp h with rfl | h
      · exact ⟨_, List.mem_cons_self, rfl⟩
      · obtain ⟨p, hp, e⟩ := ih h; exact ⟨p, List.mem_cons_of_mem _ hp, e⟩

theorem longRun_take {p : Char → Bool} {P : Char → Prop} (hp : ∀ c, p c = true ↔ P c) {m rest : Str} (h : LongRun P m rest) :
    (m ++ rest).takeWhile p = m ∧ (m ++ rest).dropWhile p = rest := by
  obtain ⟨h1, h2⟩ := h
  induction m with
  | nil =>
    cases rest with
    | nil => simp
    | cons c s =>
      have : ¬ p c = true := fun e => h2 c rfl ((hp c).mp e)
      simp [this]
  | cons c m ih =>
    have : p c = true := (hp c).mpr (h1 c List.mem_cons_self)
    obtain ⟨i1, i2⟩ := ih (fun d hd => h1 d (List.mem_cons_of_mem _ hd))
    simp [this, i1, i2]

theorem longRun_span (p : Char → Bool) (s : Str) : LongRun (fun c => p c = true) (s.takeWhile p) (s.dropWhile p) := by
  refine ⟨fun c hc => of_mem_takeWhile hc, fun c hc h => ?_⟩
  have := List.head?_dropWhile_not p s
  rw [hc] at this
  simp [h] at this

/-- Evaluates programs; what is given decides the questions they ask. -/
syntax "scan" (" [" Lean.Parser.Tactic.simpLemma,* "]")? : tactic
macro_rules
  | `(tactic| scan) => `(tactic| scan [])
  | `(tactic| scan [$as,*]) => `(tactic| simp +decide only [Scn.eval_bind, Scn.eval_look, Scn.eval_pure, Option.bind_some, Option.map_some, List.head?_cons, List.head?_nil,
      Scn.eval_tok, Scn.eval_ite, Scn.eval_hasMoved, Scn.eval_word, Scn.eval_back, Scn.eval_here, Scn.eval_sees, Scn.eval_eatWhile,
      Scn.eval_skip_char, List.nil_append, List.append_nil, List.append_assoc, List.cons_append, Oaks.gap_nil, List.length_cons,
      if_true, if_false, reduceIte, Bool.false_eq_true, Nat.lt_add_one, eq_self, ne_eq, reduceCtorEq, not_false_eq_true, not_true_eq_false, decide_true, decide_false, $as,*])

theorem size_one {c : Char} (h : c.toNat < 128) : c.utf8Size = 1 := by
  unfold Char.utf8Size
  have : c.val ≤ 0x7f := by
    rw [UInt32.le_iff_toNat_le]
    have : c.val.toNat < 128 := h
    simp; omega
  simp [this]

theorem digit_ascii {c : Char} (h : AsciiDigit c) : c.toNat < 128 := by
  have h2 : c.val.toNat ≤ 57 := UInt32.le_iff_toNat_le.mp h.2
  change c.val.toNat < 128; omega

theorem letter_ascii {c : Char} (h : AsciiLetter c) : c.toNat < 128 := by
  rcases h with h | h
  · have h2 : c.val.toNat ≤ 122 := UInt32.le_iff_toNat_le.mp h.2
    change c.val.toNat < 128; omega
  · have h2 : c.val.toNat ≤ 90 := UInt32.le_iff_toNat_le.mp h.2
    change c.val.toNat < 128; omega

/-- A literal is what the span says. -/
theorem literal_span {q : Char} {esc : Option Char} (he : esc ≠ some q) {m rest : Str} {closed : Bool} (h : Literal q esc (m ++ rest) m closed) :
    ∃ x s, m = q :: x ∧ m ++ rest = q :: s ∧ Scn.litSpan q esc s = (x, rest) := by
  have h0 : ∃ s, m ++ rest = q :: s := by
    cases closed with
    | true => obtain ⟨body, r, h1, _⟩ := h; exact ⟨_, h1⟩
    | false => obtain ⟨after, h1, _⟩ := h; exact ⟨_, h1⟩
  obtain ⟨s, hs⟩ := h0
  rw [hs] at h
  obtain ⟨c', h'⟩ := Scn.litSpan_literal he s
  obtain ⟨rfl, -⟩ := literal_unique he h h'
  refine ⟨_, s, rfl, hs, ?_⟩
  have := Scn.litSpan_text q esc s
  rw [List.cons_append, List.cons.injEq] at hs
  have h2 := hs.2
  nth_rewrite 2 [← this] at h2
  rw [List.append_cancel_left h2]

theorem span_literal {q : Char} {esc : Option Char} (he : esc ≠ some q) (s : Str) :
    ∃ closed, Literal q esc (q :: (Scn.litSpan q esc s).1 ++ (Scn.litSpan q esc s).2) (q :: (Scn.litSpan q esc s).1) closed := by
  rw [List.cons_append, Scn.litSpan_text]
  exact Scn.litSpan_literal he s

end Oaks
