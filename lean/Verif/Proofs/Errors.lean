import Verif.Spec.Errors
import Mathlib.Data.Nat.Digits.Lemmas

/- Proofs about the text of errors. -/
namespace Oaks
open Spec

/-- Two splits of a text at a last separator are the same. -/
theorem last_sep_inj (x : Char) : ∀ {d d' a a' : Str}, x ∉ d → x ∉ d' → a ++ x :: d = a' ++ x :: d' → a = a' ∧ d = d' := by
  intro d d' a
  induction a with
  | nil =>
    intro a' hd hd' h
    cases a' with
    | nil => simpa using h
    | cons c a' =>
      simp only [List.nil_append, List.cons_append, List.cons.injEq] at h
      exact absurd (by rw [h.2]; simp) hd
  | cons c a ih =>
    intro a' hd hd' h
    cases a' with
    | nil =>
      simp only [List.nil_append, List.cons_append, List.cons.injEq] at h
      exact absurd (by rw [← h.2]; simp) hd'
    | cons c' a' =>
      simp only [List.cons_append, List.cons.injEq] at h
      obtain ⟨h1, h2⟩ := ih hd hd' h.2
      exact ⟨by rw [h.1, h1], h2⟩

/-- Two splits of a text at a first separator are the same. -/
theorem first_sep_inj (x : Char) : ∀ {a a' d d' : Str}, x ∉ a → x ∉ a' → a ++ x :: d = a' ++ x :: d' → a = a' ∧ d = d' := by
  intro a
  induction a with
  | nil =>
    intro a' d d' ha ha' h
    cases a' with
    | nil => simpa using h
    | cons c a' =>
      simp only [List.nil_append, List.cons_append, List.cons.injEq] at h
      exact absurd (by rw [h.1]; simp) ha'
  | cons c a ih =>
    intro a' d d' ha ha' h
    cases a' with
    | nil =>
      simp only [List.nil_append, List.cons_append, List.cons.injEq] at h
      exact absurd (by rw [h.1]; simp) ha
    | cons c' a' =>
      simp only [List.cons_append, List.cons.injEq] at h
      obtain ⟨h1, h2⟩ := ih (fun m => ha (by simp [m])) (fun m => ha' (by simp [m])) h.2
      exact ⟨by rw [h.1, h1], h2⟩

theorem natStr_digit {c : Char} {n : Nat} (h : c ∈ natStr n) : c.isDigit = true :=
  Nat.isDigit_of_mem_toDigits (by omega) (by omega) (show c ∈ Nat.toDigits 10 n by simpa [natStr, Nat.repr] using h)

theorem natStr_inj {n m : Nat} (h : natStr n = natStr m) : n = m := by
  have h' : Nat.toDigits 10 n = Nat.toDigits 10 m := by simpa [natStr, Nat.repr] using h
  have := congrArg (fun l => Nat.ofDigitChars 10 l 0) h'
  simpa [Nat.ofDigitChars_ten_toDigits] using this

namespace OakErr

theorem showSource_chars {s : Option Nat} {c : Char} (h : c ∈ showSource s) : c ∈ ['N', 'o', 'n', 'e', 'S', 'm', '(', ')'] ∨ c.isDigit = true := by
  cases s with
  | none =>
    have h' : c ∈ ['N', 'o', 'n', 'e'] := h
    left; revert h'; simp; tauto
  | some n =>
    have h' : c ∈ ['S', 'o', 'm', 'e', '('] ++ natStr n ++ [')'] := h
    simp only [List.mem_append] at h'
    rcases h' with (h' | h') | h'
    · left; revert h'; simp; tauto
    · exact .inr (natStr_digit h')
    · left; revert h'; simp; tauto

/-- A text with a source behind it tells both. -/
theorem showSource_inj {a a' : Str} {s s' : Option Nat} (h : a ++ ' ' :: showSource s = a' ++ ' ' :: showSource s') : a = a' ∧ s = s' := by
  have hs : ∀ s, ' ' ∉ showSource s := by
    intro s hm
    have := showSource_chars hm
    revert this; decide
  obtain ⟨h1, h2⟩ := last_sep_inj ' ' (hs s) (hs s') h
  refine ⟨h1, ?_⟩
  cases s with
  | none =>
    cases s' with
    | none => rfl
    | some m => simp [showSource] at h2
  | some n =>
    cases s' with
    | none => simp [showSource] at h2
    | some m =>
      simp only [showSource, List.append_assoc] at h2
      exact congrArg some (natStr_inj (List.append_cancel_right (List.append_cancel_left h2)))

/-- A text with a place behind it tells all three. -/
theorem showPlace_inj {a a' : Str} {s s' : Option Nat} {o o' : Nat} (h : a ++ ' ' :: showPlace s o = a' ++ ' ' :: showPlace s' o') :
    a = a' ∧ s = s' ∧ o = o' := by
  have hc : ∀ o, ':' ∉ natStr o := fun o hm => by have := natStr_digit hm; revert this; decide
  have h' : (a ++ ' ' :: showSource s) ++ ':' :: natStr o = (a' ++ ' ' :: showSource s') ++ ':' :: natStr o' := by
    simpa [showPlace, List.append_assoc] using h
  obtain ⟨h1, h2⟩ := last_sep_inj ':' (hc o) (hc o') h'
  obtain ⟨h3, h4⟩ := showSource_inj h1
  exact ⟨h3, h4, natStr_inj h2⟩

/-- All keys. -/
private def keys : List Str :=
  ["error.io", "error.syntax", "error.unexpected_character", "error.unexpected_token", "error.unexpected_eof", "error.custom",
    "error.invalid_theme", "error.unsupported_format", "error.color_parse", "error.format", "error.semantic", "error.protocol",
    "error.expected_token", "error.expected_name", "error.trailing_comma_not_allowed", "error.test_failure", "error.test_regenerated",
    "error.serde", "error.deserialize", "error.xml", "error.zip", "error.parse", "error.internal"].map String.toList

/-- The number of a kind. -/
private def tag : OakErr → Nat
  | io .. => 0
  | syntaxError .. => 1
  | unexpectedCharacter .. => 2
  | unexpectedToken .. => 3
  | unexpectedEof .. => 4
  | customError .. => 5
  | invalidTheme .. => 6
  | unsupportedFormat .. => 7
  | colorParse .. => 8
  | formatError .. => 9
  | semanticError .. => 10
  | protocolError .. => 11
  | expectedToken .. => 12
  | expectedName .. => 13
  | trailingComma .. => 14
  | testFailure .. => 15
  | testRegenerated .. => 16
  | serdeError .. => 17
  | deserializeError .. => 18
  | xmlError .. => 19
  | zipError .. => 20
  | parseError .. => 21
  | internalError .. => 22

private theorem key_at (e : OakErr) : keys[e.tag]? = some e.key := by
  cases e <;> rfl

private theorem keys_free : ∀ i < 23, ∀ j < 23, ((keys[i]?.getD []).isPrefixOf (keys[j]?.getD [])) = true → i = j := by
  decide +kernel

private theorem tag_lt (e : OakErr) : e.tag < 23 := by
  cases e <;> (simp only [tag]; decide)

private theorem tag_of_prefix {e e' : OakErr} (h : e.key <+: e'.key) : e.tag = e'.tag := by
  refine keys_free _ (tag_lt e) _ (tag_lt e') ?_
  rw [key_at, key_at]
  exact List.isPrefixOf_iff_prefix.mpr h

/-- No key begins another one, so the text tells the key. -/
private theorem key_of_display {path : Str → Str} {e e' : OakErr} (h : e.display path = e'.display path) :
    e.tag = e'.tag ∧ e.body path = e'.body path := by
  have ht : e.tag = e'.tag := by
    have p1 : e.key <+: e'.display path := by rw [← h]; exact ⟨_, rfl⟩
    have p2 : e'.key <+: e'.display path := ⟨_, rfl⟩
    rcases List.prefix_or_prefix_of_prefix p1 p2 with hp | hp
    · exact tag_of_prefix hp
    · exact (tag_of_prefix hp).symm
  refine ⟨ht, ?_⟩
  have hk : e.key = e'.key := by
    have := key_at e
    rw [ht, key_at e'] at this
    exact (Option.some.inj this).symm
  unfold display at h
  rw [hk] at h
  exact List.append_cancel_left h

theorem key_of_prefix {path : Str → Str} {e e' : OakErr} (h : e.key <+: e'.display path) : e.key = e'.key := by
  have ht : e.tag = e'.tag := by
    rcases List.prefix_or_prefix_of_prefix h ⟨_, rfl⟩ with hp | hp
    · exact tag_of_prefix hp
    · exact (tag_of_prefix hp).symm
  have := key_at e
  rw [ht, key_at e'] at this
  exact (Option.some.inj this).symm

theorem display_tells {path : Str → Str} (hp : ∀ p q, path p = path q → p = q) {e e' : OakErr} (ht : ¬ IsTestFailure e)
    (h : e.display path = e'.display path) : Tells e e' := by
  obtain ⟨hk, hb⟩ := key_of_display h
  clear h
  cases e <;> cases e' <;> first
    | (exfalso; exact absurd hk (by simp only [tag]; decide))
    | skip
  all_goals clear hk
  case io.io e s e' s' =>
    replace hb : "(".toList ++ showSource s ++ ")".toList ++ ": ".toList ++ e.text =
        "(".toList ++ showSource s' ++ ")".toList ++ ": ".toList ++ e'.text := hb
    simp only [List.append_assoc] at hb
    replace hb := List.append_cancel_left hb
    have hs : ∀ s, ':' ∉ showSource s ++ [')'] := by
      intro s hm
      simp only [List.mem_append] at hm
      rcases hm with hm | hm
      · have := showSource_chars hm
        revert this; decide
      · revert hm; decide
    have hb' : (showSource s ++ [')']) ++ ':' :: ' ' :: e.text = (showSource s' ++ [')']) ++ ':' :: ' ' :: e'.text := by
      simpa using hb
    obtain ⟨h1, h2⟩ := first_sep_inj ':' (hs s) (hs s') hb'
    have h3 := List.append_cancel_right h1
    have h4 := (showSource_inj (a := []) (a' := []) (by simpa using h3)).2
    exact ⟨by simpa using h2, h4⟩
  case testFailure.testFailure => exact absurd trivial ht
  case testRegenerated.testRegenerated p p' =>
    replace hb : "test regenerated: ".toList ++ path p = "test regenerated: ".toList ++ path p' := hb
    exact congrArg testRegenerated (hp _ _ (List.append_cancel_left hb))
  case syntaxError.syntaxError m o s m' o' s' =>
    replace hb : m ++ ": (at ".toList ++ showPlace s o ++ ")".toList = m' ++ ": (at ".toList ++ showPlace s' o' ++ ")".toList := hb
    have hb1 := List.append_cancel_right hb
    have hb' : (m ++ ": (at".toList) ++ ' ' :: showPlace s o = (m' ++ ": (at".toList) ++ ' ' :: showPlace s' o' := by simpa using hb1
    obtain ⟨h1, h2, h3⟩ := showPlace_inj hb'
    have h4 := List.append_cancel_right h1
    subst h4 h2 h3; rfl
  case unexpectedCharacter.unexpectedCharacter m o s m' o' s' =>
    replace hb : "unexpected character '".toList ++ [m] ++ "' at ".toList ++ showPlace s o =
        "unexpected character '".toList ++ [m'] ++ "' at ".toList ++ showPlace s' o' := hb
    simp only [List.append_assoc] at hb
    replace hb := List.append_cancel_left hb
    have hb' : ([m] ++ "' at".toList) ++ ' ' :: showPlace s o = ([m'] ++ "' at".toList) ++ ' ' :: showPlace s' o' := by simpa using hb
    obtain ⟨h1, h2, h3⟩ := showPlace_inj hb'
    have h4 : m = m' := by simpa using h1
    subst h4 h2 h3; rfl
  case unexpectedToken.unexpectedToken m o s m' o' s' =>
    replace hb : "unexpected token '".toList ++ m ++ "' at ".toList ++ showPlace s o =
        "unexpected token '".toList ++ m' ++ "' at ".toList ++ showPlace s' o' := hb
    simp only [List.append_assoc] at hb
    replace hb := List.append_cancel_left hb
    have hb' : (m ++ "' at".toList) ++ ' ' :: showPlace s o = (m' ++ "' at".toList) ++ ' ' :: showPlace s' o' := by simpa using hb
    obtain ⟨h1, h2, h3⟩ := showPlace_inj hb'
    have h4 := List.append_cancel_right h1
    subst h4 h2 h3; rfl
  case expectedToken.expectedToken m o s m' o' s' =>
    replace hb : "expected token '".toList ++ m ++ "' at ".toList ++ showPlace s o =
        "expected token '".toList ++ m' ++ "' at ".toList ++ showPlace s' o' := hb
    simp only [List.append_assoc] at hb
    replace hb := List.append_cancel_left hb
    have hb' : (m ++ "' at".toList) ++ ' ' :: showPlace s o = (m' ++ "' at".toList) ++ ' ' :: showPlace s' o' := by simpa using hb
    obtain ⟨h1, h2, h3⟩ := showPlace_inj hb'
    have h4 := List.append_cancel_right h1
    subst h4 h2 h3; rfl
  case expectedName.expectedName m o s m' o' s' =>
    replace hb : "expected ".toList ++ m ++ " at ".toList ++ showPlace s o =
        "expected ".toList ++ m' ++ " at ".toList ++ showPlace s' o' := hb
    simp only [List.append_assoc] at hb
    replace hb := List.append_cancel_left hb
    have hb' : (m ++ " at".toList) ++ ' ' :: showPlace s o = (m' ++ " at".toList) ++ ' ' :: showPlace s' o' := by simpa using hb
    obtain ⟨h1, h2, h3⟩ := showPlace_inj hb'
    have h4 := List.append_cancel_right h1
    subst h4 h2 h3; rfl
  case unexpectedEof.unexpectedEof o s o' s' =>
    replace hb : "unexpected end of file at ".toList ++ showPlace s o = "unexpected end of file at ".toList ++ showPlace s' o' := hb
    obtain ⟨_, h2, h3⟩ := showPlace_inj (a := []) (a' := []) (by simpa using List.append_cancel_left hb)
    subst h2 h3; rfl
  case trailingComma.trailingComma o s o' s' =>
    replace hb : "trailing comma not allowed at ".toList ++ showPlace s o = "trailing comma not allowed at ".toList ++ showPlace s' o' := hb
    obtain ⟨_, h2, h3⟩ := showPlace_inj (a := []) (a' := []) (by simpa using List.append_cancel_left hb)
    subst h2 h3; rfl
  case customError.customError m m' => exact congrArg customError hb
  case invalidTheme.invalidTheme m m' => exact congrArg invalidTheme hb
  case unsupportedFormat.unsupportedFormat m m' =>
    replace hb : "unsupported format: ".toList ++ m = "unsupported format: ".toList ++ m' := hb
    exact congrArg unsupportedFormat (List.append_cancel_left hb)
  case colorParse.colorParse m m' =>
    replace hb : "invalid color: ".toList ++ m = "invalid color: ".toList ++ m' := hb
    exact congrArg colorParse (List.append_cancel_left hb)
  case formatError.formatError m m' => exact congrArg formatError hb
  case semanticError.semanticError m m' => exact congrArg semanticError hb
  case protocolError.protocolError m m' => exact congrArg protocolError hb
  case serdeError.serdeError m m' =>
    replace hb : "serde error: ".toList ++ m = "serde error: ".toList ++ m' := hb
    exact congrArg serdeError (List.append_cancel_left hb)
  case deserializeError.deserializeError m m' =>
    replace hb : "deserialization error: ".toList ++ m = "deserialization error: ".toList ++ m' := hb
    exact congrArg deserializeError (List.append_cancel_left hb)
  case xmlError.xmlError m m' =>
    replace hb : "XML error: ".toList ++ m = "XML error: ".toList ++ m' := hb
    exact congrArg xmlError (List.append_cancel_left hb)
  case zipError.zipError m m' =>
    replace hb : "zip error: ".toList ++ m = "zip error: ".toList ++ m' := hb
    exact congrArg zipError (List.append_cancel_left hb)
  case parseError.parseError m m' =>
    replace hb : "parse error: ".toList ++ m = "parse error: ".toList ++ m' := hb
    exact congrArg parseError (List.append_cancel_left hb)
  case internalError.internalError m m' =>
    replace hb : "internal error: ".toList ++ m = "internal error: ".toList ++ m' := hb
    exact congrArg internalError (List.append_cancel_left hb)

end OakErr
end Oaks
