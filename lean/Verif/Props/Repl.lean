import Verif.Proofs.Repl

/-! # C45: the line editor of the REPL -/

namespace Oaks.Props
open Oaks Oaks.Spec

/-- For every handler and every sequence of keys with one-byte characters, the editor does not crash,
shows the ideal editor's lines and cursor, hands the same codes to the handler and ends at the same key.
The cursor stays inside the line since it is the length of the part before it. Missing for the full
property: other characters, where the editor crashes or puts text in the wrong place (`C45_crash`,
`C45_misplaced`). -/
theorem C45_ascii_partial (H : Handler) (h : H.State) (keys : List Key) (hk : ∀ k ∈ keys, AsciiKey k) :
    ∃ stop s e, replRun H ⟨LineBuf.new, h, []⟩ keys = .ok (stop, s) ∧ Typed H ⟨Editor.empty, h, []⟩ keys stop e ∧
      BufShows s.buf e.editor ∧ s.buf.fullText = e.editor.text ∧ s.handler = e.handler ∧ s.submitted = e.submitted := by
  obtain ⟨stop, s, e, h1, h2, h3, h4, h5⟩ := keys_shows H keys ⟨LineBuf.new, h, []⟩ ⟨Editor.empty, h, []⟩
    BufShows.empty rfl rfl ⟨by simp [Editor.empty], by simp [Editor.empty, AsciiText], by simp [Editor.empty, AsciiText]⟩ hk
  exact ⟨stop, s, e, h1, h2, h3, h3.text, h4, h5⟩

/-- The ideal session is determined by the keys. -/
theorem C45_determined (H : Handler) (s : Session H) (keys : List Key) (b b' : Bool) (t t' : Session H)
    (h : Typed H s keys b t) (h' : Typed H s keys b' t') : b = b' ∧ t = t' := typed_unique h h'

/-- A handler for which input is complete when it ends with `;`. -/
def demoHandler : Handler := ⟨Nat, fun _ s => s.getLast? == some ';', fun _ _ => 2, fun n s => (n + 1, s == "quit;".toList)⟩

/-- The result of typing, as data. -/
def demoType (ks : List Key) : Option (Bool × LineBuf × List Str) :=
  match replRun demoHandler ⟨LineBuf.new, (0 : Nat), []⟩ ks with
  | .ok (b, s) => some (b, s.buf, s.submitted)
  | .error _ => none

example : demoType [.char 'a' false, .char 'b' false, .left, .char 'x' false, .enter, .char ';' false, .enter, .char 'y' false] =
    some (false, ⟨["y".toList], 0, 1⟩, ["axb\n  ;".toList]) := by decide +kernel
example : demoType [.char 'a' false, .enter, .backspace, .backspace, .backspace, .backspace, .backspace, .char 'd' true] =
    some (true, ⟨[[]], 0, 0⟩, []) := by decide +kernel

/-- Counterexample to the full property: typing `é` and then `x` crashes the editor. -/
theorem C45_crash (H : Handler) (h : H.State) :
    replRun H ⟨LineBuf.new, h, []⟩ [.char 'é' false, .char 'x' false] = .error .panic := rfl

/-- Counterexample to the full property: after `b`, Left, `é`, Right the cursor is at the end of `éb`,
but `x` lands before `b`. -/
theorem C45_misplaced :
    demoType [.char 'b' false, .left, .char 'é' false, .right, .char 'x' false] =
      some (false, ⟨["éxb".toList], 0, 3⟩, []) := by decide +kernel

end Oaks.Props
