import Verif.Base.Str

/-
Model of `projects/oak-core/src/source/buffer.rs` (`SourceBuffer`).

`char::is_alphanumeric` is Unicode-wide in Rust; it is a parameter `alnum` here, so the results hold
for every classification of characters.
-/

namespace Oaks

/-- `SourceBuffer { inner, last_char }` (buffer.rs:18-21). -/
structure SBuf where
  inner : Str
  lastChar : Option Char

/-- `SourceBuffer::new` (buffer.rs:31-33). -/
def SBuf.new : SBuf := ⟨[], none⟩

/-- `is_word_char` (buffer.rs:54-56). -/
def isWordOpt (alnum : Char → Bool) : Option Char → Bool
  | none => false
  | some c => alnum c || c == '_'

/-- `push` (buffer.rs:36-46). -/
def SBuf.push (alnum : Char → Bool) (b : SBuf) (s : Str) : SBuf :=
  match s.head? with
  | some first =>
    let inner := if isWordOpt alnum b.lastChar && isWordOpt alnum (some first) then b.inner ++ [' '] else b.inner
    ⟨inner ++ s, s.getLast?⟩
  | none => b

/-- A sequence of pushes followed by `finish` (buffer.rs:49-51). -/
def SBuf.pushAll (alnum : Char → Bool) (b : SBuf) : List Str → Str
  | [] => b.inner
  | s :: ss => (b.push alnum s).pushAll alnum ss

end Oaks
