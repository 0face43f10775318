import Verif.Model.Source

/-
Model of `projects/oak-vfs/src/line_map.rs`: `LineMap`.

`u32` line and column arguments are natural numbers below `2^32`; the casts `as u32` of results are
the remainder modulo `2^32`.
-/
namespace Oaks

/-- `LineMap { line_starts, len }` (line_map.rs:8-13). -/
structure LineMap where
  lineStarts : List Nat
  len : Nat
deriving DecidableEq, Repr

/-- Body of the `for` loop of `from_source` over the bytes of a slice (line_map.rs:38-45):
`offset` is `offset + i` of the code. -/
def newlineStarts (len : Nat) : Nat → List UInt8 → List Nat
  | _, [] => []
  | offset, b :: bs =>
    if b = 10 then
      let next := offset + 1
      if next ≤ len then next :: newlineStarts len (offset + 1) bs
      else newlineStarts len (offset + 1) bs
    else newlineStarts len (offset + 1) bs

/-- The `while` loop of `from_source` (line_map.rs:35-47): the starts pushed from `offset` on. -/
def lineMapLoop (src : Source) : Nat → Nat → Run (List Nat)
  | fuel, offset =>
    if offset < src.length then
      match fuel with
      | 0 => .error .spin
      | fuel + 1 => do
        let chunk ← src.chunkAt offset
        let text := chunk.sliceFrom offset
        let rest ← lineMapLoop src fuel chunk.stop
        pure (newlineStarts src.length offset (bytes text) ++ rest)
    else .ok []

/-- `LineMap::from_source` (line_map.rs:29-50). -/
def LineMap.fromSource (src : Source) (fuel : Nat) : Run LineMap := do
  let starts ← lineMapLoop src fuel 0
  pure ⟨0 :: starts, src.length⟩

/-- `line_count` (line_map.rs:53-55). -/
def LineMap.lineCount (m : LineMap) : Nat := m.lineStarts.length

/-- `line_start` (line_map.rs:58-60). -/
def LineMap.lineStart (m : LineMap) (line : Nat) : Option Nat := m.lineStarts[line]?

/-- `line_end` (line_map.rs:66-71). -/
def LineMap.lineEnd (m : LineMap) (line : Nat) : Option Nat := do
  let start ← m.lineStarts[line]?
  let next := (m.lineStarts[line + 1]?).getD m.len
  some (max next start)

/-- `char::len_utf16` (standard library; line_map.rs:88-140). -/
def lenUtf16 (c : Char) : Nat := if c.toNat < 0x10000 then 1 else 2

/-- `offset_to_line_col_utf16` (line_map.rs:88-99). The match on `binary_search` is the one of
`chunkIdx`. `encode_utf16().count()` adds up `len_utf16`. -/
def LineMap.offsetToLineCol (m : LineMap) (src : Source) (offset : Nat) : Run (Nat × Nat) := do
  let offset := min offset m.len
  let lineIdx := chunkIdx m.lineStarts offset
  let lineStart ← index m.lineStarts lineIdx
  let slice ← src.textIn lineStart offset
  let col := (slice.map lenUtf16).sum
  pure (lineIdx % 2 ^ 32, col % 2 ^ 32)

/-- The `for` loop of `line_col_utf16_to_offset` over `char_indices` (line_map.rs:124-129):
the byte index at which it returns, if it does. -/
def colLoop (target : Nat) : Nat → Nat → Str → Option Nat
  | _, _, [] => none
  | utf16, byteIdx, ch :: rest =>
    if utf16 ≥ target then some byteIdx
    else colLoop target (utf16 + lenUtf16 ch) (byteIdx + ch.utf8Size) rest

/-- `line_col_utf16_to_offset` (line_map.rs:113-131). -/
def LineMap.lineColToOffset (m : LineMap) (src : Source) (line col : Nat) : Run Nat :=
  match m.lineStart line with
  | none => pure m.len
  | some lineStart => do
    let lineEnd := (m.lineEnd line).getD m.len
    let text ← src.textIn lineStart lineEnd
    match colLoop col 0 0 text with
    | some byteIdx => pure (min (lineStart + byteIdx) m.len)
    | none => pure (min lineEnd m.len)

end Oaks
