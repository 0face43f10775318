import Verif.Model.Source
import Verif.Model.Simd

/-
Model of `projects/oak-core/src/source/cursor.rs` (`SourceCursor`) and of the default methods of
trait `Source` built on it (`source/mod.rs:121-188`).

Simplifications: the borrowed source is a parameter instead of a field; `scratch` is not a field
(it is cleared before every use); `FnMut` predicates are pure functions; `get_unchecked` slicing off
a character boundary (undefined behaviour) is a panic.
-/

namespace Oaks

/-- `SourceCursor { offset, chunk }` (cursor.rs:19-24). -/
structure Cur where
  offset : Nat
  chunk : Chunk
deriving DecidableEq, Repr

namespace Cur

/-- `new_at` (cursor.rs:39-44). -/
def newAt (src : Source) (offset : Nat) : Run Cur := do
  let offset := min offset src.length
  let chunk ← src.chunkAt offset
  pure ⟨offset, chunk⟩

/-- `set_position` (cursor.rs:55-59); the previous offset it returns is `cur.offset`. -/
def setPosition (src : Source) (cur : Cur) (offset : Nat) : Cur :=
  { cur with offset := min offset src.length }

/-- `ensure_chunk` (cursor.rs:68-78). -/
def ensureChunk (src : Source) (cur : Cur) : Run Cur :=
  let stop := src.length
  let offset := if cur.offset > stop then stop else cur.offset
  if offset < cur.chunk.start || offset > cur.chunk.stop ||
      (offset = cur.chunk.stop && offset < stop) then do
    let c ← src.chunkAt offset
    pure ⟨offset, c⟩
  else pure ⟨offset, cur.chunk⟩

/-- `rest` (cursor.rs:81-84). -/
def rest (src : Source) (cur : Cur) : Run (Cur × Str) := do
  let cur ← cur.ensureChunk src
  pure (cur, cur.chunk.sliceFrom cur.offset)

/-- `chunk_end` (cursor.rs:87-90). -/
def chunkEnd (src : Source) (cur : Cur) : Run (Cur × Nat) := do
  let cur ← cur.ensureChunk src
  pure (cur, cur.chunk.stop)

/-- `while i < text.len() && !text.is_char_boundary(i) { i += 1 }` (cursor.rs:105-108, 384-387). -/
def nextBoundary (text : Str) (i : Nat) : Nat :=
  if i < blen text && !isBoundary text i then nextBoundary text (i + 1) else i
termination_by blen text - i
decreasing_by simp at *; omega

/-- `peek_char` (cursor.rs:93-117). -/
def peekChar (src : Source) (cur : Cur) : Run (Cur × Option Char) :=
  let viaRest : Run (Cur × Option Char) := do
    let (cur, r) ← cur.rest src
    pure (cur, r.head?)
  if cur.offset ≥ cur.chunk.start then
    let rel := cur.offset - cur.chunk.start
    if rel < blen cur.chunk.text then
      if isBoundary cur.chunk.text rel then
        pure (cur, ((strFrom cur.chunk.text rel).getD []).head?)
      else
        let i := nextBoundary cur.chunk.text rel
        if i < blen cur.chunk.text then
          pure (cur, ((strFrom cur.chunk.text i).getD []).head?)
        else viaRest
    else viaRest
  else viaRest

/-- `Source::get_char_at` (source/mod.rs:121-123). -/
def getCharAt (src : Source) (offset : Nat) : Run (Option Char) := do
  let c ← src.chunkAt offset
  pure (c.sliceFrom offset).head?

/-- `peek_next_n` (cursor.rs:120-131). -/
def peekNextN (src : Source) (cur : Cur) (n : Nat) : Run (Option Char) :=
  let target := cur.offset + n
  if target ≥ src.length then pure none
  else if target ≥ cur.chunk.start && target < cur.chunk.stop then
    pure ((strFrom cur.chunk.text (target - cur.chunk.start)).getD []).head?
  else getCharAt src target

/-- `peek_next_char` (cursor.rs:134-137). -/
def peekNextChar (src : Source) (cur : Cur) : Run (Cur × Option Char) := do
  let (cur, ch) ← cur.peekChar src
  match ch with
  | none => pure (cur, none)
  | some c => do
    let r ← cur.peekNextN src c.utf8Size
    pure (cur, r)

/-- The bytes from the current offset to the end of the current chunk
(`rel = offset.saturating_sub(start)`, cursor.rs:144-145). -/
def tailBytes (cur : Cur) : List UInt8 :=
  let rel := cur.offset - cur.chunk.start
  if rel < blen cur.chunk.text then (bytes cur.chunk.text).drop rel else []

/-- The loop shared by `skip_ascii_whitespace`, `skip_ascii_digits`, `skip_ascii_ident_continue`
and `skip_until` (cursor.rs:140-241), parametrised by the scanner called on the bytes. -/
def skipWith (src : Source) (scan : List UInt8 → Nat) : Nat → Cur → Run Cur
  | 0, _ => .error .spin
  | fuel + 1, cur => do
    let cur ← cur.ensureChunk src
    let bs := cur.tailBytes
    if bs = [] then
      if cur.offset ≥ src.length then pure cur
      else do
        let c ← src.chunkAt cur.offset
        skipWith src scan fuel ⟨cur.offset, c⟩
    else
      let skipped := scan bs
      let cur := { cur with offset := cur.offset + skipped }
      if skipped < bs.length || cur.offset ≥ src.length then pure cur
      else skipWith src scan fuel cur

/-- `skip_ascii_whitespace` (cursor.rs:140-163). -/
def skipAsciiWhitespace (src : Source) (fuel : Nat) (cur : Cur) : Run Cur :=
  skipWith src Simd.skipAsciiWhitespace fuel cur
/-- `skip_ascii_digits` (cursor.rs:166-189). -/
def skipAsciiDigits (src : Source) (fuel : Nat) (cur : Cur) : Run Cur :=
  skipWith src Simd.skipAsciiDigits fuel cur
/-- `skip_ascii_ident_continue` (cursor.rs:192-215). -/
def skipAsciiIdentContinue (src : Source) (fuel : Nat) (cur : Cur) : Run Cur :=
  skipWith src Simd.skipAsciiIdentContinue fuel cur
/-- `skip_until` (cursor.rs:218-241). -/
def skipUntil (src : Source) (target : UInt8) (fuel : Nat) (cur : Cur) : Run Cur :=
  skipWith src (fun bs => Simd.skipUntil bs target) fuel cur

/-- `peek_byte` (cursor.rs:245-257). -/
def peekByte (src : Source) (cur : Cur) : Run (Cur × Option UInt8) :=
  let slow : Run (Cur × Option UInt8) := do
    let cur ← cur.ensureChunk src
    let rel ← checkedSub cur.offset cur.chunk.start
    pure (cur, (bytes cur.chunk.text)[rel]?)
  if cur.offset ≥ cur.chunk.start then
    let rel := cur.offset - cur.chunk.start
    match (bytes cur.chunk.text)[rel]? with
    | some b => pure (cur, some b)
    | none => slow
  else slow

/-- `advance_bytes` (cursor.rs:260-263). -/
def advanceBytes (src : Source) (cur : Cur) (len : Nat) : Cur :=
  { cur with offset := min (cur.offset + len) src.length }

/-- `advance_char` (cursor.rs:266-270). -/
def advanceChar (src : Source) (cur : Cur) : Run (Cur × Option Char) := do
  let (cur, ch) ← cur.peekChar src
  match ch with
  | none => pure (cur, none)
  | some c => pure (cur.advanceBytes src c.utf8Size, some c)

/-- `advance_byte` (cursor.rs:274-278). -/
def advanceByte (src : Source) (cur : Cur) : Run (Cur × Option UInt8) := do
  let (cur, b) ← cur.peekByte src
  match b with
  | none => pure (cur, none)
  | some b => pure ({ cur with offset := cur.offset + 1 }, some b)

/-- The `for (i, ch) in text.char_indices()` loop of `take_while` (cursor.rs:304-315): returns
`(advanced, stop)`; `i` is the byte index of the next character, `adv` the value so far. -/
def scanChars (pred : Char → Bool) : Str → Nat → Nat → Nat × Bool
  | [], _, adv => (adv, false)
  | c :: cs, i, _ => if !pred c then (i, true) else scanChars pred cs (i + c.utf8Size) (i + c.utf8Size)

/-- The characters from the current offset to the end of the current chunk, sliced without a
boundary check (cursor.rs:287-297); off a boundary that is undefined behaviour, here a panic. -/
def tailText (cur : Cur) : Run Str :=
  let rel := cur.offset - cur.chunk.start
  if rel < blen cur.chunk.text then
    match strFrom cur.chunk.text rel with
    | some t => pure t
    | none => .error .panic
  else pure []

/-- `take_while` (cursor.rs:281-331). -/
def takeWhile (src : Source) (pred : Char → Bool) : Nat → Cur → Run Cur
  | 0, _ => .error .spin
  | fuel + 1, cur => do
    let cur ← cur.ensureChunk src
    let text ← cur.tailText
    if text = [] then
      if cur.offset ≥ src.length then pure cur
      else do
        let c ← src.chunkAt cur.offset
        takeWhile src pred fuel ⟨cur.offset, c⟩
    else
      let (advanced, stop) := scanChars pred text 0 0
      let cur := { cur with offset := cur.offset + advanced }
      if stop then pure cur
      else if cur.offset ≥ src.length then pure cur
      else takeWhile src pred fuel cur

/-- The `for (i, &b) in bytes.iter().enumerate()` loop of `take_while_byte` (cursor.rs:351-361). -/
def scanBytes (pred : UInt8 → Bool) : List UInt8 → Nat → Nat → Nat × Bool
  | [], _, adv => (adv, false)
  | b :: bs, i, _ => if !pred b then (i, true) else scanBytes pred bs (i + 1) (i + 1)

/-- `take_while_byte` (cursor.rs:335-370). -/
def takeWhileByte (src : Source) (pred : UInt8 → Bool) : Nat → Cur → Run Cur
  | 0, _ => .error .spin
  | fuel + 1, cur => do
    let cur ← cur.ensureChunk src
    let bs := cur.tailBytes
    if bs = [] then
      if cur.offset ≥ src.length then pure cur
      else do
        let c ← src.chunkAt cur.offset
        takeWhileByte src pred fuel ⟨cur.offset, c⟩
    else
      let (advanced, stop) := scanBytes pred bs 0 0
      let cur := { cur with offset := cur.offset + advanced }
      if stop || cur.offset ≥ src.length then pure cur
      else takeWhileByte src pred fuel cur

/-- The accumulation loop of `starts_with` (cursor.rs:399-403). -/
def gather (src : Source) (need : Nat) : Nat → Str → Nat → Run Str
  | fuel, scratch, next =>
    if blen scratch < need && next < src.length then
      match fuel with
      | 0 => .error .spin
      | fuel + 1 => do
        let c ← src.chunkAt next
        gather src need fuel (scratch ++ c.text) c.stop
    else pure scratch

/-- `starts_with` (cursor.rs:373-405). -/
def startsWith (src : Source) (fuel : Nat) (cur : Cur) (pattern : Str) : Run (Cur × Bool) := do
  let cur ← cur.ensureChunk src
  let text := cur.chunk.text
  let rel := cur.offset - cur.chunk.start
  let rest :=
    if isBoundary text rel then (strFrom text rel).getD []
    else (strFrom text (nextBoundary text rel)).getD []
  if blen rest ≥ blen pattern then pure (cur, pattern.isPrefixOf rest)
  else do
    let scratch ← gather src (blen pattern) fuel rest cur.chunk.stop
    pure (cur, pattern.isPrefixOf scratch)

/-- `consume_if_starts_with` (cursor.rs:408-414). -/
def consumeIfStartsWith (src : Source) (fuel : Nat) (cur : Cur) (pattern : Str) : Run (Cur × Bool) := do
  let (cur, b) ← cur.startsWith src fuel pattern
  if !b then pure (cur, false)
  else pure (cur.advanceBytes src (blen pattern), true)

/-- The loop of `find_str` (cursor.rs:425-451) for a non-empty pattern. -/
def findStrLoop (src : Source) (pattern : Str) : Nat → Cur → Nat → Run (Option Nat)
  | fuel, cur, offset =>
    if offset < src.length then
      match fuel with
      | 0 => .error .spin
      | fuel + 1 => do
        let cur ← ensureChunk src { cur with offset := offset }
        let text := cur.chunk.sliceFrom offset
        match findSub pattern text with
        | some pos => pure (some (offset + pos))
        | none =>
          let chunkEnd := cur.chunk.stop
          if chunkEnd ≥ src.length then pure none
          else if blen pattern > 1 then do
            let keep := blen pattern - 1
            let tail := (strFrom text (blen text - keep)).getD []
            let tailAbs := chunkEnd - blen tail
            let next ← src.chunkAt chunkEnd
            match findSub pattern (tail ++ next.text) with
            | some pos => pure (some (tailAbs + pos))
            | none => findStrLoop src pattern fuel cur chunkEnd
          else findStrLoop src pattern fuel cur chunkEnd
    else pure none

/-- `find_str` (cursor.rs:417-453). -/
def findStr (src : Source) (fuel : Nat) (cur : Cur) (pattern : Str) : Run (Option Nat) :=
  if pattern = [] then pure (some cur.offset)
  else findStrLoop src pattern fuel cur cur.offset

end Cur

/-- The loop of `Source::find_char_from` (source/mod.rs:161-172). -/
def findCharLoop (src : Source) (ch : Char) : Nat → Cur → Nat → Run (Option Nat)
  | 0, _, _ => .error .spin
  | fuel + 1, cur, base => do
    let (cur, r) ← cur.rest src
    match findCh ch r with
    | some pos => pure (some (base + pos))
    | none => do
      let (cur, next) ← cur.chunkEnd src
      if next ≥ src.length then pure none
      else findCharLoop src ch fuel (cur.setPosition src next) next

/-- `Source::find_char_from` (source/mod.rs:158-173). -/
def findCharFrom (src : Source) (fuel : Nat) (offset : Nat) (ch : Char) : Run (Option Nat) := do
  let cur ← Cur.newAt src offset
  findCharLoop src ch fuel cur offset

/-- `Source::find_str_from` (source/mod.rs:185-188). -/
def findStrFrom (src : Source) (fuel : Nat) (offset : Nat) (pattern : Str) : Run (Option Nat) := do
  let cur ← Cur.newAt src offset
  cur.findStr src fuel pattern

/-- `Source::get_text_from` (source/mod.rs:141-146). -/
def getTextFrom (src : Source) (offset : Nat) : Run Str :=
  if offset ≥ src.length then pure []
  else src.textIn offset src.length

end Oaks
