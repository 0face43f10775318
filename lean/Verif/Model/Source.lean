import Verif.Base.Str
import Verif.Base.Run
import Verif.Base.Sort
import Verif.Spec.Text

/-
Model of `projects/oak-core/src/source/{mod,text,rope,streaming}.rs`:
text chunks, the `Source` trait, `str`, `SourceText`, `RopeBuffer`/`RopeSource`,
`ChunkedBuffer`/`ChunkedSource`.

Not modelled: `source_id`, `Cow` (borrowed and owned results are the same text), `Arc` sharing
(snapshots are values).
-/

namespace Oaks

/-- `TextChunk { start, text }` (source/mod.rs:30-35). -/
structure Chunk where
  start : Nat
  text : Str
deriving DecidableEq, Repr

/-- `TextChunk::end` (source/mod.rs:40-42): `start + text.len()`. -/
def Chunk.stop (c : Chunk) : Nat := c.start + blen c.text

/-- `TextChunk::slice_from` (source/mod.rs:46-52):
`if offset <= start { text } else { text.get(offset - start..).unwrap_or("") }`. -/
def Chunk.sliceFrom (c : Chunk) (offset : Nat) : Str :=
  if offset ≤ c.start then c.text
  else (strFrom c.text (offset - c.start)).getD []

/-- The required methods of trait `Source` (source/mod.rs:88-134). -/
structure Source where
  length : Nat
  chunkAt : Nat → Run Chunk
  textIn : Nat → Nat → Run Str

/-! ### `impl Source for str` (source/mod.rs:201-217) -/

/-- `&self[offset..]` panics off a character boundary (source/mod.rs:206-212). -/
def strChunkAt (s : Str) (offset : Nat) : Run Chunk :=
  if offset ≥ blen s then .ok ⟨blen s, []⟩
  else match strFrom s offset with
    | some t => .ok ⟨offset, t⟩
    | none => .error .panic

/-- `impl Source for str` (source/mod.rs:201-217). -/
def strSource (s : Str) : Source where
  length := blen s
  chunkAt := strChunkAt s
  -- source/mod.rs:214-216
  textIn a b := .ok ((strGet s a b).getD [])

/-! ### `SourceText` (source/text.rs:26-46) -/

/-- source/text.rs:31-37. -/
def textChunkAt (s : Str) (offset : Nat) : Chunk :=
  if offset ≥ blen s then ⟨blen s, []⟩
  else ⟨offset, (strFrom s offset).getD []⟩

/-- A `SourceText` is its raw text (source/text.rs:15-18). -/
def textSource (s : Str) : Source where
  length := blen s
  chunkAt o := .ok (textChunkAt s o)
  textIn a b := .ok ((strGet s a b).getD [])

/-! ### Chunking (source/rope.rs:203-271 = source/streaming.rs:109-167) -/

/-- `const CHUNK_SIZE: usize = 4096` (rope.rs:6, streaming.rs:6). -/
def CHUNK_SIZE : Nat := 4096

/-- `while end > start && !text.is_char_boundary(end) { end -= 1 }` (rope.rs:221-223). -/
def backoff (text : Str) (start : Nat) : Nat → Nat
  | 0 => 0
  | e + 1 => if e + 1 > start && !isBoundary text (e + 1) then backoff text start e else e + 1

/-- One step of the chunking loop: the end offset chosen at `start` (rope.rs:220-226). -/
def chunkEndAt (size : Nat) (text : Str) (start : Nat) : Nat :=
  let e := backoff text start (min (start + size) (blen text))
  if e = start then blen text else e

/-- The loop of `chunkify` (rope.rs:219-230), over a fuel bounding the number of iterations;
`&text[start..end]` panics off a character boundary. -/
def chunkifyLoop (size : Nat) (text : Str) : Nat → Nat → Run (List Str)
  | fuel, start =>
    if start < blen text then
      match fuel with
      | 0 => .error .spin
      | fuel + 1 =>
        let e := chunkEndAt size text start
        match strGet text start e with
        | none => .error .panic
        | some part => do
          let rest ← chunkifyLoop size text fuel e
          pure (part :: rest)
    else .ok []

/-- `chunkify` (rope.rs:213-232, streaming.rs:109-128). -/
def chunkify (text : Str) : Run (List Str) :=
  if text = [] then .ok [] else chunkifyLoop CHUNK_SIZE text (blen text) 0

/-- `rebuild_starts` (rope.rs:203-211); `offset` is the accumulator of the loop. -/
def rebuildStartsFrom (offset : Nat) : List Str → List Nat × Nat
  | [] => ([], offset)
  | c :: cs =>
    let (starts, len) := rebuildStartsFrom (offset + blen c) cs
    (offset :: starts, len)

/-- `rebuild_starts` (rope.rs:203-211). -/
def rebuildStarts (chunks : List Str) : List Nat × Nat := rebuildStartsFrom 0 chunks

/-- `match starts.binary_search(&x) { Ok(i) => i, Err(0) => 0, Err(i) => i - 1 }`
(rope.rs:185-189, 241-250). -/
def chunkIdx (starts : List Nat) (x : Nat) : Nat :=
  match bsearch starts x with
  | .ok i => i
  | .err 0 => 0
  | .err (i + 1) => i

/-- Body of the loop of `text_in_chunks` (rope.rs:261-269) for chunk `c` at index `i`. -/
def segOf (starts : List Nat) (startIdx endIdx start stop : Nat) (i : Nat) (c : Str) : Run Str := do
  let base ← index starts i
  let segStart := if i = startIdx then start - base else 0
  let segEnd := if i = endIdx then stop - base else blen c
  pure ((strGet c segStart segEnd).getD [])

/-- The loop of `text_in_chunks` (rope.rs:260-269) over `(index, chunk)` pairs. -/
def segLoop (starts : List Nat) (startIdx endIdx start stop : Nat) : List (Str × Nat) → Run Str
  | [] => .ok []
  | (c, i) :: rest => do
    let seg ← segOf starts startIdx endIdx start stop i c
    let more ← segLoop starts startIdx endIdx start stop rest
    pure (seg ++ more)

/-- `text_in_chunks` (rope.rs:234-271, streaming.rs:130-167). -/
def textInChunks (chunks : List Str) (starts : List Nat) (len : Nat) (a b : Nat) : Run Str :=
  if a ≥ b || a ≥ len then .ok []
  else
    let start := a
    let stop := min b len
    let startIdx := chunkIdx starts start
    let endIdx := chunkIdx starts stop
    if startIdx = endIdx then do
      let base ← index starts startIdx
      let relStart ← checkedSub start base
      let relEnd ← checkedSub stop base
      let s ← index chunks startIdx
      pure ((strGet s relStart relEnd).getD [])
    else
      segLoop starts startIdx endIdx start stop
        ((chunks.zipIdx.drop startIdx).take (endIdx - startIdx + 1))

/-! ### Chunk tables shared by `RopeBuffer`, `RopeSource`, `ChunkedBuffer`, `ChunkedSource` -/

/-- The fields `chunks`, `starts`, `len` (rope.rs:10-24, streaming.rs:8-24). -/
structure Table where
  chunks : List Str
  starts : List Nat
  len : Nat
deriving DecidableEq, Repr

/-- `chunk_at` of `RopeSource`, `ChunkedBuffer`, `ChunkedSource`
(rope.rs:181-192, streaming.rs:60-71, 87-98). -/
def Table.chunkAt (t : Table) (offset : Nat) : Run Chunk :=
  if offset ≥ t.len then .ok ⟨t.len, []⟩
  else do
    let idx := chunkIdx t.starts offset
    let start ← index t.starts idx
    let text ← index t.chunks idx
    pure ⟨start, text⟩

/-- `RopeSource` (rope.rs:176-199), `ChunkedBuffer` (streaming.rs:55-80), `ChunkedSource` (streaming.rs:82-100) as sources. -/
def Table.source (t : Table) : Source where
  length := t.len
  chunkAt := t.chunkAt
  textIn := textInChunks t.chunks t.starts t.len

/-! ### `RopeBuffer` (source/rope.rs:26-174) -/

/-- `RopeBuffer::chunk_index` (rope.rs:144-151). -/
def Table.chunkIndex (t : Table) (offset : Nat) : Run (Nat × Nat) :=
  let offset := min offset (t.len - 1)
  match bsearch t.starts offset with
  | .ok i => do pure (i, ← index t.starts i)
  | .err 0 => pure (0, 0)
  | .err (i + 1) => do pure (i, ← index t.starts i)

/-- `RopeBuffer::chunk_at` (rope.rs:159-165). -/
def Table.bufferChunkAt (t : Table) (offset : Nat) : Run Chunk :=
  if offset ≥ t.len then .ok ⟨t.len, []⟩
  else do
    let (idx, start) ← t.chunkIndex offset
    let text ← index t.chunks idx
    pure ⟨start, text⟩

/-- `RopeBuffer` as a source (rope.rs:154-174). -/
def Table.bufferSource (t : Table) : Source where
  length := t.len
  chunkAt := t.bufferChunkAt
  textIn := textInChunks t.chunks t.starts t.len

/-- A table with its `starts` and `len` recomputed (rope.rs:37-38, 100-102, 129-131). -/
def Table.ofChunks (chunks : List Str) : Table :=
  ⟨chunks, (rebuildStarts chunks).1, (rebuildStarts chunks).2⟩

/-- `RopeBuffer::new` / `new_with_id` (rope.rs:28-39). -/
def ropeNew (text : Str) : Run Table := do
  let chunks ← chunkify text
  pure (Table.ofChunks chunks)

/-- `RopeBuffer::split_at` (rope.rs:105-132). `s.get(..rel)` and `s.get(rel..)` succeed together;
the emptiness test at 124 can then not fire because `0 < rel < s.len()`. -/
def Table.splitAt (t : Table) (offset : Nat) : Run Table :=
  if offset = 0 || offset ≥ t.len then .ok t
  else do
    let (idx, start) ← t.chunkIndex offset
    let rel ← checkedSub offset start
    let s ← index t.chunks idx
    if rel = 0 || rel ≥ blen s then pure t
    else match strGet s 0 rel, strFrom s rel with
      | some left, some right =>
        if left = [] || right = [] then pure t
        else pure (Table.ofChunks (((t.chunks.set idx left).insertIdx (idx + 1) right)))
      | _, _ => pure t

/-- `RopeBuffer::boundary_index` (rope.rs:134-142). -/
def Table.boundaryIndex (t : Table) (offset : Nat) : Nat :=
  if offset ≥ t.len then t.chunks.length
  else match bsearch t.starts offset with
    | .ok i => i
    | .err i => i

/-- `RopeBuffer::replace_range` (rope.rs:81-103). `drain(a..b)` removes the entries `a..b`;
`splice(k..k, new)` inserts at `k`. -/
def Table.replaceRange (t : Table) (a b : Nat) (replacement : Str) : Run Table := do
  let start := min a t.len
  let stop := max (min b t.len) start
  let t ← t.splitAt start
  let t ← t.splitAt stop
  let startIdx := t.boundaryIndex start
  let endIdx := t.boundaryIndex stop
  let chunks := if startIdx < endIdx then t.chunks.take startIdx ++ t.chunks.drop endIdx else t.chunks
  let chunks ←
    if replacement ≠ [] then do
      let new ← chunkify replacement
      let at_ := min startIdx chunks.length
      pure (chunks.take at_ ++ new ++ chunks.drop at_)
    else pure chunks
  pure (Table.ofChunks chunks)

/-! ### `ChunkedBuffer` (source/streaming.rs:26-53) -/

/-- `ChunkedBuffer::new` (streaming.rs:28-35). -/
def chunkedNew : Table := ⟨[], [], 0⟩

/-- The loop of `push_str` (streaming.rs:42-46). -/
def chunkedPushAll (t : Table) : List Str → Table
  | [] => t
  | c :: cs => chunkedPushAll ⟨t.chunks ++ [c], t.starts ++ [t.len], t.len + blen c⟩ cs

/-- `ChunkedBuffer::push_str` (streaming.rs:38-47). -/
def chunkedPush (t : Table) (text : Str) : Run Table :=
  if text = [] then .ok t
  else do
    let cs ← chunkify text
    pure (chunkedPushAll t cs)

/-! ### Edits (source/text.rs:65-95, source/rope.rs:47-74) -/

/-- `TextEdit { span, text }` (source/mod.rs:73-78); the same record as in the specification. -/
abbrev Edit := Spec.Change

/-- `order.sort_by_key(|&i| edits[i].span.start)`: stable sort by start (text.rs:71-72, rope.rs:53-54). -/
def sortEdits (edits : List Edit) : List Edit :=
  sortBy (fun a b => decide (a.start ≤ b.start)) edits

/-- The accumulation loop (text.rs:74-85, rope.rs:56-66): `(reparse_from, reparse_to, delta)`.
`isize`/`usize` casts are modelled on `Int`; a negative `start + delta` wraps to a huge `usize`
whose addition with `text.len()` overflows, which is modelled as a panic (debug build; on
non-overlapping edits the value is never negative). `span.end - span.start` is checked. -/
def editRangeLoop : List Edit → Nat → Nat → Int → Run (Nat × Nat)
  | [], frm, to, _ => .ok (frm, to)
  | e :: es, frm, to, delta => do
    let frm := min frm e.start
    let startNew ← if (e.start : Int) + delta < 0 then .error .panic
      else .ok ((e.start : Int) + delta).toNat
    let endNew := startNew + blen e.text
    let to := max to endNew
    let removed ← checkedSub e.stop e.start
    editRangeLoop es frm to (delta + (blen e.text : Int) - (removed : Int))

/-- `String::replace_range` (text.rs:90): panics off character boundaries or out of range. -/
def strReplace (s : Str) (a b : Nat) (r : Str) : Run Str :=
  if a ≤ b then
    match strGet s 0 a, strFrom s b with
    | some l, some t => .ok (l ++ r ++ t)
    | _, _ => .error .panic
  else .error .panic

/-- Reverse application on a string (text.rs:88-91): the last edit of the order first. -/
def strApplyRev (s : Str) : List Edit → Run Str
  | [] => .ok s
  | e :: es => do
    let s ← strApplyRev s es
    strReplace s e.start e.stop e.text

/-- `SourceText::apply_edits_range` (text.rs:65-95): new text and reparse range. -/
def textApplyEdits (s : Str) (edits : List Edit) : Run (Str × (Nat × Nat)) :=
  if edits = [] then .ok (s, (blen s, blen s))
  else do
    let order := sortEdits edits
    let range ← editRangeLoop order (blen s) 0 0
    let s ← strApplyRev s order
    pure (s, range)

/-- Reverse application on a rope (rope.rs:68-71). -/
def Table.applyRev (t : Table) : List Edit → Run Table
  | [] => .ok t
  | e :: es => do
    let t ← t.applyRev es
    t.replaceRange e.start e.stop e.text

/-- `RopeBuffer::apply_edits_range` (rope.rs:47-74). -/
def Table.applyEdits (t : Table) (edits : List Edit) : Run (Table × (Nat × Nat)) :=
  if edits = [] then .ok (t, (t.len, t.len))
  else do
    let order := sortEdits edits
    let range ← editRangeLoop order t.len 0 0
    let t ← t.applyRev order
    pure (t, range)

end Oaks
