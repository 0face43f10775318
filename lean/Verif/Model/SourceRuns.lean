import Verif.Model.Source

/-
Client programs over buffers: histories of calls of the public API. These are the runs the
history properties quantify over.
-/
namespace Oaks

/-- A client: `ChunkedBuffer::new()` followed by `push_str` for each text (streaming.rs:28-47). -/
def chunkedRun (t : Table) : List Str → Run Table
  | [] => .ok t
  | p :: ps => do
    let t ← chunkedPush t p
    chunkedRun t ps

/-- A client: `apply_edits_range` on a rope buffer for each batch (rope.rs:47-74); also returns the
reported ranges. -/
def ropeRun (t : Table) : List (List Edit) → Run (Table × List (Nat × Nat))
  | [] => .ok (t, [])
  | b :: bs => do
    let (t, r) ← t.applyEdits b
    let (t, rs) ← ropeRun t bs
    pure (t, r :: rs)

/-- A client: `apply_edits_range` on a `SourceText` for each batch (text.rs:65-95); also returns the
reported ranges. -/
def textRun (s : Str) : List (List Edit) → Run (Str × List (Nat × Nat))
  | [] => .ok (s, [])
  | b :: bs => do
    let (s, r) ← textApplyEdits s b
    let (s, rs) ← textRun s bs
    pure (s, r :: rs)

/-- A client reading a source chunk by chunk: `while o < len { c = chunk_at(o); out += c.slice_from(o); o = c.end() }`
(`TextChunk`: source/mod.rs:30-53). -/
def readChunks (src : Source) : Nat → Nat → Run Str
  | fuel, o =>
    if o < src.length then
      match fuel with
      | 0 => .error .spin
      | fuel + 1 => do
        let c ← src.chunkAt o
        let rest ← readChunks src fuel c.stop
        pure (c.sliceFrom o ++ rest)
    else .ok []

end Oaks
