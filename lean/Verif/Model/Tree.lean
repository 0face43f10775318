import Verif.Base.Run

/-
Model of the syntax trees of oak-core: `tree/green_tree.rs`, `tree/red_tree.rs`, `tree/cursor.rs`,
`visitor/mod.rs` and `deep_clone_node` of `parser/state.rs` (all under `projects/oak-core/src`).

Simplifications: the language's element and token kinds are numbers (Rust: two `Copy + Eq` enums);
arena references are the values they point to (sharing is not observable: nodes are immutable; the
arena itself is modelled in `Model/Arena.lean`); `usize` offsets are unbounded naturals, `u32`
lengths are bounded and their additions checked.
-/

namespace Oaks

/-- `GreenTree` / `GreenNode` / `GreenLeaf` (green_tree.rs:17-22, 111-121, 198-205). A node stores
its kind, its cached `text_len : u32` and its children. -/
inductive Green where
  | node (kind : Nat) (textLen : Nat) (children : List Green)
  | leaf (kind : Nat) (length : Nat) (metadata : Option Nat)

/-- `GreenTree::len` (green_tree.rs:69-74). -/
def Green.len : Green → Nat
  | .node _ n _ => n
  | .leaf _ n _ => n

/-- `u32` addition with overflow check (debug build; a release build wraps), in the `sum` of green_tree.rs:246. -/
def addU32 (a b : Nat) : Run Nat := if a + b < 2 ^ 32 then .ok (a + b) else .error .panic

/-- `children.iter().map(|c| c.len()).sum()` on `u32` (green_tree.rs:246), starting from `acc`. -/
def sumLen (acc : Nat) : List Green → Run Nat
  | [] => .ok acc
  | c :: cs => do sumLen (← addU32 acc c.len) cs

/-- `GreenNode::new` (green_tree.rs:245-248). -/
def Green.mkNode (kind : Nat) (children : List Green) : Run Green := do
  return .node kind (← sumLen 0 children) children

/-- `RedNode { green, offset }` (red_tree.rs:122-127); the green node is given by its fields. -/
structure RedNode where
  kind : Nat
  textLen : Nat
  children : List Green
  offset : Nat

/-- `RedTree` / `RedLeaf { kind, span }` (red_tree.rs:17-22, 155-160). -/
inductive Red where
  | node (n : RedNode)
  | leaf (kind start stop : Nat)

/-- The `match` in `child_at` and in `RedChildren::next` building a red element from a green one
(red_tree.rs:257-260, 331-334). -/
def Red.ofGreen (g : Green) (offset : Nat) : Red :=
  match g with
  | .node k n cs => .node ⟨k, n, cs, offset⟩
  | .leaf k n _ => .leaf k offset (offset + n)

/-- `RedNode::span` (red_tree.rs:214-216). -/
def RedNode.span (r : RedNode) : Nat × Nat := (r.offset, r.offset + r.textLen)

/-- `RedTree::span` (red_tree.rs:59-64). -/
def Red.span : Red → Nat × Nat
  | .node n => n.span
  | .leaf _ s e => (s, e)

/-- The loop `for i in 0..idx { offset += children[i].len() }` (red_tree.rs:252-255). -/
def prevLen (children : List Green) : Nat → Nat → Run Nat
  | 0, offset => .ok offset
  | i + 1, offset => do
    let o ← prevLen children i offset
    let c ← index children i
    return o + c.len

/-- `child_at` (red_tree.rs:247-261). -/
def RedNode.childAt (r : RedNode) (idx : Nat) : Run Red := do
  let g ← index r.children idx
  let o ← prevLen r.children idx r.offset
  return Red.ofGreen g o

/-- `RedChildren` and its `next` (red_tree.rs:322-339), started by `children` (264-266). -/
structure RedChildren where
  node : RedNode
  index : Nat
  offset : Nat

/-- `children` (red_tree.rs:264-266). -/
def RedNode.childIter (r : RedNode) : RedChildren := ⟨r, 0, r.offset⟩

/-- `RedChildren::next` (red_tree.rs:322-339). -/
def RedChildren.next (it : RedChildren) : Option (Red × RedChildren) :=
  match it.node.children[it.index]? with
  | none => none
  | some g => some (Red.ofGreen g it.offset, ⟨it.node, it.index + 1, it.offset + g.len⟩)

/-- A `for` loop over the iterator of red_tree.rs:322-339: all items, with fuel for the number of `next` calls. -/
def RedChildren.collect : Nat → RedChildren → Run (List Red)
  | 0, _ => .error .spin
  | fuel + 1, it =>
    match it.next with
    | none => .ok []
    | some (x, it') => do return x :: (← it'.collect fuel)

/-- The loop of `child_index_at_offset` (red_tree.rs:281-289). -/
def childIndexLoop (rel : Nat) : Nat → Nat → List Green → Run (Option Nat)
  | _, _, [] => .ok none
  | idx, pos, c :: cs => do
    let e ← addU32 pos c.len
    if rel < e then return some idx else childIndexLoop rel (idx + 1) e cs

/-- `child_index_at_offset` (red_tree.rs:273-290), with the truncating cast to `u32`. -/
def RedNode.childIndexAtOffset (r : RedNode) (offset : Nat) : Run (Option Nat) :=
  if offset < r.offset ∨ r.offset + r.textLen ≤ offset then .ok none
  else childIndexLoop ((offset - r.offset) % 2 ^ 32) 0 0 r.children

/-- `child_at_offset` (red_tree.rs:297-299). -/
def RedNode.childAtOffset (r : RedNode) (offset : Nat) : Run (Option Red) := do
  match ← r.childIndexAtOffset offset with
  | none => return none
  | some i => return some (← r.childAt i)

/-- `leaf_at_offset` (red_tree.rs:308-316); fuel for the loop. -/
def RedNode.leafAtOffset : Nat → RedNode → Nat → Run (Option (Nat × Nat × Nat))
  | 0, _, _ => .error .spin
  | fuel + 1, r, offset => do
    match ← r.childAtOffset offset with
    | none => return none
    | some (.node n) => n.leafAtOffset fuel offset
    | some (.leaf k s e) => return some (k, s, e)

/-! ## Cursor (tree/cursor.rs) -/

/-- A stack entry `(parent, idx, parent_offset)` (cursor.rs:22-24). -/
structure Frame where
  kind : Nat
  textLen : Nat
  children : List Green
  idx : Nat
  offset : Nat

/-- `Cursor` (cursor.rs:17-25); the top of the stack is the head of the list. -/
structure TreeCur where
  current : Green
  offset : Nat
  stack : List Frame

/-- `Cursor::new` (cursor.rs:29-31). -/
def TreeCur.new (root : Green) : TreeCur := ⟨root, 0, []⟩

/-- `step_into` (cursor.rs:68-83); `none` is `false` (the cursor is unchanged then). -/
def TreeCur.stepInto (c : TreeCur) : Option TreeCur :=
  match c.current with
  | .node k n (g :: gs) => some ⟨g, c.offset, ⟨k, n, g :: gs, 0, c.offset⟩ :: c.stack⟩
  | .node _ _ [] => none
  | .leaf _ _ _ => none

/-- `step_over` (cursor.rs:87-108). -/
def TreeCur.stepOver (c : TreeCur) : Option TreeCur :=
  match c.stack with
  | [] => none
  | f :: fs =>
    match f.children[f.idx + 1]? with
    | some g => some ⟨g, c.offset + c.current.len, { f with idx := f.idx + 1 } :: fs⟩
    | none => none

/-- `step_out` (cursor.rs:112-121). -/
def TreeCur.stepOut (c : TreeCur) : Option TreeCur :=
  match c.stack with
  | [] => none
  | f :: fs => some ⟨.node f.kind f.textLen f.children, f.offset, fs⟩

/-- The loop `while self.step_out() { if self.step_over() { return true } } false`
(cursor.rs:132-137, 147-152); it pops one stack entry per turn. Returns the flag and the cursor. -/
def TreeCur.outOver : List Frame → Green → Nat → Bool × TreeCur
  | [], cur, off => (false, ⟨cur, off, []⟩)
  | f :: fs, _, _ =>
    let c : TreeCur := ⟨.node f.kind f.textLen f.children, f.offset, fs⟩
    match c.stepOver with
    | some c' => (true, c')
    | none => TreeCur.outOver fs c.current c.offset

/-- `step` (cursor.rs:125-138). -/
def TreeCur.step (c : TreeCur) : Bool × TreeCur :=
  match c.stepInto with
  | some c' => (true, c')
  | none =>
    match c.stepOver with
    | some c' => (true, c')
    | none => TreeCur.outOver c.stack c.current c.offset

/-- `step_next` (cursor.rs:142-154). -/
def TreeCur.stepNext (c : TreeCur) : Bool × TreeCur :=
  match c.stepOver with
  | some c' => (true, c')
  | none => TreeCur.outOver c.stack c.current c.offset

/-- The public operations that move the cursor (tree/cursor.rs:68-154). -/
inductive TreeOp where
  | into | over | out | step | next

/-- A call of one of them by a client (tree/cursor.rs:68-154); a refused move leaves the cursor. -/
def TreeCur.apply (c : TreeCur) : TreeOp → TreeCur
  | .into => c.stepInto.getD c
  | .over => c.stepOver.getD c
  | .out => c.stepOut.getD c
  | .step => c.step.2
  | .next => c.stepNext.2

/-- A client's `while cursor.step() { visit(cursor.current(), cursor.offset()) }` (tree/cursor.rs:125-138): what is visited,
and the final cursor; fuel for the number of steps. -/
def TreeCur.visit : Nat → TreeCur → Run (List (Green × Nat) × TreeCur)
  | 0, _ => .error .spin
  | fuel + 1, c =>
    match c.step with
    | (false, c') => .ok ([], c')
    | (true, c') => do
      let (vs, e) ← c'.visit fuel
      return ((c'.current, c'.offset) :: vs, e)

/-! ## Preorder iterator and visitor (visitor/mod.rs) -/

/-- The loop pushing the children in reverse (visitor/mod.rs:53-59); the stack's top is the head. The
list is the reversed children. -/
def pushRev : List Green → Nat → List Red → Run (List Red)
  | [], _, st => .ok st
  | g :: gs, offset, st => do
    let o ← checkedSub offset g.len
    pushRev gs o (Red.ofGreen g o :: st)

/-- `PreOrder::next` (visitor/mod.rs:45-63). -/
def preNext : List Red → Run (Option (Red × List Red))
  | [] => .ok none
  | .leaf k s e :: st => .ok (some (.leaf k s e, st))
  | .node r :: st => do
    let st' ← pushRev r.children.reverse (r.offset + r.textLen) st
    return some (.node r, st')

/-- A `for` loop over the iterator of visitor/mod.rs:45-63. -/
def preCollect : Nat → List Red → Run (List Red)
  | 0, _ => .error .spin
  | fuel + 1, st => do
    match ← preNext st with
    | none => return []
    | some (x, st') => return x :: (← preCollect fuel st')

/-- The `match` of `walk_node` (visitor/mod.rs:21-24). -/
def walkChild (visitNode : RedNode → Run (List (Nat × Nat × Nat))) : Red → Run (List (Nat × Nat × Nat))
  | .node n => visitNode n
  | .leaf k s e => .ok [(k, s, e)]

/-- The default visitor walk: `visit_node` calling `walk_node` (visitor/mod.rs:19-26) and
`visit_token` recording the leaf; fuel for the recursion depth and the child loop. -/
def walkLeaves : Nat → RedNode → Run (List (Nat × Nat × Nat))
  | 0, _ => .error .spin
  | fuel + 1, r => do
    let cs ← r.childIter.collect (r.children.length + 1)
    let ls ← cs.mapM (walkChild (walkLeaves fuel))
    return ls.flatten

/-! ## Deep clone (parser/state.rs:17-26) -/

mutual
/-- `deep_clone_node` (parser/state.rs:17-26); a leaf is copied with its metadata index. -/
def deepClone : Green → Run Green
  | .node k _ cs => do
    let cs' ← deepCloneList cs
    Green.mkNode k cs'
  | .leaf k n m => .ok (.leaf k n m)
/-- The iterator over the children consumed by `alloc_slice_fill_iter` (parser/state.rs:18-23). -/
def deepCloneList : List Green → Run (List Green)
  | [] => .ok []
  | g :: gs => do
    let g' ← deepClone g
    let gs' ← deepCloneList gs
    return g' :: gs'
end

end Oaks
