import Verif.Proofs.LexCode

/-! Following a lexer program over text of which the first characters are known. -/
namespace Oaks.Lc
open Spec

/-- What is known of a register: a number, or a position counted from where the known text begins. -/
inductive Val where
  | num (n : Nat)
  | pos (i : Nat)

/-- How far the program is into the known text, what is known of the registers, the tokens it added. -/
structure Tr where
  i : Nat
  regs : List (Nat × Option Val)
  toks : List (Nat × Nat)

def Tr.get (a : Tr) (q : Nat) : Option Val := (a.regs.lookup q).join
def Tr.set (a : Tr) (q : Nat) (v : Option Val) : Tr := { a with regs := (q, v) :: a.regs }
def Tr.add (a : Tr) (x y : Nat) : Tr := { a with toks := a.toks ++ [(x, y)] }

/-- The character at `i`; `stop`: the text ends with the known part. -/
def see (k : Str) (stop : Bool) (i : Nat) : Option (Option Char) :=
  match k[i]? with
  | some c => some (some c)
  | none => if stop then some none else none

/-- Whether the text at `i` starts with `p`. -/
def seeStarts (k : Str) (stop : Bool) (i : Nat) (p : Str) : Option Bool :=
  if p.isPrefixOf (k.drop i) then some true
  else if (k.drop i).isPrefixOf p then (if stop then some false else none)
  else some false

/-- Where the characters from `i` on that pass the test end. -/
def seeWhile (k : Str) (stop : Bool) (i : Nat) (p : Char → Bool) : Option Nat :=
  if (k.drop i).all p then (if stop then some k.length else none) else some (i + ((k.drop i).takeWhile p).length)

def seeMarker (k : Str) (stop : Bool) (i : Nat) (p : Str) : Option Bool :=
  if p = [] then some false else seeStarts k stop i p

/-- No character beyond ASCII is of any kind. -/
def plain : Uni := ⟨fun _ => false, fun _ => false, fun _ => false, fun _ => false, fun _ => false, fun _ => false⟩

def followTurns (c p : Tr → Option (Tr × Out)) (g : Nat) : Nat → Tr → Option (Tr × Out)
  | 0, _ => none
  | n + 1, a =>
    match c (a.set g (some (.pos a.i))) with
    | some (a, .val true) =>
      match p a with
      | some (a, .brk) => some (a, .val true)
      | some (a, .ret b) => some (a, .ret b)
      | some (a, _) => followTurns c p g n a
      | none => none
    | some (a, .ret b) => some (a, .ret b)
    | some (a, _) => some (a, .val true)
    | none => none

/-- Where the program gets on the known text; `none` if it depends on more than that. `whole`: the source is one
piece. -/
def follow (k : Str) (stop whole : Bool) : Code → Tr → Option (Tr × Out)
  | .val b, a => some (a, .val b)
  | .more, a => (see k stop a.i).map fun c => (a, .val c.isSome)
  | .look q, a => some (a.set q ((see k stop a.i).map fun c => .num (code c)), .val true)
  | .lookN q n, a =>
    match see k stop (a.i + n) with
    | some c => some (a.set q (some (.num (code c))), .val true)
    | none => if a.i + n ≤ k.length then some (a.set q none, .val true) else none
  | .havoc q, a => some (a.set q none, .val true)
  | .ask q f, a =>
    match a.get q with
    | some (.num n) => some (a, .val (f n))
    | _ => none
  | .comp q p f, a =>
    match a.get p with
    | some (.num n) => some (a.set q (some (.num (f n))), .val true)
    | _ => some (a.set q none, .val true)
  | .put q n, a => some (a.set q (some (.num n)), .val true)
  | .putc q c, a => some (a.set q (some (.num (code (some c)))), .val true)
  | .flag q, a =>
    match a.get q with
    | some (.num n) => some (a, .val (n != 0))
    | _ => none
  | .copy q p, a => some (a.set q (a.get p), .val true)
  | .chr q x, a =>
    match a.get q with
    | some (.num n) =>
      match uncode n with
      | none => some (a, .val false)
      | some c => if c.toNat < 128 then some (a, .val (x.has plain c)) else none
    | _ => none
  | .same p q, a =>
    match a.get p, a.get q with
    | some (.num m), some (.num n) => some (a, .val (m == n))
    | some (.pos m), some (.pos n) => some (a, .val (m == n))
    | _, _ => none
  | .starts s, a => (seeStarts k stop a.i s).map fun b => (a, .val b)
  | .restStarts s, a =>
    match seeStarts k stop a.i s with
    | some b => if whole || !b then some (a, .val b) else none
    | none => none
  | .adv n, a =>
    if a.i + n ≤ k.length then some ({ a with i := a.i + n }, .val true)
    else if stop then some ({ a with i := k.length }, .val true) else none
  | .advc q, a =>
    match a.get q with
    | some (.num m) =>
      if a.i + charLen m ≤ k.length then some ({ a with i := a.i + charLen m }, .val true)
      else if stop then some ({ a with i := k.length }, .val true) else none
    | _ => none
  | .advBy q, a =>
    match a.get q with
    | some (.num n) =>
      if a.i + n ≤ k.length then some ({ a with i := a.i + n }, .val true)
      else if stop then some ({ a with i := k.length }, .val true) else none
    | _ => none
  | .mark q, a => some (a.set q (some (.pos a.i)), .val true)
  | .goto q, a =>
    match a.get q with
    | some (.pos j) => if j ≤ k.length then some ({ a with i := j }, .val true) else none
    | _ => none
  | .tok q, a =>
    match a.get q with
    | some (.pos j) => some (a.add j a.i, .val true)
    | _ => none
  | .tokTo p q, a =>
    match a.get p, a.get q with
    | some (.pos j), some (.pos j') => some (a.add j j', .val true)
    | _, _ => none
  | .tokLen q n, a =>
    match a.get q with
    | some (.pos j) => some (a.add j (j + n), .val true)
    | _ => none
  | .take x, a => (seeWhile k stop a.i (x.has plain)).map fun j => ({ a with i := j }, .val true)
  | .space v, a =>
    (seeWhile k stop a.i (if v then isWhite plain else isWs)).map fun j =>
      if j = a.i then (a, .val false) else (({ a with i := j } : Tr).add a.i j, .val true)
  | .comment cfg, a =>
    match seeMarker k stop a.i cfg.line, seeMarker k stop a.i cfg.opener with
    | some false, some false => some (a, .val false)
    | _, _ => none
  | .quoted cfg, a =>
    match see k stop a.i with
    | some none => some (a, .val false)
    | some (some c) => if c ∈ cfg.quotes then none else some (a, .val false)
    | none => none
  | .guard q, a =>
    match a.get q with
    | some (.pos j) =>
      if j = a.i then (see k stop a.i).map fun c => ({ a with i := if c.isSome then a.i + 1 else a.i }, .val true)
      else some (a, .val true)
    | _ => none
  | .moved q, a =>
    match a.get q with
    | some (.pos j) => some (a, .val (decide (j < a.i)))
    | _ => none
  | .seq p q, a =>
    match follow k stop whole p a with
    | some (a, .val _) => follow k stop whole q a
    | x => x
  | .ite c p q, a =>
    match follow k stop whole c a with
    | some (a, .val true) => follow k stop whole p a
    | some (a, .val false) => follow k stop whole q a
    | x => x
  | .loop g _ c p, a => followTurns (follow k stop whole c) (follow k stop whole p) g (k.length + 1) a
  | .brk, a => some (a, .brk)
  | .cont, a => some (a, .cont)
  | .ret b, a => some (a, .ret b)
  | .scope _ p, a =>
    match follow k stop whole p a with
    | some (a, .val b) => some (a, .val b)
    | some (a, .ret b) => some (a, .val b)
    | some (a, _) => some (a, .val true)
    | none => none
  | _, _ => none

/-! ### It is right -/

/-- A register has the known value. -/
def Val.Is (b : Nat) : Option Val → Nat → Prop
  | none, _ => True
  | some (.num n), v => v = n
  | some (.pos i), v => v = b + i

theorem has_plain (u : Uni) (x : CSet) {c : Char} (h : c.toNat < 128) : x.has u c = x.has plain c := by
  induction x with
  | rg a b => rfl
  | alpha => simp [CSet.has, isAlpha, h]
  | num => simp [CSet.has, isNum, h]
  | alnum => simp [CSet.has, isAlpha, isNum, h]
  | white => simp [CSet.has, isWhite, h]
  | upper => simp [CSet.has, h]
  | lower => simp [CSet.has, h]
  | ctrl => simp [CSet.has, h]
  | or x y hx hy => simp [CSet.has, hx, hy]
  | and x y hx hy => simp [CSet.has, hx, hy]
  | not x hx => simp [CSet.has, hx]

/-- The source hands out the rest of the text in one piece. -/
def Piece (src : Source) (t : Str) : Prop := ∀ o c, src.chunkAt o = .ok c → c.stop = blen t

/-- The piece at hand reaches to the end of the text. -/
def Full (t : Str) (cur : Cur) : Prop := cur.chunk.stop = blen t

section
variable {src : Source} {t : Str} (hp : Piece src t) {cur cur' : Cur}
include hp

theorem full_ensure (h : Full t cur) (e : cur.ensureChunk src = .ok cur') : Full t cur' := by
  simp only [Cur.ensureChunk] at e
  generalize (if cur.offset > src.length then src.length else cur.offset) = o at e
  split at e
  · cases hc : src.chunkAt o with
    | error x => rw [hc] at e; cases e
    | ok c => rw [hc] at e; cases e; exact hp _ _ hc
  · cases e; exact h

theorem full_rest {x : Str} (h : Full t cur) (e : cur.rest src = .ok (cur', x)) : Full t cur' := by
  simp only [Cur.rest] at e
  cases hc : cur.ensureChunk src with
  | error x => rw [hc] at e; cases e
  | ok c => rw [hc] at e; cases e; exact full_ensure hp h hc

theorem full_peek {x : Option Char} (h : Full t cur) (e : cur.peekChar src = .ok (cur', x)) : Full t cur' := by
  have via : ∀ {x : Option Char}, (do let (cur, r) ← cur.rest src; pure (cur, r.head?) : Run (Cur × Option Char)) = .ok (cur', x) → Full t cur' := by
    intro x e
    cases hc : cur.rest src with
    | error x => rw [hc] at e; cases e
    | ok c => rw [hc] at e; cases e; exact full_rest hp h hc
  simp only [Cur.peekChar] at e
  split at e
  · split at e
    · split at e
      · cases e; exact h
      · split at e
        · cases e; exact h
        · exact via e
    · exact via e
  · exact via e

theorem full_starts {n : Nat} {p : Str} {b : Bool} (h : Full t cur) (e : cur.startsWith src n p = .ok (cur', b)) : Full t cur' := by
  simp only [Cur.startsWith] at e
  cases hc : cur.ensureChunk src with
  | error x => rw [hc] at e; cases e
  | ok c =>
    rw [hc] at e
    simp only [run_bind_ok] at e
    have h1 := full_ensure hp h hc
    revert e
    generalize (if isBoundary c.chunk.text (c.offset - c.chunk.start) = true then (strFrom c.chunk.text (c.offset - c.chunk.start)).getD []
      else (strFrom c.chunk.text (Cur.nextBoundary c.chunk.text (c.offset - c.chunk.start))).getD []) = y
    intro e
    split at e
    · cases e; exact h1
    · revert e
      generalize Cur.gather src _ n _ _ = y
      cases y with
      | error x => intro e; cases e
      | ok z => intro e; cases e; exact h1

theorem full_skip {scan : List UInt8 → Nat} : ∀ {n : Nat} {cur : Cur}, Full t cur → Cur.skipWith src scan n cur = .ok cur' → Full t cur' := by
  intro n
  induction n with
  | zero => intro cur h e; cases e
  | succ n ih =>
    intro cur h e
    simp only [Cur.skipWith] at e
    cases hc : cur.ensureChunk src with
    | error x => rw [hc] at e; cases e
    | ok c =>
      rw [hc] at e
      simp only [run_bind_ok] at e
      have h1 := full_ensure hp h hc
      split at e
      · split at e
        · cases e; exact h1
        · cases hd : src.chunkAt c.offset with
          | error x => rw [hd] at e; cases e
          | ok d => rw [hd] at e; exact ih (hp _ _ hd) e
      · split at e
        · cases e; exact h1
        · exact ih (cur := { c with offset := c.offset + scan c.tailBytes }) h1 e

theorem full_lexPeek {st st' : Lex} {x : Option Char} (h : Full t st.cur) (e : st.peek src = .ok (st', x)) : Full t st'.cur := by
  simp only [Lex.peek] at e
  cases hc : st.cur.peekChar src with
  | error x => rw [hc] at e; cases e
  | ok c => rw [hc] at e; cases e; exact full_peek hp h hc

theorem full_lexRest {st st' : Lex} {x : Str} (h : Full t st.cur) (e : st.rest src = .ok (st', x)) : Full t st'.cur := by
  simp only [Lex.rest] at e
  cases hc : st.cur.rest src with
  | error x => rw [hc] at e; cases e
  | ok c => rw [hc] at e; cases e; exact full_rest hp h hc

theorem full_lexStarts {st st' : Lex} {p : Str} {b : Bool} (h : Full t st.cur) (e : st.startsWith src p = .ok (st', b)) : Full t st'.cur := by
  simp only [Lex.startsWith] at e
  cases hc : st.cur.startsWith src (src.length + 1) p with
  | error x => rw [hc] at e; cases e
  | ok c => rw [hc] at e; cases e; exact full_starts hp h hc

theorem full_takeWhile {p : Char → Bool} : ∀ {n : Nat} {st st' : Lex}, Full t st.cur → Lex.takeWhileLoop src p n st = .ok st' → Full t st'.cur := by
  intro n
  induction n with
  | zero => intro st st' h e; cases e
  | succ n ih =>
    intro st st' h e
    simp only [Lex.takeWhileLoop] at e
    cases hc : st.peek src with
    | error x => rw [hc] at e; cases e
    | ok c =>
      obtain ⟨st1, c⟩ := c
      rw [hc] at e
      simp only [run_bind_ok] at e
      have h1 := full_lexPeek hp h hc
      cases c with
      | none => cases e; exact h1
      | some c =>
        simp only [] at e
        split at e
        · exact ih (st := st1.advance src c.utf8Size) h1 e
        · cases e; exact h1

theorem full_space {ws : Char → Bool} {v b : Bool} {st st' : Lex} (h : Full t st.cur) (e : scanWhitespace ws v src st 0 = .ok (st', b)) : Full t st'.cur := by
  simp only [scanWhitespace] at e
  cases hc : skipSpace ws v src st with
  | error x => rw [hc] at e; cases e
  | ok st1 =>
    rw [hc] at e
    simp only [run_bind_ok] at e
    have h1 : Full t st1.cur := by
      unfold skipSpace at hc
      split at hc
      · exact full_takeWhile hp h hc
      · simp only [Lex.skipAsciiWhitespace, Cur.skipAsciiWhitespace] at hc
        revert hc
        cases hd : Cur.skipWith src Simd.skipAsciiWhitespace (src.length + 1) st.cur with
        | error x => intro hc; cases hc
        | ok c => intro hc; cases hc; exact full_skip hp h hd
    split at e
    · cases e; exact h1
    · cases e; exact h1

theorem full_guard {st st' : Lex} {n : Nat} (h : Full t st.cur) (e : st.advanceIfDeadLock src n = .ok st') : Full t st'.cur := by
  simp only [Lex.advanceIfDeadLock] at e
  split at e
  · cases hc : st.peek src with
    | error x => rw [hc] at e; cases e
    | ok c =>
      obtain ⟨st1, c⟩ := c
      rw [hc] at e
      simp only [run_bind_ok] at e
      have h1 := full_lexPeek hp h hc
      cases c with
      | none => cases e; exact h1
      | some c => cases e; exact h1
  · cases e; exact h

end

/-- The rest of the text in one piece. -/
theorem rest_full {src : Source} {t : Str} (hs : Supplied src t) (hp : Piece src t) {l r : Str} {toks : List Tok} {st : Lex} (hf : Full t st.cur)
    (h : LexAt src t l r toks st) : ∃ st', st.rest src = .ok (st', r) ∧ LexAt src t l r toks st' ∧ Full t st'.cur := by
  obtain ⟨cur, k, m, r', h1, h2⟩ := rest_spec hs h.cur
  have h3 := h2.stop
  have h4 : Full t cur := full_rest hp hf h1
  rw [h4, h.cur.text, h2.rest] at h3
  have : r' = [] := blen_eq_zero.mp (by simp at h3; omega)
  have h5 := h2.rest
  rw [this, List.append_nil] at h5
  refine ⟨{ st with cur := cur }, by simp [Lex.rest, h1, h5], ⟨?_, h.toks⟩, h4⟩
  exact h2.toCurAt

def abs (b : Nat) (ks : List (Nat × Nat)) : List Tok := ks.map fun x => ⟨0, b + x.1, b + x.2⟩

/-- The known text: ASCII, after `l`, before `s`. -/
structure Known (src : Source) (t l k s : Str) (stop whole : Bool) : Prop where
  text : t = l ++ k ++ s
  ascii : ∀ c ∈ k, c.toNat < 128
  last : stop = true → s = []
  piece : whole = true → Piece src t

/-- The program has got there. -/
structure On (src : Source) (t l k s : Str) (whole : Bool) (toks : List Tok) (a : Tr) (st : LSt) : Prop where
  le : a.i ≤ k.length
  lex : LexAt src t (l ++ k.take a.i) (k.drop a.i ++ s) (toks ++ abs (blen l) a.toks) st.lex
  regs : ∀ q, Val.Is (blen l) (a.get q) (st.regs q)
  full : whole = true → Full t st.lex.cur

section
variable {u : Uni} {src : Source} {t : Str} {ω : Nat → Nat} {l k s : Str} {toks : List Tok} {stop whole : Bool} {a : Tr} {st : LSt}

theorem ascii_len {k : Str} (h : ∀ c ∈ k, c.toNat < 128) : blen k = k.length := by
  induction k with
  | nil => rfl
  | cons c k ih =>
    have hc : c.utf8Size = 1 := by
      have := h c (by simp)
      simp only [Char.utf8Size]
      rw [if_pos]
      simp only [UInt32.le_iff_toNat_le]
      exact Nat.le_of_lt_succ this
    simp only [blen_cons, List.length_cons, hc, ih (fun c hc => h c (by simp [hc]))]
    omega

theorem Known.asciiTake (h : Known src t l k s stop whole) (i : Nat) : blen (k.take i) = min i k.length := by
  rw [ascii_len (fun c hc => h.ascii c (List.mem_of_mem_take hc)), List.length_take]

theorem Known.asciiDrop (h : Known src t l k s stop whole) (i : Nat) : blen (k.drop i) = k.length - i := by
  rw [ascii_len (fun c hc => h.ascii c (List.mem_of_mem_drop hc)), List.length_drop]

theorem On.pos (hk : Known src t l k s stop whole) (h : On src t l k s whole toks a st) : st.lex.pos = blen l + a.i := by
  rw [h.lex.pos, blen_append, hk.asciiTake, Nat.min_eq_left h.le]

theorem On.set (h : On src t l k s whole toks a st) (q n : Nat) (v : Option Val) (hv : Val.Is (blen l) v n) :
    On src t l k s whole toks (a.set q v) (st.set q n) := by
  refine ⟨h.le, h.lex, fun i => ?_, h.full⟩
  by_cases hi : i = q
  · subst hi
    simpa [Tr.get, Tr.set, LSt.set] using hv
  · have hb : (i == q) = false := by simp [hi]
    have := h.regs i
    simpa [Tr.get, Tr.set, LSt.set, List.lookup_cons, hb, hi] using this

theorem On.lexTo (h : On src t l k s whole toks a st) {lex : Lex} (hl : LexAt src t (l ++ k.take a.i) (k.drop a.i ++ s) (toks ++ abs (blen l) a.toks) lex) (hf : whole = true → Full t lex.cur) :
    On src t l k s whole toks a { st with lex := lex } := ⟨h.le, hl, h.regs, hf⟩

theorem On.addTok (h : On src t l k s whole toks a st) (x y : Nat) :
    On src t l k s whole toks (a.add x y) { st with lex := st.lex.addToken 0 (blen l + x) (blen l + y) } := by
  refine ⟨h.le, ?_, h.regs, h.full⟩
  have := addToken_at h.lex 0 (blen l + x) (blen l + y)
  simpa [Tr.add, abs] using this

theorem see_right (hk : Known src t l k s stop whole) {i : Nat} {c : Option Char} (h : see k stop i = some c) : (k.drop i ++ s).head? = c ∧ (c = none → s = [] ∧ k.length ≤ i) := by
  unfold see at h
  split at h
  · rename_i d hd
    cases h
    obtain ⟨hi, rfl⟩ := List.getElem?_eq_some_iff.mp hd
    rw [List.drop_eq_getElem_cons hi]
    simp
  · rename_i hn
    split at h
    · rename_i hst
      cases h
      have := List.getElem?_eq_none_iff.mp hn
      rw [List.drop_eq_nil_of_le this, hk.last hst]
      simp [this]
    · cases h

theorem seeStarts_right (hk : Known src t l k s stop whole) {i : Nat} {p : Str} {b : Bool} (h : seeStarts k stop i p = some b) :
    p.isPrefixOf (k.drop i ++ s) = b := by
  unfold seeStarts at h
  split at h
  · rename_i hp
    cases h
    simp only [List.isPrefixOf_iff_prefix] at hp ⊢
    exact hp.trans (List.prefix_append _ _)
  · rename_i hp
    split at h
    · split at h
      · rename_i hst
        cases h
        rw [hk.last hst, List.append_nil]
        exact Bool.eq_false_iff.mpr hp
      · cases h
    · rename_i hq
      cases h
      simp only [List.isPrefixOf_iff_prefix] at hp hq
      rw [Bool.eq_false_iff]
      intro hx
      rw [List.isPrefixOf_iff_prefix] at hx
      rcases List.prefix_or_prefix_of_prefix hx (List.prefix_append (k.drop i) s) with h1 | h1
      · exact hp h1
      · exact hq h1

theorem takeWhile_all {p : Char → Bool} {x s : Str} (h : x.all p = true) (hs : s = []) : (x ++ s).takeWhile p = x := by
  subst hs
  rw [List.append_nil]
  induction x with
  | nil => rfl
  | cons c x ih =>
    rw [List.all_cons, Bool.and_eq_true] at h
    rw [List.takeWhile_cons, if_pos h.1, ih h.2]

theorem takeWhile_some {p : Char → Bool} {x s : Str} (h : ¬ x.all p = true) : (x ++ s).takeWhile p = x.takeWhile p := by
  induction x with
  | nil => simp at h
  | cons c x ih =>
    by_cases hc : p c = true
    · simp only [List.cons_append, List.takeWhile_cons, hc, if_true]
      rw [ih (by simpa [hc] using h)]
    · simp [hc]

theorem seeWhile_right (hk : Known src t l k s stop whole) {i j : Nat} {p : Char → Bool} (hi : i ≤ k.length) (h : seeWhile k stop i p = some j) :
    i ≤ j ∧ j ≤ k.length ∧ (k.drop i ++ s).takeWhile p = (k.drop i).take (j - i) := by
  unfold seeWhile at h
  split at h
  · rename_i ha
    split at h
    · rename_i hst
      cases h
      refine ⟨hi, Nat.le_refl _, ?_⟩
      rw [takeWhile_all ha (hk.last hst), List.take_of_length_le (by simp)]
    · cases h
  · rename_i ha
    cases h
    have hp : (k.drop i).takeWhile p <+: k.drop i := List.takeWhile_prefix p
    have hl := hp.length_le
    rw [List.length_drop] at hl
    refine ⟨by omega, by omega, ?_⟩
    rw [takeWhile_some ha, Nat.add_sub_cancel_left]
    exact (List.prefix_iff_eq_take.mp hp)

/-- On ASCII only. -/
theorem seeWhile_congr {p q : Char → Bool} (hk : Known src t l k s stop whole) (h : ∀ c, c.toNat < 128 → p c = q c) (i : Nat) : seeWhile k stop i p = seeWhile k stop i q := by
  have h1 : ∀ c ∈ k.drop i, p c = q c := fun c hc => h c (hk.ascii c (List.mem_of_mem_drop hc))
  generalize k.drop i = x at h1
  have e1 : ∀ x : Str, (∀ c ∈ x, p c = q c) → x.all p = x.all q ∧ x.takeWhile p = x.takeWhile q := by
    intro x
    induction x with
    | nil => intro _; exact ⟨rfl, rfl⟩
    | cons c x ih =>
      intro hx
      obtain ⟨h2, h3⟩ := ih (fun c hc => hx c (by simp [hc]))
      constructor
      · simp only [List.all_cons, h2, hx c (by simp)]
      · simp only [List.takeWhile_cons, h3, hx c (by simp)]
  have h4 := e1 (k.drop i) (fun c hc => h c (hk.ascii c (List.mem_of_mem_drop hc)))
  unfold seeWhile
  rw [h4.1, h4.2]

theorem split_at (k : Str) {i j : Nat} (h : i ≤ j) : k.take j = k.take i ++ (k.drop i).take (j - i) ∧ k.drop i = (k.drop i).take (j - i) ++ k.drop j := by
  constructor
  · have := List.take_add (l := k) (i := i) (j := j - i)
    rw [show i + (j - i) = j by omega] at this
    exact this
  · have := List.take_append_drop (j - i) (k.drop i)
    rw [List.drop_drop, show i + (j - i) = j by omega] at this
    exact this.symm

theorem On.advance (hs : Supplied src t) (hk : Known src t l k s stop whole) (h : On src t l k s whole toks a st) {n : Nat} (hn : a.i + n ≤ k.length) :
    On src t l k s whole toks { a with i := a.i + n } { st with lex := st.lex.advance src n } := by
  obtain ⟨h1, h2⟩ := split_at k (i := a.i) (j := a.i + n) (by omega)
  rw [Nat.add_sub_cancel_left] at h1 h2
  refine ⟨hn, ?_, h.regs, h.full⟩
  have h3 := h.lex
  rw [h2, List.append_assoc] at h3
  have h4 := advance_at hs h3
  have h5 : blen ((k.drop a.i).take n) = n := by
    rw [ascii_len (fun c hc => hk.ascii c (List.mem_of_mem_drop (List.mem_of_mem_take hc))), List.length_take, List.length_drop]
    omega
  rw [h5, List.append_assoc, ← h1] at h4
  exact h4

theorem On.advanceTo (hs : Supplied src t) (hk : Known src t l k s stop whole) (h : On src t l k s whole toks a st) {n : Nat} (hst : stop = true) (hn : k.length ≤ a.i + n) :
    On src t l k s whole toks { a with i := k.length } { st with lex := st.lex.advance src n } := by
  have h1 := h.advance hs hk (n := k.length - a.i) (by have := h.le; omega)
  have he : a.i + (k.length - a.i) = k.length := by have := h.le; omega
  rw [he] at h1
  have : st.lex.advance src n = st.lex.advance src (k.length - a.i) := by
    have hp := h.pos hk
    have hl := h.lex.len hs
    rw [hk.last hst] at hl
    simp only [blen_append, hk.asciiTake, hk.asciiDrop] at hl
    simp at hl
    have := h.le
    rw [Nat.min_eq_left this] at hl
    simp only [Lex.advance, Cur.advanceBytes]
    simp only [Lex.pos] at hp
    congr 2
    omega
  rw [this]
  exact h1

theorem On.goTo (hs : Supplied src t) (hk : Known src t l k s stop whole) (h : On src t l k s whole toks a st) {j : Nat} (hj : j ≤ k.length) :
    On src t l k s whole toks { a with i := j } { st with lex := { st.lex with cur := st.lex.cur.setPosition src (blen l + j) } } := by
  refine ⟨hj, ?_, h.regs, h.full⟩
  have := goto_at hs h.lex (l' := l ++ k.take j) (r' := k.drop j ++ s) (by rw [hk.text, List.append_assoc, List.append_assoc, ← List.append_assoc (k.take j), List.take_append_drop])
  rw [blen_append, hk.asciiTake, Nat.min_eq_left hj] at this
  exact this

theorem On.moved (h : On src t l k s whole toks a st) {j : Nat} (hi : a.i ≤ j) (hj : j ≤ k.length) {lex : Lex} {tk : List Tok}
    (hl : LexAt src t (l ++ k.take a.i ++ (k.drop a.i).take (j - a.i)) (k.drop j ++ s) tk lex) :
    LexAt src t (l ++ k.take j) (k.drop j ++ s) tk lex := by
  rw [(split_at k hi).1, ← List.append_assoc]
  exact hl

theorem dropWhile_of {p : Char → Bool} {x y z : Str} (h : x.takeWhile p = y) (hx : x = y ++ z) : x.dropWhile p = z := by
  have := List.takeWhile_append_dropWhile (p := p) (l := x)
  rw [h] at this
  exact List.append_cancel_left (this.trans hx)

theorem turns_more {c p : LSt → Run (LSt × Out)} {g : Nat} : ∀ {n : Nat} {st : LSt} {x : LSt × Out}, turns c p g n st = .ok x → ∀ m, n ≤ m → turns c p g m st = .ok x := by
  intro n
  induction n with
  | zero => intro st x h; cases h
  | succ n ih =>
    intro st x h m hm
    obtain ⟨m, rfl⟩ : ∃ k, m = k + 1 := ⟨m - 1, by omega⟩
    simp only [turns] at h ⊢
    cases hc : c (st.set g st.lex.pos) with
    | error e => rw [hc] at h; cases h
    | ok y =>
      obtain ⟨st1, o1⟩ := y
      rw [hc] at h
      simp only [run_bind_ok] at h ⊢
      cases o1 with
      | val v =>
        cases v with
        | false => exact h
        | true =>
          simp only [] at h ⊢
          cases hp : p st1 with
          | error e => rw [hp] at h; cases h
          | ok z =>
            obtain ⟨st2, o2⟩ := z
            rw [hp] at h
            simp only [run_bind_ok] at h ⊢
            cases o2 with
            | val v => exact ih h m (by omega)
            | brk => exact h
            | cont => exact ih h m (by omega)
            | ret v => exact h
      | brk => exact h
      | cont => exact h
      | ret v => exact h

/-- A program does what following it says. -/
def Follows (src : Source) (t l k s : Str) (whole : Bool) (toks : List Tok) (ex : LSt → Run (LSt × Out)) (tr : Tr → Option (Tr × Out)) : Prop :=
  ∀ a a' o st, tr a = some (a', o) → On src t l k s whole toks a st → ∃ st', ex st = .ok (st', o) ∧ On src t l k s whole toks a' st'

theorem followTurns_right (hk : Known src t l k s stop whole) {ec ep : LSt → Run (LSt × Out)} {c p : Tr → Option (Tr × Out)} {g : Nat}
    (hc : Follows src t l k s whole toks ec c) (hp : Follows src t l k s whole toks ep p) (n : Nat) :
    Follows src t l k s whole toks (turns ec ep g n) (followTurns c p g n) := by
  induction n with
  | zero => intro a a' o st h; cases h
  | succ n ih =>
    intro a a' o st h ho
    simp only [followTurns] at h
    have h0 : On src t l k s whole toks (a.set g (some (.pos a.i))) (st.set g st.lex.pos) := ho.set g _ _ (ho.pos hk)
    split at h
    · rename_i a1 h1
      obtain ⟨st1, e1, o1⟩ := hc _ _ _ _ h1 h0
      split at h
      · rename_i a2 h2
        cases h
        obtain ⟨st2, e2, o2⟩ := hp _ _ _ _ h2 o1
        exact ⟨st2, by simp only [turns, e1, run_bind_ok, e2]; rfl, o2⟩
      · rename_i a2 b h2
        cases h
        obtain ⟨st2, e2, o2⟩ := hp _ _ _ _ h2 o1
        exact ⟨st2, by simp only [turns, e1, run_bind_ok, e2]; rfl, o2⟩
      · rename_i a2 out hb hr h2
        obtain ⟨st2, e2, o2⟩ := hp _ _ _ _ h2 o1
        obtain ⟨st3, e3, o3⟩ := ih _ _ _ _ h o2
        refine ⟨st3, ?_, o3⟩
        simp only [turns, e1, run_bind_ok, e2]
        cases out with
        | val v => exact e3
        | brk => exact absurd rfl hb
        | cont => exact e3
        | ret v => exact absurd rfl (hr v)
      · cases h
    · rename_i a1 b h1
      cases h
      obtain ⟨st1, e1, o1⟩ := hc _ _ _ _ h1 h0
      exact ⟨st1, by simp only [turns, e1, run_bind_ok]; rfl, o1⟩
    · rename_i a1 out ht hr h1
      cases h
      obtain ⟨st1, e1, o1⟩ := hc _ _ _ _ h1 h0
      refine ⟨st1, ?_, o1⟩
      simp only [turns, e1, run_bind_ok]
      cases out with
      | val v =>
        cases v with
        | true => exact absurd rfl ht
        | false => rfl
      | brk => rfl
      | cont => rfl
      | ret v => exact absurd rfl (hr v)
    · cases h

theorem peekN_far (hs : Supplied src t) (hk : Known src t l k s stop whole) (h : On src t l k s whole toks a st) {n : Nat} (hn : k.length ≤ a.i + n) (he : s = []) :
    st.lex.peekNextN src n = .ok none := by
  unfold Lex.peekNextN Cur.peekNextN
  have hp := h.pos hk
  have hl := h.lex.len hs
  rw [he] at hl
  simp only [blen_append, hk.asciiTake, hk.asciiDrop] at hl
  have := h.le
  rw [Nat.min_eq_left this] at hl
  simp at hl
  simp only [Lex.pos] at hp
  simp only [hp]
  rw [if_pos (by omega)]
  rfl

theorem get_is (h : On src t l k s whole toks a st) {q : Nat} {v : Val} (hq : a.get q = some v) : Val.Is (blen l) (some v) (st.regs q) := hq ▸ h.regs q

theorem marker_absent (hs : Supplied src t) (hk : Known src t l k s stop whole) {lex : Lex} {l' : Str} {tk : List Tok} {i : Nat} {p : Str}
    (hl : LexAt src t l' (k.drop i ++ s) tk lex) (hf : whole = true → Full t lex.cur) (h : seeMarker k stop i p = some false) :
    ∃ lex', lex.tryMarker src p = .ok (lex', false) ∧ LexAt src t l' (k.drop i ++ s) tk lex' ∧ (whole = true → Full t lex'.cur) := by
  unfold seeMarker at h
  unfold Lex.tryMarker
  by_cases hp : p = []
  · exact ⟨lex, by simp [hp], hl, hf⟩
  · rw [if_neg hp] at h
    obtain ⟨lex', e1, e2⟩ := startsWith_at hs hl p
    rw [seeStarts_right hk h] at e1
    exact ⟨lex', by rw [if_pos hp, e1], e2, fun hw => full_lexStarts (hk.piece hw) (hf hw) e1⟩

theorem follow_right (hs : Supplied src t) (hk : Known src t l k s stop whole) (p : Code) :
    Follows src t l k s whole toks (exec src u ω p) (follow k stop whole p) := by
  induction p with
  | val b => intro a a' o st h ho; cases h; exact ⟨st, rfl, ho⟩
  | more =>
    intro a a' o st h ho
    obtain ⟨c, hc, h⟩ := Option.map_eq_some_iff.mp h
    cases h
    refine ⟨st, ?_, ho⟩
    have h1 := see_right hk hc
    simp only [exec, ho.lex.notAtEnd hs]
    rw [← h1.1]
    cases k.drop a.i ++ s <;> rfl
  | look q =>
    intro a a' o st h ho
    cases h
    obtain ⟨lex, e1, e2⟩ := peek_at hs ho.lex
    refine ⟨_, by simp only [exec, e1, run_bind_ok]; rfl, (ho.lexTo e2 (fun hw => full_lexPeek (hk.piece hw) (ho.full hw) e1)).set q _ _ ?_⟩
    cases hc : see k stop a.i with
    | none => trivial
    | some c => rw [(see_right hk hc).1]; rfl
  | lookN q n =>
    intro a a' o st h ho
    simp only [follow] at h
    have near : a.i + n ≤ k.length → st.lex.peekNextN src n = .ok (k.drop (a.i + n) ++ s).head? := by
      intro hn
      have h2 := (split_at k (i := a.i) (j := a.i + n) (by omega)).2
      rw [Nat.add_sub_cancel_left] at h2
      have h3 := ho.lex
      rw [h2, List.append_assoc] at h3
      have h4 := peekAfter_at hs h3
      have h5 : blen ((k.drop a.i).take n) = n := by
        rw [ascii_len (fun c hc => hk.ascii c (List.mem_of_mem_drop (List.mem_of_mem_take hc))), List.length_take, List.length_drop]
        omega
      rw [h5] at h4
      exact h4
    split at h
    · rename_i c hc
      cases h
      have e1 : st.lex.peekNextN src n = .ok c := by
        by_cases hn : a.i + n ≤ k.length
        · rw [near hn, (see_right hk hc).1]
        · have h1 : c = none := by
            cases c with
            | none => rfl
            | some d =>
              unfold see at hc
              rw [List.getElem?_eq_none_iff.mpr (by omega)] at hc
              simp only [] at hc
              split at hc <;> cases hc
          subst h1
          exact peekN_far hs hk ho (by omega) ((see_right hk hc).2 rfl).1
      exact ⟨_, by simp only [exec, e1, run_bind_ok]; rfl, ho.set q _ _ rfl⟩
    · split at h
      · rename_i hn
        cases h
        exact ⟨_, by simp only [exec, near hn, run_bind_ok]; rfl, ho.set q _ _ trivial⟩
      · cases h
  | havoc q => intro a a' o st h ho; cases h; exact ⟨_, rfl, On.set (st := { st with asked := st.asked + 1 }) ⟨ho.le, ho.lex, ho.regs, ho.full⟩ q _ _ trivial⟩
  | ask q f =>
    intro a a' o st h ho
    simp only [follow] at h
    split at h
    · rename_i n hq
      cases h
      have : st.regs q = n := get_is ho hq
      exact ⟨st, by simp only [exec, this]; rfl, ho⟩
    · cases h
  | comp q p f =>
    intro a a' o st h ho
    simp only [follow] at h
    split at h
    · rename_i n hq
      cases h
      have : st.regs p = n := get_is ho hq
      exact ⟨_, rfl, ho.set q _ _ (by simp only [Val.Is, this])⟩
    · cases h
      exact ⟨_, rfl, ho.set q _ _ trivial⟩
  | put q n => intro a a' o st h ho; cases h; exact ⟨_, rfl, ho.set q _ _ rfl⟩
  | putc q c => intro a a' o st h ho; cases h; exact ⟨_, rfl, ho.set q _ _ rfl⟩
  | flag q =>
    intro a a' o st h ho
    simp only [follow] at h
    split at h
    · rename_i n hq
      cases h
      have : st.regs q = n := get_is ho hq
      exact ⟨st, by simp only [exec, this]; rfl, ho⟩
    · cases h
  | copy q p => intro a a' o st h ho; cases h; exact ⟨_, rfl, ho.set q _ _ (ho.regs p)⟩
  | chr q x =>
    intro a a' o st h ho
    simp only [follow] at h
    split at h
    · rename_i n hq
      have hn : st.regs q = n := get_is ho hq
      split at h
      · rename_i hu
        cases h
        exact ⟨st, by simp only [exec, hn, hu]; rfl, ho⟩
      · rename_i c hu
        split at h
        · rename_i hc
          cases h
          exact ⟨st, by simp only [exec, hn, hu, has_plain u x hc]; rfl, ho⟩
        · cases h
    · cases h
  | same p q =>
    intro a a' o st h ho
    simp only [follow] at h
    split at h
    · rename_i m n hp hq
      cases h
      have h1 : st.regs p = m := get_is ho hp
      have h2 : st.regs q = n := get_is ho hq
      exact ⟨st, by simp only [exec, h1, h2]; rfl, ho⟩
    · rename_i m n hp hq
      cases h
      have h1 : st.regs p = blen l + m := get_is ho hp
      have h2 : st.regs q = blen l + n := get_is ho hq
      refine ⟨st, ?_, ho⟩
      simp only [exec, h1, h2]
      have : (blen l + m == blen l + n) = (m == n) := by
        rw [Bool.eq_iff_iff]; simp
      rw [this]
      rfl
    · cases h
  | starts s' =>
    intro a a' o st h ho
    obtain ⟨b, hb, h⟩ := Option.map_eq_some_iff.mp h
    cases h
    obtain ⟨lex, e1, e2⟩ := startsWith_at hs ho.lex s'
    rw [seeStarts_right hk hb] at e1
    exact ⟨_, by simp only [exec, e1, run_bind_ok]; rfl, ho.lexTo e2 fun hw => full_lexStarts (hk.piece hw) (ho.full hw) e1⟩
  | restStarts s' =>
    intro a a' o st h ho
    simp only [follow] at h
    split at h
    · rename_i b hb
      split at h
      · rename_i hw
        cases h
        have h1 := seeStarts_right hk hb
        cases b with
        | true =>
          obtain ⟨lex, e1, e2, e3⟩ := rest_full hs (hk.piece (by simpa using hw)) (ho.full (by simpa using hw)) ho.lex
          exact ⟨_, by simp only [exec, e1, run_bind_ok, h1]; rfl, ho.lexTo e2 fun _ => e3⟩
        | false =>
          obtain ⟨lex, x, r', e1, e2, e3, e4⟩ := rest_at hs ho.lex
          have : s'.isPrefixOf x = false := by
            rw [Bool.eq_false_iff] at h1 ⊢
            intro hx
            apply h1
            rw [List.isPrefixOf_iff_prefix] at hx ⊢
            rw [e2]
            exact hx.trans (List.prefix_append _ _)
          exact ⟨_, by simp only [exec, e1, run_bind_ok, this]; rfl, ho.lexTo e4 fun hw => full_lexRest (hk.piece hw) (ho.full hw) e1⟩
      · cases h
    · cases h
  | adv n =>
    intro a a' o st h ho
    simp only [follow] at h
    split at h
    · rename_i hn
      cases h
      exact ⟨_, rfl, ho.advance hs hk hn⟩
    · split at h
      · rename_i hst
        cases h
        exact ⟨_, rfl, ho.advanceTo hs hk hst (by omega)⟩
      · cases h
  | advc q =>
    intro a a' o st h ho
    simp only [follow] at h
    split at h
    · rename_i n hq
      have hn : st.regs q = n := get_is ho hq
      split at h
      · rename_i hi
        cases h
        exact ⟨_, by simp only [exec, hn]; rfl, ho.advance hs hk hi⟩
      · split at h
        · rename_i hst
          cases h
          exact ⟨_, by simp only [exec, hn]; rfl, ho.advanceTo hs hk hst (by omega)⟩
        · cases h
    · cases h
  | advBy q =>
    intro a a' o st h ho
    simp only [follow] at h
    split at h
    · rename_i n hq
      have hn : st.regs q = n := get_is ho hq
      split at h
      · rename_i hi
        cases h
        exact ⟨_, by simp only [exec, hn]; rfl, ho.advance hs hk hi⟩
      · split at h
        · rename_i hst
          cases h
          exact ⟨_, by simp only [exec, hn]; rfl, ho.advanceTo hs hk hst (by omega)⟩
        · cases h
    · cases h
  | mark q => intro a a' o st h ho; cases h; exact ⟨_, rfl, ho.set q _ _ (ho.pos hk)⟩
  | goto q =>
    intro a a' o st h ho
    simp only [follow] at h
    split at h
    · rename_i j hq
      have hn : st.regs q = blen l + j := get_is ho hq
      split at h
      · rename_i hj
        cases h
        exact ⟨_, by simp only [exec, hn]; rfl, ho.goTo hs hk hj⟩
      · cases h
    · cases h
  | tok q =>
    intro a a' o st h ho
    simp only [follow] at h
    split at h
    · rename_i j hq
      have hn : st.regs q = blen l + j := get_is ho hq
      cases h
      exact ⟨_, by simp only [exec, hn, ho.pos hk]; rfl, ho.addTok _ _⟩
    · cases h
  | tokTo p q =>
    intro a a' o st h ho
    simp only [follow] at h
    split at h
    · rename_i j j' hp hq
      have h1 : st.regs p = blen l + j := get_is ho hp
      have h2 : st.regs q = blen l + j' := get_is ho hq
      cases h
      exact ⟨_, by simp only [exec, h1, h2]; rfl, ho.addTok _ _⟩
    · cases h
  | tokLen q n =>
    intro a a' o st h ho
    simp only [follow] at h
    split at h
    · rename_i j hq
      have h1 : st.regs q = blen l + j := get_is ho hq
      cases h
      exact ⟨_, by simp only [exec, h1, Nat.add_assoc]; rfl, ho.addTok _ _⟩
    · cases h
  | take x =>
    intro a a' o st h ho
    obtain ⟨j, hj, h⟩ := Option.map_eq_some_iff.mp h
    cases h
    rw [← seeWhile_congr hk (p := x.has u) (fun c hc => has_plain u x hc)] at hj
    obtain ⟨h1, h2, h3⟩ := seeWhile_right hk ho.le hj
    obtain ⟨lex, e1, e2⟩ := takeWhile_at hs ho.lex (x.has u)
    have h4 := dropWhile_of h3 (z := k.drop j ++ s) (by rw [← List.append_assoc, ← (split_at k h1).2])
    rw [h3, h4] at e2
    exact ⟨{ st with lex := lex }, by simp only [exec, e1, run_bind_ok]; rfl, h2, ho.moved h1 h2 e2, ho.regs,
      fun hw => full_takeWhile (hk.piece hw) (ho.full hw) e1⟩
  | space v =>
    intro a a' o st h ho
    obtain ⟨j, hj, h⟩ := Option.map_eq_some_iff.mp h
    rw [← seeWhile_congr hk (p := if v then isWhite u else isWs) (fun c hc => by
      cases v with
      | true => simp [isWhite, hc]
      | false => rfl)] at hj
    obtain ⟨h1, h2, h3⟩ := seeWhile_right hk ho.le hj
    obtain ⟨lex, b, m, r', new, e1, e2, e3, e4, e5, e6⟩ := whitespace_at hs ho.lex (isWhite u) v 0
    rw [h3] at e4
    have h4 : r' = k.drop j ++ s := by
      have : k.drop a.i ++ s = (k.drop a.i).take (j - a.i) ++ (k.drop j ++ s) := by rw [← List.append_assoc, ← (split_at k h1).2]
      rw [this, e4] at e2
      exact (List.append_cancel_left e2).symm
    subst h4
    have hlen : m.length = j - a.i := by rw [e4, List.length_take, List.length_drop]; omega
    split at h
    · rename_i he
      cases h
      have hm : m = [] := by rw [← List.length_eq_zero_iff, hlen, he]; omega
      have hb : b = false := by
        cases b with
        | false => rfl
        | true => exact absurd hm (e5.mp rfl)
      subst hb
      rw [if_pos hm] at e6
      subst e6
      rw [hm, List.append_nil, List.append_nil, he] at e3
      exact ⟨{ st with lex := lex }, by simp only [exec, e1, run_bind_ok]; rfl, ho.lexTo e3 fun hw => full_space (hk.piece hw) (ho.full hw) e1⟩
    · rename_i he
      cases h
      have hm : m ≠ [] := by intro hm; rw [← List.length_eq_zero_iff, hlen] at hm; omega
      have hb : b = true := e5.mpr hm
      subst hb
      rw [if_neg hm] at e6
      subst e6
      have hbl : blen m = j - a.i := by
        rw [← hlen]
        apply ascii_len
        rw [e4]
        exact fun c hc => hk.ascii c (List.mem_of_mem_drop (List.mem_of_mem_take hc))
      rw [e4] at e3
      refine ⟨{ st with lex := lex }, by simp only [exec, e1, run_bind_ok]; rfl, h2, ?_, ho.regs, fun hw => full_space (hk.piece hw) (ho.full hw) e1⟩
      have e7 := ho.moved h1 h2 e3
      rw [blen_append, hk.asciiTake, Nat.min_eq_left ho.le, ← e4, hbl] at e7
      rw [show blen l + a.i + (j - a.i) = blen l + j by omega] at e7
      simpa [Tr.add, abs] using e7
  | comment cfg =>
    intro a a' o st h ho
    simp only [follow] at h
    split at h
    · rename_i hm1 hm2
      cases h
      obtain ⟨lex1, e1, e2, e3⟩ := marker_absent hs hk ho.lex ho.full hm1
      obtain ⟨lex2, f1, f2, f3⟩ := marker_absent hs hk e2 e3 hm2
      refine ⟨{ st with lex := lex2 }, ?_, ho.lexTo f2 f3⟩
      simp only [exec, CommentCfg.scan, e1, run_bind_ok, Bool.false_eq_true, if_false, f1]
      rfl
    · cases h
  | quoted cfg =>
    intro a a' o st h ho
    obtain ⟨lex, e1, e2⟩ := peek_at hs ho.lex
    have e3 := fun hw => full_lexPeek (hk.piece hw) (ho.full hw) e1
    simp only [follow] at h
    split at h
    · rename_i hc
      cases h
      rw [(see_right hk hc).1] at e1
      exact ⟨{ st with lex := lex }, by simp only [exec, StringCfg.scan, e1, run_bind_ok]; rfl, ho.lexTo e2 e3⟩
    · rename_i c hc
      split at h
      · cases h
      · rename_i hq
        cases h
        rw [(see_right hk hc).1] at e1
        exact ⟨{ st with lex := lex }, by simp only [exec, StringCfg.scan, e1, run_bind_ok, if_neg hq]; rfl, ho.lexTo e2 e3⟩
    · cases h
  | guard q =>
    intro a a' o st h ho
    simp only [follow] at h
    split at h
    · rename_i j hq
      have hn : st.regs q = blen l + j := get_is ho hq
      obtain ⟨lex, e1, e2⟩ := guard_at hs ho.lex (st.regs q)
      have e3 := fun hw => full_guard (hk.piece hw) (ho.full hw) e1
      have hb : blen (l ++ k.take a.i) = blen l + a.i := by rw [blen_append, hk.asciiTake, Nat.min_eq_left ho.le]
      rw [hb, hn] at e2
      split at h
      · rename_i hj
        obtain ⟨c, hc, h⟩ := Option.map_eq_some_iff.mp h
        cases h
        subst hj
        rw [if_pos rfl] at e2
        refine ⟨{ st with lex := lex }, by simp only [exec, e1, run_bind_ok]; rfl, ?_⟩
        have hh := see_right hk hc
        cases c with
        | none =>
          obtain ⟨hs0, hlen⟩ := hh.2 rfl
          rw [List.drop_eq_nil_of_le hlen, hs0] at e2
          simp only [List.append_nil, List.take_nil, List.drop_nil] at e2
          refine ⟨ho.le, ?_, ho.regs, e3⟩
          show LexAt src t (l ++ k.take a.i) (k.drop a.i ++ s) _ lex
          rw [List.drop_eq_nil_of_le hlen, hs0]
          exact e2
        | some c =>
          have hlt : a.i < k.length := by
            unfold see at hc
            split at hc
            · rename_i hd; exact (List.getElem?_eq_some_iff.mp hd).1
            · split at hc <;> cases hc
          refine ⟨hlt, ?_, ho.regs, e3⟩
          show LexAt src t (l ++ k.take (a.i + 1)) (k.drop (a.i + 1) ++ s) _ lex
          rw [List.drop_eq_getElem_cons hlt, List.cons_append, List.take_succ_cons, List.take_zero, List.drop_succ_cons, List.drop_zero,
            List.append_assoc, ← List.take_succ_eq_append_getElem hlt] at e2
          exact e2
      · rename_i hj
        cases h
        rw [if_neg (by omega)] at e2
        exact ⟨{ st with lex := lex }, by simp only [exec, e1, run_bind_ok]; rfl, ho.lexTo e2 e3⟩
    · cases h
  | moved q =>
    intro a a' o st h ho
    simp only [follow] at h
    split at h
    · rename_i j hq
      have hn : st.regs q = blen l + j := get_is ho hq
      cases h
      refine ⟨st, ?_, ho⟩
      simp only [exec, hn, ho.pos hk]
      have : decide (blen l + j < blen l + a.i) = decide (j < a.i) := by
        rw [decide_eq_decide]; omega
      rw [this]
      rfl
    · cases h
  | seq p q hp hq =>
    intro a a' o st h ho
    simp only [follow] at h
    split at h
    · rename_i a1 b h1
      obtain ⟨st1, e1, o1⟩ := hp _ _ _ _ h1 ho
      obtain ⟨st2, e2, o2⟩ := hq _ _ _ _ h o1
      exact ⟨st2, by simp only [exec, e1, run_bind_ok, e2], o2⟩
    · rename_i hne
      obtain ⟨st1, e1, o1⟩ := hp _ _ _ _ h ho
      refine ⟨st1, ?_, o1⟩
      simp only [exec, e1, run_bind_ok]
      cases o with
      | val b => exact absurd h (hne _ _)
      | brk => rfl
      | cont => rfl
      | ret b => rfl
  | ite c p q hc hp hq =>
    intro a a' o st h ho
    simp only [follow] at h
    split at h
    · rename_i a1 h1
      obtain ⟨st1, e1, o1⟩ := hc _ _ _ _ h1 ho
      obtain ⟨st2, e2, o2⟩ := hp _ _ _ _ h o1
      exact ⟨st2, by simp only [exec, e1, run_bind_ok, e2], o2⟩
    · rename_i a1 h1
      obtain ⟨st1, e1, o1⟩ := hc _ _ _ _ h1 ho
      obtain ⟨st2, e2, o2⟩ := hq _ _ _ _ h o1
      exact ⟨st2, by simp only [exec, e1, run_bind_ok, e2], o2⟩
    · rename_i ht hf
      obtain ⟨st1, e1, o1⟩ := hc _ _ _ _ h ho
      refine ⟨st1, ?_, o1⟩
      simp only [exec, e1, run_bind_ok]
      cases o with
      | val b => cases b with
        | true => exact absurd h (ht _)
        | false => exact absurd h (hf _)
      | brk => rfl
      | cont => rfl
      | ret b => rfl
  | loop g peel c p hc hp =>
    intro a a' o st h ho
    simp only [follow] at h
    obtain ⟨st', e, o'⟩ := followTurns_right hk (g := g) hc hp _ _ _ _ _ h ho
    refine ⟨st', ?_, o'⟩
    simp only [exec]
    refine turns_more e _ ?_
    have hl := ho.lex.len hs
    simp only [blen_append, hk.asciiTake, hk.asciiDrop] at hl
    have := ho.le
    rw [Nat.min_eq_left this] at hl
    omega
  | brk => intro a a' o st h ho; cases h; exact ⟨st, rfl, ho⟩
  | cont => intro a a' o st h ho; cases h; exact ⟨st, rfl, ho⟩
  | ret b => intro a a' o st h ho; cases h; exact ⟨st, rfl, ho⟩
  | scope lo p hp =>
    intro a a' o st h ho
    simp only [follow] at h
    split at h
    · rename_i h1
      cases h
      obtain ⟨st1, e1, o1⟩ := hp _ _ _ _ h1 ho
      exact ⟨st1, by simp only [exec, e1, run_bind_ok]; rfl, o1⟩
    · rename_i h1
      cases h
      obtain ⟨st1, e1, o1⟩ := hp _ _ _ _ h1 ho
      exact ⟨st1, by simp only [exec, e1, run_bind_ok]; rfl, o1⟩
    · rename_i out hv hr h1
      cases h
      obtain ⟨st1, e1, o1⟩ := hp _ _ _ _ h1 ho
      refine ⟨st1, ?_, o1⟩
      simp only [exec, e1, run_bind_ok]
      cases out with
      | val v => exact absurd rfl (hv _)
      | brk => rfl
      | cont => rfl
      | ret v => exact absurd rfl (hr _)
    · cases h
  | _ => intro a a' o st h ho; cases h

end

end Oaks.Lc
