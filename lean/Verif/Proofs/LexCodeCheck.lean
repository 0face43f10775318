import Verif.Model.LexCode

/-
An analysis of the programs of Model/LexCode.lean. It is not a model of code of the project: it is the means by
which Proofs/LexCode.lean shows, for one lexer after the other, that the lexer ends and how its tokens lie. Its
answers are proved right there, so nothing here has to be believed.

It follows, along all paths of a program: which characters may come next; which variables hold positions, what is
known of the text behind those, which of them lie at or before which; which variables hold which of the next
characters; which flags imply that the lexer has moved; where the last token ended. Sets of characters and of
variables are the bits of numbers.
-/
namespace Oaks.Lc

/-- The bits of `a` that are not in `b`. -/
def minus (a b : Nat) : Nat := a ^^^ (a &&& b)

/-- The `n` bits from `a` on. -/
def span (a n : Nat) : Nat := (2 ^ n - 1) <<< a

/-- The sort of a character: bit 0 for no character, 1-128 for ASCII, then by length and class. -/
def atom (u : Uni) : Option Char → Nat
  | none => 0
  | some c =>
    if c.toNat < 128 then c.toNat + 1
    else 129 + 8 * (c.utf8Size - 2) + (cond (u.alpha c) 1 0 + cond (u.num c) 2 0 + cond (u.white c) 4 0)

def top : Nat := 2 ^ 153 - 1
def ascii : Nat := span 1 128
def wide (w : Nat) : Nat := span (129 + 8 * (w - 2)) 8
def chars : Nat := span 1 152

/-- The sorts beyond ASCII with the class whose pattern is `p`. -/
def classed (p : Nat) : Nat := p <<< 129 ||| p <<< 137 ||| p <<< 145

/-- The ASCII part of a range. -/
def lowRange (a b : Nat) : Nat := span (a + 1) (min b 127 + 1 - a)

def upWide (a b w x y : Nat) : Nat := if Nat.ble a y && Nat.ble x b then wide w else 0
def loWide (a b w x y : Nat) : Nat := if Nat.ble a x && Nat.ble y b then wide w else 0

def letters : Nat := lowRange 65 90 ||| lowRange 97 122
def digits : Nat := lowRange 48 57
def whites : Nat := lowRange 9 13 ||| lowRange 32 32

mutual
/-- The sorts of the characters that may pass a test. -/
def CSet.up : CSet → Nat
  | .rg a b => lowRange a b ||| (upWide a b 2 0x80 0x7ff ||| (upWide a b 3 0x800 0xffff ||| upWide a b 4 0x10000 0x10ffff))
  | .alpha => letters ||| classed 0xaa
  | .num => digits ||| classed 0xcc
  | .alnum => (letters ||| classed 0xaa) ||| (digits ||| classed 0xcc)
  | .white => whites ||| classed 0xf0
  | .upper => lowRange 65 90 ||| classed 0xff
  | .lower => lowRange 97 122 ||| classed 0xff
  | .ctrl => lowRange 0 31 ||| lowRange 127 127 ||| classed 0xff
  | .or x y => x.up ||| y.up
  | .and x y => x.up &&& y.up
  | .not x => minus chars x.lo
/-- The sorts all of whose characters pass a test. -/
def CSet.lo : CSet → Nat
  | .rg a b => lowRange a b ||| (loWide a b 2 0x80 0x7ff ||| (loWide a b 3 0x800 0xffff ||| loWide a b 4 0x10000 0x10ffff))
  | .alpha => letters ||| classed 0xaa
  | .num => digits ||| classed 0xcc
  | .alnum => (letters ||| classed 0xaa) ||| (digits ||| classed 0xcc)
  | .white => whites ||| classed 0xf0
  | .upper => lowRange 65 90
  | .lower => lowRange 97 122
  | .ctrl => lowRange 0 31 ||| lowRange 127 127
  | .or x y => x.lo ||| y.lo
  | .and x y => x.lo &&& y.lo
  | .not x => minus chars x.up
end

/-- The length of all characters of these sorts. -/
def widthOf (m : Nat) : Option Nat :=
  if minus m ascii = 0 then some 1
  else if minus m (wide 2) = 0 then some 2
  else if minus m (wide 3) = 0 then some 3
  else if minus m (wide 4) = 0 then some 4
  else none

/-- What is known of a position: the sorts of the characters behind it, whether the last token ends there (`e`) or
before (`o`), the variables that are at most there (`le`), before it (`lt`). -/
structure Pt where
  nxt : List Nat
  e : Bool
  o : Bool
  le : Nat
  lt : Nat
deriving DecidableEq

/-- What is known at a point of the program: of the lexer's position; the variables that hold it; the variables
that hold positions; those that hold characters (which of the next ones, of which sorts); flags (known to be
down; the variables that lie before the position if it is up). -/
structure Abs where
  pos : Pt
  here : Nat
  regs : List (Nat × Pt)
  chars : List (Nat × Option Nat × Nat)
  flags : List (Nat × Bool × Nat)
deriving DecidableEq

/-- What is asked of the tokens. -/
structure Mode where
  order : Bool
  tile : Bool
  proper : Bool

namespace Pt

def at? (p : Pt) (k : Nat) : Nat := (p.nxt[k]?).getD top

def join (p q : Pt) : Pt := ⟨List.zipWith (· ||| ·) p.nxt q.nxt, p.e && q.e, p.o && q.o, p.le &&& q.le, p.lt &&& q.lt⟩

def restrict (f : Nat → Nat) (p : Pt) : Pt := { p with le := f p.le, lt := f p.lt }

end Pt

/-- The characters from the `k`-th on: the `k`-th is in `m`. -/
def refineNx (m : Nat) : Nat → List Nat → List Nat
  | 0, [] => [m]
  | 0, x :: xs => (x &&& m) :: xs
  | k + 1, [] => (if m.testBit 0 then top else minus top 1) :: refineNx m k []
  | k + 1, x :: xs => (if m.testBit 0 then x else minus x 1) :: refineNx m k xs

namespace Abs

def setNxt (a : Abs) (n : List Nat) : Abs := { a with pos := { a.pos with nxt := n } }

/-- The `k`-th next character is in `m`. -/
def refine (a : Abs) (k m : Nat) : Option Abs :=
  let n := refineNx m k a.pos.nxt
  if n.contains 0 then none else some (a.setNxt n)

/-- The sorts of the character an entry stands for. -/
def eff (a : Abs) (k : Option Nat) (m : Nat) : Nat :=
  match k with
  | none => m
  | some i => m &&& a.pos.at? i

/-- Variable `r`, if it holds a character, holds one in `m`. -/
def setChar (a : Abs) (r m : Nat) : Option Abs :=
  match a.chars.lookup r with
  | none => some a
  | some (k, m0) =>
    let m' := a.eff k m0 &&& m
    if m' = 0 then none
    else
      let a' := { a with chars := (r, k, m') :: a.chars.filter (fun x => x.1 != r) }
      match k with
      | none => some a'
      | some i => a'.refine i m'

/-- Only the variables that pass `keep` are still known; `f` takes the others out of a set. -/
def restrict (a : Abs) (f : Nat → Nat) (keep : Nat → Bool) : Abs :=
  ⟨a.pos.restrict f, f a.here, (a.regs.filter (fun x => keep x.1)).map (fun x => (x.1, x.2.restrict f)),
    a.chars.filter (fun x => keep x.1), (a.flags.filter (fun x => keep x.1)).map (fun x => (x.1, x.2.1, f x.2.2))⟩

/-- `r` is overwritten. -/
def forget (a : Abs) (r : Nat) : Abs := a.restrict (fun m => minus m (2 ^ r)) (fun q => q != r)

/-- The variables from `lo` on are gone. -/
def leave (a : Abs) (lo : Nat) : Abs := a.restrict (fun m => m % 2 ^ lo) (fun q => Nat.blt q lo)

/-- The lexer has moved on, by `d` characters if that is known; `n` are the characters behind. -/
def strict (a : Abs) (n : List Nat) (d : Option Nat) : Abs :=
  let lt := a.pos.lt ||| a.pos.le
  ⟨⟨n, false, a.pos.o, a.pos.le ||| lt, lt⟩, 0, a.regs,
    a.chars.map (fun x => (x.1, (match x.2.1, d with
      | some k, some d => if Nat.ble d k then some (k - d) else none
      | _, _ => none), a.eff x.2.1 x.2.2)),
    a.flags.map (fun x => (x.1, x.2.1, x.2.2 ||| lt))⟩

/-- The lexer may have moved on. -/
def weak (a : Abs) (n : List Nat) : Abs :=
  ⟨⟨n, false, a.pos.o, a.pos.le, a.pos.lt⟩, 0, a.regs, a.chars.map (fun x => (x.1, none, a.eff x.2.1 x.2.2)), a.flags⟩

/-- Both ways into a point of the program. -/
def join (a b : Abs) : Abs :=
  ⟨a.pos.join b.pos, a.here &&& b.here,
    a.regs.filterMap (fun x => (b.regs.lookup x.1).map (fun p => (x.1, x.2.join p))),
    a.chars.filterMap (fun x => (b.chars.lookup x.1).map (fun y =>
      (x.1, if x.2.1 = y.1 then x.2.1 else none, a.eff x.2.1 x.2.2 ||| b.eff y.1 y.2))),
    a.flags.filterMap (fun x => (b.flags.lookup x.1).map (fun y => (x.1, x.2.1 && y.1, x.2.2 &&& y.2)))⟩

/-- `let r = state.get_position()`. -/
def mark (a : Abs) (r : Nat) : Abs :=
  let b := a.forget r
  let bit := 2 ^ r
  let pos := { b.pos with le := b.pos.le ||| bit }
  ⟨pos, b.here ||| bit, (r, pos) :: b.regs.map (fun x => if b.here.testBit x.1 then (x.1, { x.2 with le := x.2.le ||| bit }) else x),
    b.chars, b.flags.map (fun x => (x.1, x.2.1, if x.2.1 then x.2.2 ||| bit else x.2.2))⟩

/-- What is known of `q` becomes known of `r`. -/
def dup (r q m : Nat) : Nat := if m.testBit q then m ||| 2 ^ r else m

/-- `let r = q`. -/
def copy (a : Abs) (r q : Nat) : Abs :=
  let b := a.forget r
  let regs := b.regs.map (fun x => (x.1, x.2.restrict (dup r q)))
  let flags := b.flags.map (fun x => (x.1, x.2.1, dup r q x.2.2))
  ⟨b.pos.restrict (dup r q), dup r q b.here,
    (match regs.lookup q with
      | some p => (r, p) :: regs
      | none => regs),
    (match b.chars.lookup q with
      | some x => (r, x) :: b.chars
      | none => b.chars),
    (match flags.lookup q with
      | some x => (r, x) :: flags
      | none => flags)⟩

/-- The variables in `z` lie before the position. -/
def before (a : Abs) (z : Nat) : Abs :=
  { a with
    pos := { a.pos with le := a.pos.le ||| z, lt := a.pos.lt ||| z }
    flags := a.flags.map (fun x => (x.1, x.2.1, x.2.2 ||| (a.pos.lt ||| z))) }

/-- `r` and the variables that are at most there. -/
def under (a : Abs) (r : Nat) : Nat :=
  match a.regs.lookup r with
  | some p => 2 ^ r ||| p.le
  | none => 2 ^ r

/-- `state.set_position(r)`. -/
def goto (a : Abs) (r : Nat) : Option Abs :=
  match a.regs.lookup r with
  | none => none
  | some p =>
    if a.here.testBit r then some a
    else some ⟨{ p with le := p.le ||| 2 ^ r }, 2 ^ r, a.regs, a.chars.map (fun x => (x.1, none, a.eff x.2.1 x.2.2)),
      a.flags.map (fun x => (x.1, x.2.1, if x.2.1 then x.2.2 else p.lt))⟩

/-- A token that ends at the position. -/
def ended (a : Abs) : Abs :=
  { a with
    pos := { a.pos with e := true, o := true }
    regs := a.regs.map (fun x => (x.1, { x.2 with e := a.here.testBit x.1, o := a.here.testBit x.1 })) }

/-- `state.add_token(_, r, state.get_position())`. -/
def tok (m : Mode) (a : Abs) (r : Nat) : Option Abs :=
  match a.regs.lookup r with
  | none => none
  | some p =>
    if (!m.order || (p.o && a.pos.le.testBit r)) && (!m.tile || p.e) && (!m.proper || a.pos.lt.testBit r) then some a.ended
    else none

/-- A scanner of the library found something. -/
def scanned (m : Mode) (a : Abs) : Option Abs :=
  if (!m.order || a.pos.o) && (!m.tile || a.pos.e) then some (a.strict [] none).ended else none

/-- `state.get_position() > r` does not hold. -/
def unmoved (a : Abs) (r : Nat) : Option Abs :=
  if a.pos.lt.testBit r then none
  else if a.pos.le.testBit r then
    match a.regs.lookup r with
    | none => some a
    | some p =>
      let n := refineAll a.pos.nxt p.nxt
      if n.contains 0 then none
      else some { a with pos := ⟨n, a.pos.e || p.e, a.pos.o || p.o, a.pos.le ||| p.le, a.pos.lt ||| p.lt⟩, here := a.here ||| 2 ^ r }
  else some a
where
  refineAll : List Nat → List Nat → List Nat
    | [], ys => ys
    | xs, [] => xs
    | x :: xs, y :: ys => (x &&& y) :: refineAll xs ys

end Abs

/-- How many characters the first `n` bytes are. -/
def prefixLen : List Nat → Nat → Option Nat
  | _, 0 => some 0
  | [], _ + 1 => none
  | m :: ms, n + 1 =>
    match widthOf m with
    | none => none
    | some w => if Nat.ble w (n + 1) then (prefixLen ms (n + 1 - w)).map (· + 1) else none

/-- The ways a statement may end. -/
structure Outs where
  t : Option Abs := none
  f : Option Abs := none
  b : Option Abs := none
  c : Option Abs := none
  x : Option Abs := none
  y : Option Abs := none

def Outs.never : Outs := ⟨none, none, none, none, none, none⟩

def joinO : Option Abs → Option Abs → Option Abs
  | none, b => b
  | a, none => a
  | some a, some b => some (a.join b)

def Outs.join (p q : Outs) : Outs := ⟨joinO p.t q.t, joinO p.f q.f, joinO p.b q.b, joinO p.c q.c, joinO p.x q.x, joinO p.y q.y⟩

/-- The sort of a character of a literal. -/
def sortOf (c : Char) : Nat := if c.toNat < 128 then 2 ^ (c.toNat + 1) else wide c.utf8Size

def refineStr : Abs → Nat → Str → Option Abs
  | a, _, [] => some a
  | a, k, c :: cs =>
    match a.refine k (sortOf c) with
    | none => none
    | some a => refineStr a (k + 1) cs

/-- `state.starts_with(s)` does not hold. -/
def notStarts (a : Abs) : Str → Option Abs
  | [c] => if c.toNat < 128 then a.refine 0 (minus top (sortOf c)) else some a
  | _ => some a

def advAbs (a : Abs) (n : Nat) : Option Abs :=
  if n = 0 then some a
  else if a.pos.at? 0 = 1 then some a
  else
    match prefixLen a.pos.nxt n with
    | none => none
    | some i => some (a.strict (a.pos.nxt.drop i) (some i))

/-- `state.advance(r.len_utf8())`. -/
def advcAbs (a : Abs) (r : Nat) : Option Outs :=
  match a.chars.lookup r with
  | none => none
  | some (some 0, _) =>
    some { t := joinO ((a.setChar r (minus top 1)).map (fun x => x.strict (x.pos.nxt.drop 1) (some 1))) (a.setChar r 1) }
  | some (k, m) =>
    match widthOf (a.eff k m) with
    | none => none
    | some w => (advAbs a w).map (fun x => { t := some x })

/-- `state.advance_if_dead_lock(r)`. -/
def guardAbs (a : Abs) (r : Nat) : Outs :=
  if a.pos.lt.testBit r then { t := some a }
  else
    let sure := !(a.pos.at? 0).testBit 0 || (match a.regs.lookup r with
      | some p => !(p.at? 0).testBit 0
      | none => false)
    let go := if sure then a.strict (a.pos.nxt.drop 1) (some 1) else a.weak []
    if a.here.testBit r then { t := some go }
    else { t := some (go.join (if a.pos.le.testBit r then a.before (a.under r) else a)) }

namespace Code

/-- Whether the program may overwrite a variable. -/
def writes (g : Nat) : Code → Bool
  | look r => r == g
  | lookN r _ => r == g
  | havoc r => r == g
  | comp r _ _ => r == g
  | put r _ => r == g
  | putc r _ => r == g
  | copy r _ => r == g
  | mark r => r == g
  | seq p q => p.writes g || q.writes g
  | ite c p q => c.writes g || p.writes g || q.writes g
  | loop r _ c p => r == g || c.writes g || p.writes g
  | scope _ p => p.writes g
  | _ => false

end Code

/-- The next turn, if there is one, begins further on than this one did. -/
def advances (g : Nat) : Option Abs → Bool
  | none => true
  | some a => a.pos.lt.testBit g

/-- One turn of a loop: what holds when the next turn begins, and the ways out. -/
def turnAbs (c p : Abs → Option Outs) (g : Nat) (a : Abs) : Option (Option Abs × Outs) :=
  match c (a.mark g) with
  | none => none
  | some c =>
    if c.b.isSome || c.c.isSome then none
    else
      match (match c.t with
        | none => some Outs.never
        | some a => p a) with
      | none => none
      | some b =>
        let back := joinO (joinO b.t b.f) b.c
        if advances g back then
          some (back.map (·.forget g), { t := (joinO c.f b.b).map (·.forget g), x := (joinO c.x b.x).map (·.forget g),
                                         y := (joinO c.y b.y).map (·.forget g) })
        else none

/-- All turns of a loop. -/
def fixAbs (turn : Abs → Option (Option Abs × Outs)) : Nat → Abs → Option Outs
  | 0, _ => none
  | n + 1, a =>
    match turn a with
    | none => none
    | some (none, o) => some o
    | some (some b, o) =>
      let a' := a.join b
      if a' = a then some o else fixAbs turn n a'

/-- The analysis. -/
def check (m : Mode) : Code → Abs → Option Outs
  | .val true, a => some { t := some a }
  | .val false, a => some { f := some a }
  | .any, a => some { t := some a, f := some a }
  | .ask _ _, a => some { t := some a, f := some a }
  | .more, a => some { t := a.refine 0 (minus top 1), f := a.refine 0 1 }
  | .look r, a => let b := a.forget r; some { t := some { b with chars := (r, some 0, top) :: b.chars } }
  | .lookN r n, a =>
    let b := a.forget r
    match prefixLen b.pos.nxt n with
    | none => none
    | some k => some { t := some { b with chars := (r, some k, top) :: b.chars } }
  | .havoc r, a => some { t := some (a.forget r) }
  | .comp r _ _, a => some { t := some (a.forget r) }
  | .put r n, a =>
    let b := a.forget r
    some { t := some { b with flags := (r, if n = 0 then (true, 2 ^ 600 - 1) else (false, b.pos.lt)) :: b.flags } }
  | .putc r c, a => let b := a.forget r; some { t := some { b with chars := (r, none, sortOf c) :: b.chars } }
  | .flag r, a =>
    match a.flags.lookup r with
    | none => some { t := some a, f := some a }
    | some (z, i) =>
      some { t := if z then none else some { a with pos := { a.pos with le := a.pos.le ||| i, lt := a.pos.lt ||| i } },
             f := some { a with flags := (r, true, 2 ^ 600 - 1) :: a.flags.filter (fun x => x.1 != r) } }
  | .copy r q, a => some { t := some (a.copy r q) }
  | .chr r x, a => some { t := a.setChar r x.up, f := a.setChar r (minus top x.lo) }
  | .same p q, a =>
    match a.chars.lookup p, a.chars.lookup q with
    | some (k, m), some (k', m') =>
      let z := a.eff k m &&& a.eff k' m'
      some { t := (a.setChar p z).bind (fun b => b.setChar q z), f := some a }
    | _, _ => some { t := some a, f := some a }
  | .starts s, a => some { t := refineStr a 0 s, f := notStarts a s }
  | .restStarts s, a => some { t := refineStr a 0 s, f := some a }
  | .adv n, a => (advAbs a n).map (fun x => { t := some x })
  | .advc r, a => advcAbs a r
  | .advBy _, _ => none
  | .mark r, a => some { t := some (a.mark r) }
  | .goto r, a => (a.goto r).map (fun x => { t := some x })
  | .tok r, a => (a.tok m r).map (fun x => { t := some x })
  | .tokTo r q, a => if a.here.testBit q then (a.tok m r).map (fun x => { t := some x }) else none
  | .tokLen _ _, _ => none
  | .take x, a =>
    let after := [minus top x.lo]
    if minus (a.pos.at? 0) x.lo = 0 then some { t := some (a.strict after none) } else some { t := some (a.weak after) }
  | .space _, a => (a.scanned m).map (fun x => { t := some x, f := some a })
  | .comment _, a => (a.scanned m).map (fun x => { t := some x, f := some a })
  | .quoted _, a => (a.scanned m).map (fun x => { t := some x, f := some a })
  | .guard r, a => some (guardAbs a r)
  | .moved r, a =>
    some { t := if a.here.testBit r then none else some (a.before (a.under r)), f := a.unmoved r }
  | .seq p q, a =>
    match check m p a with
    | none => none
    | some o =>
      match joinO o.t o.f with
      | none => some { o with t := none, f := none }
      | some b =>
        match check m q b with
        | none => none
        | some o' => some (o'.join { o with t := none, f := none })
  | .ite c p q, a =>
    match check m c a with
    | none => none
    | some o =>
      match (match o.t with
        | none => some Outs.never
        | some b => check m p b), (match o.f with
        | none => some Outs.never
        | some b => check m q b) with
      | some o1, some o2 => some ((o1.join o2).join { o with t := none, f := none })
      | _, _ => none
  | .loop g peel c p, a =>
    if c.writes g || p.writes g then none
    else if peel then
      match turnAbs (check m c) (check m p) g a with
      | none => none
      | some (none, o) => some o
      | some (some b, o) => (fixAbs (turnAbs (check m c) (check m p) g) 30 b).map (fun o' => o'.join o)
    else fixAbs (turnAbs (check m c) (check m p) g) 30 a
  | .brk, a => some { b := some a }
  | .cont, a => some { c := some a }
  | .ret true, a => some { x := some a }
  | .ret false, a => some { y := some a }
  | .scope lo p, a =>
    match check m p a with
    | none => none
    | some o =>
      if o.b.isSome || o.c.isSome then none
      else some { t := (joinO o.t o.x).map (·.leave lo), f := (joinO o.f o.y).map (·.leave lo) }

/-- What is known at the start. -/
def start : Abs := ⟨⟨[], true, true, 0, 0⟩, 0, [], [], []⟩

/-- The whole lexer: it ends with a value, and if the tokens are to tile the text, at the end of the text with
the last token. -/
def passes (m : Mode) (p : Code) : Bool :=
  match check m p start with
  | none => false
  | some o =>
    o.b.isNone && o.c.isNone && o.x.isNone && o.y.isNone &&
      (!m.tile || (match joinO o.t o.f with
        | none => true
        | some a => a.pos.e && Nat.beq (a.pos.at? 0) 1))

end Oaks.Lc
