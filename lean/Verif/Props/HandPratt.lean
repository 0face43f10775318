import Verif.Proofs.PrattJudge
import Verif.Proofs.PrattJudge2
import Verif.Proofs.ProgSim
import Verif.Proofs.ProgCover
import Verif.Proofs.ProgStill
import Verif.Proofs.ProgKinds
import Verif.Model.HandPratt.Kotlin
import Verif.Model.HandPratt.Lua
import Verif.Model.HandPratt.Swift
import Verif.Props.Flat

/-! C84, C85: example parsers with operator precedence end, and keep the tokens in their trees. -/
namespace Oaks.Props
open Spec

/-- The modelled parsers with operator precedence that always end and put no node into the tree twice. -/
def climbEnd : List HandParser :=
  [Hand.Go.parser, Hand.Mojo.parser, Hand.Ruby.parser, Hand.Scala.parser, Hand.Sql.parser, Hand.Wolfram.parser]

/-- Those of them that never return an error in place of a tree. -/
def climbTree : List HandParser := [Hand.Go.parser, Hand.Ruby.parser, Hand.Scala.parser, Hand.Sql.parser, Hand.Wolfram.parser]

/-- The modelled parsers with operator precedence that put some nodes into the tree twice and are never without end. -/
def climbTwice : List HandParser :=
  [Hand.Actionscript.parser, Hand.C.parser, Hand.Cpp.parser, Hand.Csharp.parser, Hand.Elixir.parser, Hand.Javascript.parser,
   Hand.Php.parser, Hand.Rust.parser, Hand.Zig.parser]

/-- Those of them that drop no token. -/
def climbCover : List HandParser := [Hand.C.parser, Hand.Csharp.parser, Hand.Elixir.parser]

private theorem forall_cons {α : Type} {P : α → Prop} {a : α} {l : List α} (h : P a) (hl : ∀ x ∈ l, P x) : ∀ x ∈ a :: l, P x := by
  intro x hx
  rcases List.mem_cons.mp hx with rfl | hx
  · exact h
  · exact hl x hx
private theorem forall_nil {α : Type} {P : α → Prop} : ∀ x ∈ ([] : List α), P x := fun _ h => absurd h List.not_mem_nil

private theorem firm_end : ∀ h ∈ climbEnd, ∃ S b, h.firm S b = true :=
  forall_cons ⟨_, _, Hand.go_firm⟩ (forall_cons ⟨_, _, Hand.mojo_firm⟩ (forall_cons ⟨_, _, Hand.ruby_firm⟩ (forall_cons ⟨_, _,
  Hand.scala_firm⟩ (forall_cons ⟨_, _, Hand.sql_firm⟩ (forall_cons ⟨_, _, Hand.wolfram_firm⟩ forall_nil)))))
private theorem firm_tree : ∀ h ∈ climbTree, ∃ S, h.firm S true = true :=
  forall_cons ⟨_, Hand.go_firm⟩ (forall_cons ⟨_, Hand.ruby_firm⟩ (forall_cons ⟨_, Hand.scala_firm⟩ (forall_cons ⟨_, Hand.sql_firm⟩
  (forall_cons ⟨_, Hand.wolfram_firm⟩ forall_nil))))
private theorem firm_twice : ∀ h ∈ climbTwice, ∃ S, h.bare.firm S true = true :=
  forall_cons ⟨_, Hand.actionscript_firm⟩ (forall_cons ⟨_, Hand.c_firm⟩ (forall_cons ⟨_, Hand.cpp_firm⟩ (forall_cons ⟨_,
  Hand.csharp_firm⟩ (forall_cons ⟨_, Hand.elixir_firm⟩ (forall_cons ⟨_, Hand.javascript_firm⟩ (forall_cons ⟨_, Hand.php_firm⟩
  (forall_cons ⟨_, Hand.rust_firm⟩ (forall_cons ⟨_, Hand.zig_firm⟩ forall_nil))))))))
private theorem firm_cover : ∀ h ∈ climbCover, ∃ S, h.bare.firm S true = true :=
  forall_cons ⟨_, Hand.c_firm⟩ (forall_cons ⟨_, Hand.csharp_firm⟩ (forall_cons ⟨_, Hand.elixir_firm⟩ forall_nil))

private theorem plain_cover : ∀ h ∈ climbCover, h.bare.plain = true ∧ h.bare.fromStart = false := by
  have : climbCover.all (fun h => h.bare.plain && !h.bare.fromStart) = true := by decide +kernel
  intro h hh
  have := List.all_eq_true.mp this h hh
  simpa using this

private theorem parse_firm {h : HandParser} {S : List Prog.Sum} {b : Bool} (hs : h.firm S b = true) {src : Source} {toks : List Tok}
    (hl : tokBytes toks < 2 ^ 32) :
    h.once = true ∧ ∃ o errs, (∀ slack, h.parse slack src toks = .ok (o, errs)) ∧ (b = true → o ≠ none) ∧
      ∀ g, o = some g → ∃ cs, g = .node h.root (bytesBelowList cs) cs ∧
        (h.plain = true → leavesOfList cs = (toks.drop (h.lead toks)).map kindLen) := by
  unfold HandParser.firm at hs
  cases hj : h.judge S with
  | none => rw [hj] at hs; simp at hs
  | some R =>
    rw [hj] at hs
    simp only [Bool.and_eq_true, Bool.or_eq_true, Bool.not_eq_true', List.isEmpty_iff] at hs
    obtain ⟨o, errs, h1, h2, h3⟩ := HandParser.parse_ends hj (slack := 0) (src := src) hl
    have ho := HandParser.judge_once hj
    refine ⟨ho, o, errs, fun slack => HandParser.parse_mono (Nat.zero_le _) h1, ?_, ?_⟩
    · rintro rfl
      exact h2 (by simpa using hs.1.1)
    · intro g hg
      obtain ⟨cs, i, e1, e2, e3, e4⟩ := h3 g hg
      obtain ⟨cs', f1, f2, _⟩ := (HandParser.parse_keeps ho hl h1).2 g hg
      have hcs : cs = cs' := by rw [f1] at e1; injection e1 with _ _ e; exact e.symm
      subst hcs
      refine ⟨cs, by rw [f1, f2], fun hp => ?_⟩
      cases ht : toks[i]? with
      | none =>
        rw [e4 hp, e3 ht, List.take_length]; rfl
      | some t =>
        rw [ht] at e2
        simp only [Option.map_some, Prog.Head.has, hs.1.2, hs.2] at e2
        simp at e2

private theorem drop_lead (h : HandParser) (hf : h.fromStart = false) (toks : List Tok) :
    toks.drop (h.lead toks) = toks.dropWhile (fun t => h.ign.contains t.kind) := by
  unfold HandParser.lead
  rw [if_neg (by simp [hf])]
  induction toks with
  | nil => rfl
  | cons a l ih => by_cases ha : a.kind ∈ h.ign <;> simp_all

private theorem bytes_of {toks : List Tok} {cs : List Green} (h : leavesOfList cs = toks.map kindLen) :
    bytesBelowList cs = tokBytes toks := by
  unfold bytesBelowList tokBytes
  rw [h, List.map_map]; rfl

/-- Tokens of these kinds, each one byte long. -/
def rowOf (ks : List Nat) : List Tok := ks.zipIdx.map (fun x => ⟨x.1, x.2, x.2 + 1⟩)

/-! ### C84: parsers end -/

/-- On every token stream these parsers return a tree or nothing, and errors (`slack` only says how long we wait).

Missing for C84: nine parsers that may fail because a length is too large (`C84_no_endless_partial`), three that do not end
(`C84_swift_endless`, `C84_kotlin_endless`, `C84_lua_endless`), and the parsers that are not modelled. -/
theorem C84_parsers_end_partial {h : HandParser} (hh : h ∈ climbEnd) (src : Source) {toks : List Tok} (hl : tokBytes toks < 2 ^ 32) :
    ∃ r, ∀ slack, h.parse slack src toks = .ok r := by
  obtain ⟨S, b, hs⟩ := firm_end h hh
  obtain ⟨_, o, errs, h1, _⟩ := parse_firm hs (src := src) hl
  exact ⟨_, h1⟩

example : ∃ r, ∀ slack, Hand.Go.parser.parse slack (textSource "a+(".toList)
    (rowOf [Hand.Go.tIdentifier, Hand.Go.tPlus, Hand.Go.tLeftParen]) = .ok r :=
  C84_parsers_end_partial (by simp [climbEnd]) _ (by decide)

/-- On every token stream these parsers give a tree. Missing for C84: see `C84_parsers_end_partial`; `MojoParser` gives no tree for
programs with functions, conditions or loops (`C84_mojo_refuses`). -/
theorem C84_always_a_tree_partial {h : HandParser} (hh : h ∈ climbTree) (src : Source) {toks : List Tok} (hl : tokBytes toks < 2 ^ 32) :
    ∃ g errs, ∀ slack, h.parse slack src toks = .ok (some g, errs) := by
  obtain ⟨S, hs⟩ := firm_tree h hh
  obtain ⟨_, o, errs, h1, h2, _⟩ := parse_firm hs (src := src) hl
  cases o with
  | none => exact absurd rfl (h2 rfl)
  | some g => exact ⟨g, errs, h1⟩

example : ∃ g errs, ∀ slack, Hand.Ruby.parser.parse slack (textSource "a+)".toList)
    (rowOf [Hand.Ruby.tIdentifier, Hand.Ruby.tPlus, 98]) = .ok (some g, errs) :=
  C84_always_a_tree_partial (by simp [climbTree]) _ (by decide)

/-- On every token stream these parsers give a tree, or fail because the length of a node is too large; they never run on.

Missing for C84: a tree in every case (`C84_c_overflow`). -/
theorem C84_no_endless_partial {h : HandParser} (hh : h ∈ climbTwice) (src : Source) {toks : List Tok} (hl : tokBytes toks < 2 ^ 32) :
    (∀ slack, h.parse slack src toks = .error .panic) ∨ ∃ g errs, ∀ slack, h.parse slack src toks = .ok (some g, errs) := by
  obtain ⟨S, hs⟩ := firm_twice h hh
  unfold HandParser.firm at hs
  cases hj : h.bare.judge S with
  | none => rw [hj] at hs; simp at hs
  | some R =>
    rw [hj] at hs
    simp only [Bool.and_eq_true, Bool.or_eq_true, Bool.not_eq_true'] at hs
    have hn : R.err.isNever = true := by simpa using hs.1.1
    have hns : h.parse 0 src toks ≠ .error .spin := by
      rcases HandParser.parse_stops hj (slack := 0) (src := src) hl with h1 | ⟨o, errs, o', h1, _⟩ <;> rw [h1] <;> simp
    have hst := fun slack => HandParser.parse_still (Nat.zero_le slack) hns
    rcases HandParser.parse_stops hj (slack := 0) (src := src) hl with h1 | ⟨o, errs, o', h1, _, _, h2⟩
    · exact .inl fun slack => (hst slack).trans h1
    · cases o with
      | none => exact absurd rfl (h2 hn)
      | some g => exact .inr ⟨g, errs, fun slack => (hst slack).trans h1⟩

example : ∃ g errs, ∀ slack, Hand.Rust.parser.parse slack (textSource "f(".toList)
    (rowOf [Hand.Rust.tIdentifier, Hand.Rust.tLeftParen]) = .ok (some g, errs) := by
  rcases C84_no_endless_partial (h := Hand.Rust.parser) (by simp [climbTwice]) (textSource "f(".toList)
    (toks := rowOf [Hand.Rust.tIdentifier, Hand.Rust.tLeftParen]) (by decide) with h | h
  · have : (match Hand.Rust.parser.parse 0 (textSource "f(".toList) (rowOf [Hand.Rust.tIdentifier, Hand.Rust.tLeftParen]) with
        | .ok _ => true | .error _ => false) = true := by decide +kernel
    rw [h 0] at this; simp at this
  · exact h

/-- A name in `n` pairs of parentheses. -/
def cNest (n : Nat) : List Tok :=
  rowOf (List.replicate n Hand.C.tLeftParen ++ Hand.C.tIdentifier :: List.replicate n Hand.C.tRightParen)

/-- `CParser` doubles the length of the tree with every pair of parentheses and fails on a name in 30 of them: 61 bytes. -/
theorem C84_c_overflow : tokBytes (cNest 30) = 61 ∧ ∀ slack, Hand.C.parser.parse slack (textSource []) (cNest 30) = .error .panic := by
  refine ⟨by decide, fun slack => ?_⟩
  have key : ∀ r : Run (Option Green × List PErr), (match r with | .error .panic => true | _ => false) = true → r = .error .panic := by
    rintro (f | _)
    · cases f <;> simp
    · simp
  have h1 : Hand.C.parser.parse 0 (textSource []) (cNest 30) = .error .panic := key _ (by decide +kernel)
  exact (HandParser.parse_still (Nat.zero_le slack) (by rw [h1]; simp)).trans h1

/-- The length of the tree for a name in parentheses. -/
example : (List.range 5).map (fun n => match Hand.C.parser.parse 0 (textSource []) (cNest n) with
    | .ok (some g, _) => some g.len | _ => none) = [some 2, some 8, some 20, some 44, some 92] := by decide +kernel

private theorem one {k : Nat} {t : Tok} (h : t.kind = k) : (⟨false, false, [k]⟩ : Prog.Head).has (some t.kind) = true := by
  simp [Prog.Head.has, h]
private theorem other {ks : List Nat} {t : Tok} (h : t.kind ∉ ks) : (⟨false, true, ks⟩ : Prog.Head).has (some t.kind) = true := by
  simp [Prog.Head.has, h]

/-- `SwiftParser` never ends on `{` that is not closed: the lexer puts `Eof` at the end of every text. -/
theorem C84_swift_endless {b e : Tok} {rest : List Tok} (hb : b.kind = Hand.Swift.tLeftBrace) (he : e.kind = Hand.Swift.tEof)
    (hl : tokBytes (b :: e :: rest) < 2 ^ 32) (slack : Nat) (src : Source) :
    Hand.Swift.parser.parse slack src (b :: e :: rest) = .error .spin := by
  have hs : Hand.Swift.parser.sim [⟨false, false, [Hand.Swift.tLeftBrace]⟩, ⟨false, false, [Hand.Swift.tEof]⟩] = some .stuck := by
    decide +kernel
  exact HandParser.parse_sim hs hl ((Begins.nil _).cons (one he) |>.cons (one hb))

example (slack : Nat) : Hand.Swift.parser.parse slack (textSource "{".toList) [⟨Hand.Swift.tLeftBrace, 0, 1⟩, ⟨Hand.Swift.tEof, 1, 1⟩] =
    .error .spin := C84_swift_endless rfl rfl (by decide) slack _

/-- `KotlinParser` never ends on `fun f(` with a token that is no name, colon, comma, blank or `)`. -/
theorem C84_kotlin_endless {f n p x : Tok} {rest : List Tok} (hf : f.kind = Hand.Kotlin.tFun) (hn : n.kind = Hand.Kotlin.tIdentifier)
    (hp : p.kind = Hand.Kotlin.tLParen)
    (hx : x.kind ∉ [Hand.Kotlin.tRParen, Hand.Kotlin.tIdentifier, Hand.Kotlin.tColon, Hand.Kotlin.tComma, Hand.Kotlin.tWhitespace,
      Hand.Kotlin.tNewline, Hand.Kotlin.tComment])
    (hl : tokBytes (f :: n :: p :: x :: rest) < 2 ^ 32) (slack : Nat) (src : Source) :
    Hand.Kotlin.parser.parse slack src (f :: n :: p :: x :: rest) = .error .spin := by
  have hs : Hand.Kotlin.parser.sim [⟨false, false, [Hand.Kotlin.tFun]⟩, ⟨false, false, [Hand.Kotlin.tIdentifier]⟩,
      ⟨false, false, [Hand.Kotlin.tLParen]⟩, ⟨false, true, [Hand.Kotlin.tRParen, Hand.Kotlin.tIdentifier, Hand.Kotlin.tColon,
      Hand.Kotlin.tComma, Hand.Kotlin.tWhitespace, Hand.Kotlin.tNewline, Hand.Kotlin.tComment]⟩] = some .stuck := by
    decide +kernel
  exact HandParser.parse_sim hs hl ((Begins.nil _).cons (other hx) |>.cons (one hp) |>.cons (one hn) |>.cons (one hf))

example (slack : Nat) : Hand.Kotlin.parser.parse slack (textSource "funf(*)".toList) [⟨Hand.Kotlin.tFun, 0, 3⟩,
    ⟨Hand.Kotlin.tIdentifier, 3, 4⟩, ⟨Hand.Kotlin.tLParen, 4, 5⟩, ⟨81, 5, 6⟩, ⟨Hand.Kotlin.tRParen, 6, 7⟩] =
    .error .spin := C84_kotlin_endless rfl rfl rfl (by decide) (by decide) slack _

/-- `KotlinParser` never ends on a default value of a parameter. -/
theorem C84_kotlin_default_endless {f n p a c ty x : Tok} {rest : List Tok} (hf : f.kind = Hand.Kotlin.tFun)
    (hn : n.kind = Hand.Kotlin.tIdentifier) (hp : p.kind = Hand.Kotlin.tLParen) (ha : a.kind = Hand.Kotlin.tIdentifier)
    (hc : c.kind = Hand.Kotlin.tColon) (hty : ty.kind = Hand.Kotlin.tIdentifier) (hx : x.kind = Hand.Kotlin.tAssign)
    (hl : tokBytes (f :: n :: p :: a :: c :: ty :: x :: rest) < 2 ^ 32) (slack : Nat) (src : Source) :
    Hand.Kotlin.parser.parse slack src (f :: n :: p :: a :: c :: ty :: x :: rest) = .error .spin := by
  have hs : Hand.Kotlin.parser.sim [⟨false, false, [Hand.Kotlin.tFun]⟩, ⟨false, false, [Hand.Kotlin.tIdentifier]⟩,
      ⟨false, false, [Hand.Kotlin.tLParen]⟩, ⟨false, false, [Hand.Kotlin.tIdentifier]⟩, ⟨false, false, [Hand.Kotlin.tColon]⟩,
      ⟨false, false, [Hand.Kotlin.tIdentifier]⟩, ⟨false, false, [Hand.Kotlin.tAssign]⟩] = some .stuck := by
    decide +kernel
  exact HandParser.parse_sim hs hl ((Begins.nil _).cons (one hx) |>.cons (one hty) |>.cons (one hc) |>.cons (one ha) |>.cons (one hp)
    |>.cons (one hn) |>.cons (one hf))

example (slack : Nat) : Hand.Kotlin.parser.parse slack (textSource "funf(a:B=c)".toList) [⟨Hand.Kotlin.tFun, 0, 3⟩,
    ⟨Hand.Kotlin.tIdentifier, 3, 4⟩, ⟨Hand.Kotlin.tLParen, 4, 5⟩, ⟨Hand.Kotlin.tIdentifier, 5, 6⟩, ⟨Hand.Kotlin.tColon, 6, 7⟩,
    ⟨Hand.Kotlin.tIdentifier, 7, 8⟩, ⟨Hand.Kotlin.tAssign, 8, 9⟩, ⟨Hand.Kotlin.tIdentifier, 9, 10⟩, ⟨Hand.Kotlin.tRParen, 10, 11⟩] =
    .error .spin := C84_kotlin_default_endless rfl rfl rfl rfl rfl rfl rfl (by decide) slack _

/-- The tokens `LuaParser` cannot pass at the beginning of a statement. -/
def luaStray : List Nat :=
  [Hand.Lua.tRightParen, Hand.Lua.tRightBrace, Hand.Lua.tRightBracket, Hand.Lua.tEnd, Hand.Lua.tElse, Hand.Lua.tElseif, Hand.Lua.tUntil]

/-- `LuaParser` never ends on a text that begins with a closing bracket, `end`, `else`, `elseif` or `until`. -/
theorem C84_lua_endless {x : Tok} {rest : List Tok} (hx : x.kind ∈ luaStray) (hl : tokBytes (x :: rest) < 2 ^ 32) (slack : Nat)
    (src : Source) : Hand.Lua.parser.parse slack src (x :: rest) = .error .spin := by
  have hs : luaStray.all (fun k => Hand.Lua.parser.sim [⟨false, false, [k]⟩] == some .stuck) = true := by decide +kernel
  have := List.all_eq_true.mp hs _ hx
  exact HandParser.parse_sim (beq_iff_eq.mp this) hl ((Begins.nil _).cons (one rfl))

example (slack : Nat) : Hand.Lua.parser.parse slack (textSource "end".toList) [⟨Hand.Lua.tEnd, 0, 3⟩] = .error .spin :=
  C84_lua_endless (by decide) (by decide) slack _

/-- `MojoParser` gives no tree for a text that begins with `fn f():`, `if a:` or `while a:` and goes on. -/
theorem C84_mojo_refuses {front : List Tok} {x : Tok} {rest : List Tok}
    (hf : front.map (·.kind) ∈ [[Hand.Mojo.tFn, Hand.Mojo.tIdentifier, Hand.Mojo.tLeftParen, Hand.Mojo.tRightParen, Hand.Mojo.tColon],
      [Hand.Mojo.tIf, Hand.Mojo.tIdentifier, Hand.Mojo.tColon], [Hand.Mojo.tWhile, Hand.Mojo.tIdentifier, Hand.Mojo.tColon]])
    (hx : x.kind ∉ Hand.Mojo.parser.ign) (hl : tokBytes (front ++ x :: rest) < 2 ^ 32) (src : Source) :
    ∃ errs, errs ≠ [] ∧ ∀ slack, Hand.Mojo.parser.parse slack src (front ++ x :: rest) = .ok (none, errs) := by
  have hb : Begins (front.map (fun t => (⟨false, false, [t.kind]⟩ : Prog.Head)) ++ [⟨false, true, Hand.Mojo.parser.ign⟩]) (front ++ x :: rest) := by
    clear hf hl
    induction front with
    | nil => exact (Begins.nil _).cons (other hx)
    | cons t ts ih => exact ih.cons (one rfl)
  have hm : front.map (fun t => (⟨false, false, [t.kind]⟩ : Prog.Head)) =
      (front.map (·.kind)).map (fun k => ⟨false, false, [k]⟩) := by rw [List.map_map]; rfl
  rw [hm] at hb
  have key : ∀ ks : List Nat, ks ∈ [[Hand.Mojo.tFn, Hand.Mojo.tIdentifier, Hand.Mojo.tLeftParen, Hand.Mojo.tRightParen, Hand.Mojo.tColon],
      [Hand.Mojo.tIf, Hand.Mojo.tIdentifier, Hand.Mojo.tColon], [Hand.Mojo.tWhile, Hand.Mojo.tIdentifier, Hand.Mojo.tColon]] →
      ∃ i, Hand.Mojo.parser.sim (ks.map (fun k => ⟨false, false, [k]⟩) ++ [⟨false, true, Hand.Mojo.parser.ign⟩]) = some (.out .err i) := by
    refine forall_cons ⟨5, ?_⟩ (forall_cons ⟨3, ?_⟩ (forall_cons ⟨3, ?_⟩ forall_nil)) <;> decide +kernel
  obtain ⟨i, hs⟩ := key _ hf
  obtain ⟨r, hr⟩ := C84_parsers_end_partial (h := Hand.Mojo.parser) (by simp [climbEnd]) src hl
  rcases HandParser.parse_sim hs (slack := 0) (src := src) hl hb with h1 | ⟨errs, h1, h2⟩
  · rw [hr 0] at h1; simp at h1
  · refine ⟨errs, h2, fun slack => ?_⟩
    rw [hr slack, ← hr 0, h1]

example : ∃ errs, errs ≠ [] ∧ ∀ slack, Hand.Mojo.parser.parse slack (textSource "if a:\n    b\n".toList)
    [⟨Hand.Mojo.tIf, 0, 2⟩, ⟨Hand.Mojo.tIdentifier, 3, 4⟩, ⟨Hand.Mojo.tColon, 4, 5⟩, ⟨Hand.Mojo.tIdentifier, 10, 11⟩] = .ok (none, errs) :=
  C84_mojo_refuses (front := [⟨Hand.Mojo.tIf, 0, 2⟩, ⟨Hand.Mojo.tIdentifier, 3, 4⟩, ⟨Hand.Mojo.tColon, 4, 5⟩]) (by decide) (by decide)
    (by decide) _

/-! ### C85: trees keep the tokens -/

/-- The modelled parsers with operator precedence that put no node into the tree twice. -/
def climbOnce : List HandParser :=
  [Hand.Go.parser, Hand.Lua.parser, Hand.Mojo.parser, Hand.Ruby.parser, Hand.Scala.parser, Hand.Sql.parser, Hand.Swift.parser,
   Hand.Wolfram.parser]

/-- The tree holds only tokens, each at most once and in order, and is as long as they are; if there is no tree there is an error.

Missing for C85: the parsers that put nodes into the tree twice (`C85_copies`). -/
theorem C85_only_tokens_partial {h : HandParser} (hh : h ∈ climbOnce) {slack : Nat} {src : Source} {toks : List Tok}
    (hl : tokBytes toks < 2 ^ 32) {o : Option Green} {errs : List PErr} (hr : h.parse slack src toks = .ok (o, errs)) :
    (o = none → errs ≠ []) ∧ ∀ g, o = some g → ∃ cs, g = .node h.root (bytesBelowList cs) cs ∧
      (leavesOfList cs).Sublist (toks.map kindLen) := by
  have ho : climbOnce.all (fun h => h.once) = true := by decide +kernel
  obtain ⟨h1, h2⟩ := HandParser.parse_keeps (List.all_eq_true.mp ho h hh) hl hr
  refine ⟨h1, fun g hg => ?_⟩
  obtain ⟨cs, e1, e2, e3, _⟩ := h2 g hg
  exact ⟨cs, by rw [e1, e2], e3⟩

example {g : Green} {errs : List PErr} (hr : Hand.Ruby.parser.parse 0 (textSource "a+b".toList)
    (rowOf [Hand.Ruby.tIdentifier, Hand.Ruby.tPlus, Hand.Ruby.tIdentifier]) = .ok (some g, errs)) : ∃ cs, g = .node Hand.Ruby.parser.root (bytesBelowList cs) cs ∧
    (leavesOfList cs).Sublist [(Hand.Ruby.tIdentifier, 1), (Hand.Ruby.tPlus, 1), (Hand.Ruby.tIdentifier, 1)] :=
  (C85_only_tokens_partial (by simp [climbOnce]) (by decide) hr).2 g rfl

/-- `WolframParser` keeps every token. -/
theorem C85_wolfram_every_token {slack : Nat} {src : Source} {toks : List Tok} (hl : tokBytes toks < 2 ^ 32) :
    ∃ cs errs, Hand.Wolfram.parser.parse slack src toks = .ok (some (.node Hand.Wolfram.parser.root (tokBytes toks) cs), errs) ∧
      leavesOfList cs = toks.map kindLen := by
  obtain ⟨_, o, errs, h1, h2, h3⟩ := parse_firm Hand.wolfram_firm (src := src) hl
  cases o with
  | none => exact absurd rfl (h2 rfl)
  | some g =>
    obtain ⟨cs, e1, e2⟩ := h3 g rfl
    have hp : Hand.Wolfram.parser.plain = true := by decide +kernel
    have e3 := e2 hp
    rw [drop_lead _ rfl] at e3
    have e4 : toks.dropWhile (fun t => Hand.Wolfram.parser.ign.contains t.kind) = toks := by
      cases toks with
      | nil => rfl
      | cons a l => exact List.dropWhile_cons_of_neg (by simp [Hand.Wolfram.parser])
    rw [e4] at e3
    exact ⟨cs, errs, by rw [h1 slack, e1, bytes_of e3], e3⟩

example : ∃ cs errs, Hand.Wolfram.parser.parse 0 (textSource "a]".toList) (rowOf [0, 1]) =
    .ok (some (.node Hand.Wolfram.parser.root 2 cs), errs) ∧ leavesOfList cs = [(0, 1), (1, 1)] :=
  C85_wolfram_every_token (by decide)

/-- `MojoParser` keeps every token from the first one that is not ignored, if it gives a tree.

Missing for C85: the blanks before the first token. -/
theorem C85_mojo_every_token_partial {slack : Nat} {src : Source} {toks : List Tok} (hl : tokBytes toks < 2 ^ 32) {g : Green} {errs : List PErr}
    (hr : Hand.Mojo.parser.parse slack src toks = .ok (some g, errs)) :
    ∃ cs, g = .node Hand.Mojo.parser.root (tokBytes (toks.dropWhile (fun t => Hand.Mojo.parser.ign.contains t.kind))) cs ∧
      leavesOfList cs = (toks.dropWhile (fun t => Hand.Mojo.parser.ign.contains t.kind)).map kindLen := by
  obtain ⟨_, o, errs', h1, _, h3⟩ := parse_firm Hand.mojo_firm (src := src) hl
  rw [h1 slack] at hr
  injection hr with hr; injection hr with ho he
  obtain ⟨cs, e1, e2⟩ := h3 g ho
  have hp : Hand.Mojo.parser.plain = true := by decide +kernel
  have e3 := e2 hp
  rw [drop_lead _ rfl] at e3
  exact ⟨cs, by rw [e1, bytes_of e3], e3⟩

example : ∃ g errs cs, Hand.Mojo.parser.parse 0 (textSource "vara".toList) (rowOf [Hand.Mojo.tVar, Hand.Mojo.tIdentifier]) = .ok (some g, errs) ∧
    g = .node Hand.Mojo.parser.root 2 cs := by
  have h0 : (match Hand.Mojo.parser.parse 0 (textSource "vara".toList) (rowOf [Hand.Mojo.tVar, Hand.Mojo.tIdentifier]) with
    | .ok (some _, _) => true | _ => false) = true := by decide +kernel
  split at h0
  · rename_i g errs hr
    obtain ⟨cs, h1, _⟩ := C85_mojo_every_token_partial (by decide) hr
    exact ⟨g, errs, cs, hr, h1⟩
  · simp at h0

/-- These parsers lose no token from the first one that is not ignored: the tree holds them in order, if maybe among copies.

Missing for C85: that there are no copies, which is wrong (`C85_copies`). -/
theorem C85_none_lost_partial {h : HandParser} (hh : h ∈ climbCover) {slack : Nat} {src : Source} {toks : List Tok}
    (hl : tokBytes toks < 2 ^ 32) {g : Green} {errs : List PErr} (hr : h.parse slack src toks = .ok (some g, errs)) :
    ((toks.dropWhile (fun t => h.ign.contains t.kind)).map kindLen).Sublist (leavesOf g) := by
  obtain ⟨S, hs⟩ := firm_cover h hh
  obtain ⟨hp, hf⟩ := plain_cover h hh
  obtain ⟨ho, o, errs', h1, h2, h3⟩ := parse_firm hs (src := src) hl
  cases o with
  | none => exact absurd rfl (h2 rfl)
  | some gb =>
    obtain ⟨cs, e1, e2⟩ := h3 gb rfl
    have := HandParser.parse_covers hp ho hl (h1 slack) hr
    rw [e1, leavesOf, e2 hp, drop_lead _ hf] at this
    exact this

example : ∃ g errs, Hand.C.parser.parse 0 (textSource "a+b".toList) (rowOf [Hand.C.tIdentifier, Hand.C.tPlus, Hand.C.tIdentifier]) =
    .ok (some g, errs) ∧ [(Hand.C.tIdentifier, 1), (Hand.C.tPlus, 1), (Hand.C.tIdentifier, 1)].Sublist (leavesOf g) := by
  rcases C84_no_endless_partial (h := Hand.C.parser) (by simp [climbTwice]) (textSource "a+b".toList)
    (toks := rowOf [Hand.C.tIdentifier, Hand.C.tPlus, Hand.C.tIdentifier]) (by decide) with h | ⟨g, errs, h⟩
  · have : (match Hand.C.parser.parse 0 (textSource "a+b".toList) (rowOf [Hand.C.tIdentifier, Hand.C.tPlus, Hand.C.tIdentifier]) with
        | .ok _ => true | .error _ => false) = true := by decide +kernel
    rw [h 0] at this; simp at this
  · exact ⟨g, errs, h 0, C85_none_lost_partial (by simp [climbCover]) (by decide) (h 0)⟩

private theorem leaves_at {h : HandParser} {ks ls : List Nat} (hd : (match h.parse 0 (textSource []) (rowOf ks) with
    | .ok (some g, _) => decide (leavesOf g = ls.map (fun k => (k, 1)))
    | _ => false) = true) (slack : Nat) :
    ∃ g errs, h.parse slack (textSource []) (rowOf ks) = .ok (some g, errs) ∧ leavesOf g = ls.map (fun k => (k, 1)) := by
  split at hd
  · rename_i g errs hr
    exact ⟨g, errs, HandParser.parse_mono (Nat.zero_le _) hr, of_decide_eq_true hd⟩
  · simp at hd

/-- Token streams, and the leaves of their trees, in which a token is there twice: calls `f()`, `a.b`, `a+b`, a name. -/
def copied : List (HandParser × List Nat × List Nat) :=
  [(Hand.Actionscript.parser, [Hand.Actionscript.tIdentifier, Hand.Actionscript.tLeftParen, Hand.Actionscript.tRightParen],
      [Hand.Actionscript.tIdentifier, Hand.Actionscript.tIdentifier, Hand.Actionscript.tLeftParen, Hand.Actionscript.tRightParen]),
   (Hand.C.parser, [Hand.C.tIdentifier], [Hand.C.tIdentifier, Hand.C.tIdentifier]),
   (Hand.Cpp.parser, [Hand.Cpp.tIdentifier, Hand.Cpp.tPlus, Hand.Cpp.tIdentifier],
      [Hand.Cpp.tIdentifier, Hand.Cpp.tIdentifier, Hand.Cpp.tPlus, Hand.Cpp.tIdentifier, Hand.Cpp.tIdentifier]),
   (Hand.Csharp.parser, [Hand.Csharp.tIdentifier, Hand.Csharp.tLeftParen, Hand.Csharp.tRightParen],
      [Hand.Csharp.tIdentifier, Hand.Csharp.tIdentifier, Hand.Csharp.tLeftParen, Hand.Csharp.tRightParen]),
   (Hand.Elixir.parser, [Hand.Elixir.tIdentifier, Hand.Elixir.tDot, Hand.Elixir.tIdentifier],
      [Hand.Elixir.tIdentifier, Hand.Elixir.tIdentifier, Hand.Elixir.tDot, Hand.Elixir.tIdentifier]),
   (Hand.Javascript.parser, [Hand.Javascript.tIdentifierName, Hand.Javascript.tLeftParen, Hand.Javascript.tRightParen],
      [Hand.Javascript.tIdentifierName, Hand.Javascript.tIdentifierName, Hand.Javascript.tLeftParen, Hand.Javascript.tRightParen]),
   (Hand.Kotlin.parser, [Hand.Kotlin.tIdentifier, Hand.Kotlin.tLParen, Hand.Kotlin.tRParen],
      [Hand.Kotlin.tIdentifier, Hand.Kotlin.tIdentifier, Hand.Kotlin.tLParen, Hand.Kotlin.tRParen]),
   (Hand.Php.parser, [Hand.Php.tVariable, Hand.Php.tLeftParen, Hand.Php.tRightParen],
      [Hand.Php.tVariable, Hand.Php.tVariable, Hand.Php.tLeftParen, Hand.Php.tRightParen]),
   (Hand.Rust.parser, [Hand.Rust.tIdentifier, Hand.Rust.tLeftParen, Hand.Rust.tRightParen],
      [Hand.Rust.tIdentifier, Hand.Rust.tIdentifier, Hand.Rust.tLeftParen, Hand.Rust.tRightParen]),
   (Hand.Zig.parser, [Hand.Zig.tIdentifier, Hand.Zig.tLeftParen, Hand.Zig.tRightParen],
      [Hand.Zig.tIdentifier, Hand.Zig.tIdentifier, Hand.Zig.tLeftParen, Hand.Zig.tRightParen])]

/-- Ten parsers put tokens into the tree twice: the leaves are not the tokens. -/
theorem C85_copies {h : HandParser} {ks ls : List Nat} (hk : (h, ks, ls) ∈ copied) (slack : Nat) :
    ∃ g errs, h.parse slack (textSource []) (rowOf ks) = .ok (some g, errs) ∧ leavesOf g = ls.map (fun k => (k, 1)) ∧
      ks.length < (leavesOf g).length := by
  have hd : copied.all (fun x => (match x.1.parse 0 (textSource []) (rowOf x.2.1) with
      | .ok (some g, _) => decide (leavesOf g = x.2.2.map (fun k => (k, 1)))
      | _ => false)) = true := by decide +kernel
  have hlen : ∀ y ∈ copied.map (·.2), y.1.length < y.2.length := by decide
  obtain ⟨g, errs, h1, h2⟩ := leaves_at (List.all_eq_true.mp hd _ hk) slack
  exact ⟨g, errs, h1, h2, by rw [h2, List.length_map]; exact hlen _ (List.mem_map_of_mem hk)⟩

/-- Token streams, and the leaves of their trees, in which a token is missing: `for(a)`, `int a`, `import "a"`, `f(a)`, `def f(a) end`,
`fn f(a){}`, a number. -/
def dropped : List (HandParser × List Nat × List Nat) :=
  [(Hand.Actionscript.parser, [Hand.Actionscript.tFor, Hand.Actionscript.tLeftParen, Hand.Actionscript.tIdentifier, Hand.Actionscript.tRightParen],
      [Hand.Actionscript.tFor, Hand.Actionscript.tLeftParen, Hand.Actionscript.tRightParen]),
   (Hand.Cpp.parser, [Hand.Cpp.tKeyword, Hand.Cpp.tIdentifier], [Hand.Cpp.tKeyword]),
   (Hand.Go.parser, [Hand.Go.tImport, Hand.Go.tStringLiteral], [Hand.Go.tImport]),
   (Hand.Javascript.parser, [Hand.Javascript.tIdentifierName, Hand.Javascript.tLeftParen, 50, Hand.Javascript.tRightParen],
      [Hand.Javascript.tIdentifierName, Hand.Javascript.tIdentifierName, Hand.Javascript.tLeftParen, Hand.Javascript.tRightParen]),
   (Hand.Php.parser, [Hand.Php.tVariable, Hand.Php.tLeftParen, Hand.Php.tIdentifier, Hand.Php.tRightParen],
      [Hand.Php.tVariable, Hand.Php.tVariable, Hand.Php.tLeftParen, Hand.Php.tRightParen]),
   (Hand.Ruby.parser, [Hand.Ruby.tDef, Hand.Ruby.tIdentifier, Hand.Ruby.tLeftParen, Hand.Ruby.tIdentifier, Hand.Ruby.tRightParen, Hand.Ruby.tEnd],
      [Hand.Ruby.tDef, Hand.Ruby.tIdentifier, Hand.Ruby.tLeftParen, Hand.Ruby.tRightParen, Hand.Ruby.tEnd]),
   (Hand.Rust.parser, [Hand.Rust.tFn, Hand.Rust.tIdentifier, Hand.Rust.tLeftParen, Hand.Rust.tIdentifier, Hand.Rust.tRightParen,
      Hand.Rust.tLeftBrace, Hand.Rust.tRightBrace],
      [Hand.Rust.tFn, Hand.Rust.tIdentifier, Hand.Rust.tLeftParen, Hand.Rust.tRightParen, Hand.Rust.tLeftBrace, Hand.Rust.tRightBrace]),
   (Hand.Sql.parser, [Hand.Sql.tNumberLiteral], []),
   (Hand.Zig.parser, [Hand.Zig.tFn, Hand.Zig.tIdentifier, Hand.Zig.tLeftParen, Hand.Zig.tIdentifier, Hand.Zig.tRightParen,
      Hand.Zig.tLeftBrace, Hand.Zig.tRightBrace],
      [Hand.Zig.tFn, Hand.Zig.tIdentifier, Hand.Zig.tLeftParen, Hand.Zig.tRightParen, Hand.Zig.tLeftBrace, Hand.Zig.tRightBrace])]

/-- Nine parsers lose tokens: the tokens are not among the leaves. -/
theorem C85_dropped {h : HandParser} {ks ls : List Nat} (hk : (h, ks, ls) ∈ dropped) (slack : Nat) :
    ∃ g errs, h.parse slack (textSource []) (rowOf ks) = .ok (some g, errs) ∧ leavesOf g = ls.map (fun k => (k, 1)) ∧
      ¬ (ks.map (fun k => (k, 1))).Sublist (leavesOf g) := by
  have hd : dropped.all (fun x => (match x.1.parse 0 (textSource []) (rowOf x.2.1) with
      | .ok (some g, _) => decide (leavesOf g = x.2.2.map (fun k => (k, 1)))
      | _ => false)) = true := by decide +kernel
  have hlen : ∀ y ∈ dropped.map (·.2), ¬ (y.1.map (fun k => (k, 1))).Sublist (y.2.map (fun k => (k, 1))) := by decide +kernel
  obtain ⟨g, errs, h1, h2⟩ := leaves_at (List.all_eq_true.mp hd _ hk) slack
  exact ⟨g, errs, h1, h2, by rw [h2]; exact hlen _ (List.mem_map_of_mem hk)⟩

/-- `ScalaParser` keeps no token but blanks and comments, whatever the text is. -/
theorem C85_scala_nothing {src : Source} {toks : List Tok} (hl : tokBytes toks < 2 ^ 32) :
    ∃ g errs, (∀ slack, Hand.Scala.parser.parse slack src toks = .ok (some g, errs)) ∧ ∀ x ∈ leavesOf g, x.1 ∈ Hand.Scala.parser.ign := by
  obtain ⟨g, errs, h1⟩ := C84_always_a_tree_partial (h := Hand.Scala.parser) (by simp [climbTree]) src hl
  refine ⟨g, errs, h1, fun x hx => ?_⟩
  have := HandParser.parse_only (K := []) (by decide +kernel) (h1 0) x hx
  simpa using this

example : ∃ g errs, (∀ slack, Hand.Scala.parser.parse slack (textSource "a b".toList) (rowOf [40, 1, 40]) = .ok (some g, errs)) ∧
    ∀ x ∈ leavesOf g, x.1 ∈ Hand.Scala.parser.ign := C85_scala_nothing (by decide)

end Oaks.Props
