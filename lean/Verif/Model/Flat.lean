import Verif.Model.Parser

/-
Model of the parsers that put all tokens below one node: a loop that calls `bump` (14 languages) or `advance` (28 languages) until the
tokens end, and `finish_at`.

With `bump`: `examples/oak-{ascii-doc,crystal,erlang,dot,idl,pascal,twig}/src/parser/parse_top_level.rs`,
`examples/oak-jasmin/src/parser/parse_root.rs`, `examples/oak-{smalltalk,stylus,toml,vampire,mermaid,raku}/src/parser/mod.rs`.
With `advance`: `examples/oak-{clojure,delphi,django,dockerfile,graphql,groovy,gsgl,jasm,nim,sass,scheme,scss,d,dhall,elm,hlsl,javadoc,
lean,purescript,solidity,vala,verilog,vlang,voml,yaml}/src/parser/parse_top_level.rs`,
`examples/oak-{fortran,scala,wit-component}/src/parser/mod.rs`.

Simplifications: the kinds a language ignores and the kind of the root are parameters; `lex` has been called and gave tokens; a session
without an old tree (none of these parsers calls `try_reuse`).
-/
namespace Oaks

/-- What one of these languages chooses: `is_ignored` (oak-core language/mod.rs:298-300, or the override in the language's
lexer/token_type.rs), the kind given to `finish_at`, and `bump` or `advance` in the loop
(oak-ascii-doc parser/parse_top_level.rs:6-12; oak-yaml parser/parse_top_level.rs:9-15). -/
structure FlatParser where
  ign : Nat → Bool
  root : Nat
  bumps : Bool

namespace FlatParser

/-- `while state.not_at_end() { state.bump() }` or `… { state.advance() }` (oak-ascii-doc parser/parse_top_level.rs:8-10; oak-yaml
parser/parse_top_level.rs:11-13), one turn for every token left. -/
def loop (p : FlatParser) : Nat → PState → Run PState
  | fuel, s =>
    if s.index < s.tokens.length then
      match fuel with
      | 0 => .error .spin
      | fuel + 1 => do
        let s ← if p.bumps then s.bump p.ign else s.advance p.ign
        loop p fuel s
    else pure s

/-- `parse_root_internal` (oak-ascii-doc parser/parse_top_level.rs:5-14; oak-yaml parser/parse_top_level.rs:8-16) in `parse_with_lexer`
(oak-core parser/mod.rs:77-120): the root and the errors. -/
def parse (p : FlatParser) (toks : List Tok) (srcLen : Nat) : Run (Green × List PErr) := do
  let s ← PState.new p.ign toks srcLen
  let cp := s.checkpoint
  let s ← p.loop (s.tokens.length - s.index) s
  let (e, s) ← s.finishAt cp p.root
  pure (e.tree, s.errors)

end FlatParser
end Oaks
