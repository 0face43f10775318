import Verif.Model.Printer
import Verif.Model.Rules
import Verif.Model.Tree

/-
Model of `projects/oak-pretty-print/src/formatter/mod.rs` and `builtin_rules/mod.rs`: formatting a
syntax tree with a rule set.

A rule is a trait object; it is given by the answers of its methods. `E` is the type of the errors a
rule may return. `FormatContext::source` is the source handed to every rule as well, and the
configuration and the comment processor of the context are fixed: none of them is in the model's context.
-/
namespace Oaks

/-- How formatting stops short: a panic or endless loop, or the error of a rule (`FormatResult`,
errors/mod.rs:1-5). -/
inductive FmtStop (E : Type) where
  | run (f : Fail)
  | err (e : E)
deriving DecidableEq

/-- Code that cannot return an error, called where one is possible (`?` and slices in
formatter/mod.rs:109-152). -/
def liftRun {E α : Type} : Run α → Except (FmtStop E) α
  | .ok a => .ok a
  | .error f => .error (.run f)

/-- `FormatContext` (formatter/mod.rs:36-48): the depth, and the path as the kinds from the innermost
node outwards (`PathNode`, 26-33). -/
structure FmtCtx where
  depth : Nat
  path : List Nat
deriving DecidableEq, Repr

/-- `FormatContext::new` (formatter/mod.rs:52-56). -/
def FmtCtx.new : FmtCtx := ⟨0, []⟩

/-- `enter` (formatter/mod.rs:59-62). -/
def FmtCtx.enter (c : FmtCtx) (kind : Nat) : FmtCtx := ⟨c.depth + 1, kind :: c.path⟩

/-- The loop of `is_inside` (formatter/mod.rs:65-74). -/
def isInsideLoop (kind : Nat) : List Nat → Bool
  | [] => false
  | k :: ks => if k = kind then true else isInsideLoop kind ks

/-- `is_inside` (formatter/mod.rs:65-74). -/
def FmtCtx.isInside (c : FmtCtx) (kind : Nat) : Bool := isInsideLoop kind c.path

/-- `parent_kind` (formatter/mod.rs:77-79). -/
def FmtCtx.parentKind (c : FmtCtx) : Option Nat :=
  match c.path with
  | _ :: k :: _ => some k
  | _ => none

/-- `FormatRule` (rules/mod.rs:10-41), without its name. A token is `(kind, start, end)`. -/
structure FmtRule (E : Type) where
  priority : Nat
  appliesNode : RedNode → Bool
  appliesToken : Nat × Nat × Nat → Bool
  applyNode : RedNode → FmtCtx → Str → (RedNode → Except (FmtStop E) Doc) → Except (FmtStop E) (Option Doc)
  applyToken : Nat × Nat × Nat → FmtCtx → Str → Except (FmtStop E) (Option Doc)

/-- `&source[a..b]` (formatter/mod.rs:150, builtin_rules/mod.rs:36). -/
def sliceOf (src : Str) (a b : Nat) : Run Str :=
  match strGet src a b with
  | some t => .ok t
  | none => .error .panic

/-- `format_token` (formatter/mod.rs:143-152). -/
def formatToken {E : Type} (rules : List (FmtRule E)) (src : Str) (tok : Nat × Nat × Nat) (ctx : FmtCtx) :
    Except (FmtStop E) Doc :=
  match applyRules (fun r => r.appliesToken tok) (fun r => r.applyToken tok ctx src) rules with
  | .error e => .error e
  | .ok (some d) => .ok d
  | .ok none =>
    match liftRun (sliceOf src tok.2.1 tok.2.2) with
    | .error e => .error e
    | .ok t => .ok (.text t)

/-- The `match` of the closure over one child (formatter/mod.rs:125-128). -/
def formatChild {E : Type} (node : RedNode → Except (FmtStop E) Doc)
    (token : Nat × Nat × Nat → Except (FmtStop E) Doc) : Red → Except (FmtStop E) Doc
  | .node n => node n
  | .leaf k a b => token (k, a, b)

/-- The closure `format_children` (formatter/mod.rs:122-131). -/
def formatChildren {E : Type} (node : RedNode → Except (FmtStop E) Doc)
    (token : Nat × Nat × Nat → Except (FmtStop E) Doc) (n : RedNode) : Except (FmtStop E) Doc := do
  let cs ← liftRun (n.childIter.collect (n.children.length + 1))
  let docs ← cs.mapM (formatChild node token)
  return .concat docs

/-- `format_node` (formatter/mod.rs:117-140); fuel for the recursion. -/
def formatNode {E : Type} (rules : List (FmtRule E)) (src : Str) :
    Nat → RedNode → FmtCtx → Except (FmtStop E) Doc
  | 0, _, _ => .error (.run .spin)
  | fuel + 1, n, ctx =>
    let ctx := ctx.enter n.kind
    let children := formatChildren (fun c => formatNode rules src fuel c ctx) (fun t => formatToken rules src t ctx)
    match applyRules (fun r => r.appliesNode n) (fun r => r.applyNode n ctx src children) rules with
    | .error e => .error e
    | .ok (some d) => .ok d
    | .ok none => children n

/-- `FormatOutput` (formatter/mod.rs:11-16). -/
structure FormatOutput where
  content : Str
  changed : Bool
deriving DecidableEq, Repr

/-- `Formatter::format` (formatter/mod.rs:108-114). -/
def formatTree {E : Type} (cfg : FormatConfig) (rules : List (FmtRule E)) (fuel : Nat) (root : RedNode) (src : Str) :
    Except (FmtStop E) FormatOutput := do
  let doc ← formatNode rules src fuel root FmtCtx.new
  let content := printDoc cfg doc
  return ⟨content, decide (content ≠ src)⟩

/-- The roles of a language's kinds that the built-in rules ask for: `ElementType::is_universal` with
`Container` and `Statement`, `TokenType::is_universal` with `Punctuation`
(builtin_rules/mod.rs:12, 26, 35). A kind has one role, so that it is not both (language/mod.rs:468-470). -/
structure FmtRoles where
  container : Nat → Bool
  statement : Nat → Bool
  punctuation : Nat → Bool

/-- The rule `indent` (builtin_rules/mod.rs:10-21). -/
def indentRule {E : Type} (R : FmtRoles) : FmtRule E where
  priority := 10
  appliesNode n := R.container n.kind
  appliesToken _ := false
  applyNode n _ _ children := do
    let d ← children n
    return some (.group (.indent (.concat [.line, d])))
  applyToken _ _ _ := .ok none

/-- The rule `statement_newline` (builtin_rules/mod.rs:24-30). -/
def statementRule {E : Type} (R : FmtRoles) : FmtRule E where
  priority := 5
  appliesNode n := R.statement n.kind
  appliesToken _ := false
  applyNode n _ _ children := do
    let d ← children n
    return some (.concat [d, .line])
  applyToken _ _ _ := .ok none

/-- The rule `comma_spacing` (builtin_rules/mod.rs:33-43). -/
def commaRule {E : Type} (R : FmtRoles) : FmtRule E where
  priority := 6
  appliesNode _ := false
  appliesToken t := R.punctuation t.1
  applyNode _ _ _ _ := .ok none
  applyToken t _ src := do
    let text ← liftRun (sliceOf src t.2.1 t.2.2)
    if text = [','] then return some (.concat [.text [','], .softLineSpace]) else return none

/-- `create_builtin_rules` (builtin_rules/mod.rs:6-45). -/
def builtinRules {E : Type} (R : FmtRoles) : List (FmtRule E) := [indentRule R, statementRule R, commaRule R]

/-- `Formatter::new` (formatter/mod.rs:93-102) and then `add_rule` (105-107) for each of `user`; an
addition refused leaves the set. Built-in rules conflict with nothing of their own (rules/mod.rs:38-40);
`conflicts` is what `conflicts_with` answers. -/
def formatterRules {E : Type} (R : FmtRoles) (conflicts : FmtRule E → FmtRule E → Bool) (user : List (FmtRule E)) :
    List (FmtRule E) :=
  let add := fun conf (s : List (FmtRule E)) r => (addRule (fun r => r.priority) conf s r).getD s
  user.foldl (add conflicts) ((builtinRules R).foldl (add fun _ _ => false) [])

end Oaks
