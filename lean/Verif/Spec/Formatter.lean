import Verif.Model.Formatter
import Verif.Spec.Printer
import Verif.Spec.Tree

/-
What formatting must keep, and what the built-in rules make of a tree.
-/
namespace Oaks.Spec
open Oaks

/-- `t` is the row of leaves `ls` written out: one piece of text per leaf, of the leaf's length. -/
def LeavesWrite (ls : List (Nat × Nat)) (t : Str) : Prop :=
  ∃ ps : List Str, ps.flatten = t ∧ ps.map blen = ls.map (·.2)

/-- `n` is a node over the source `src`, standing on the text `t`. -/
def StandsOn (src : Str) (n : RedNode) (t : Str) : Prop :=
  Built (.node n.kind n.textLen n.children) ∧ LeavesWrite (leavesOfList n.children) t ∧
    ∃ pre post, src = pre ++ t ++ post ∧ blen pre = n.offset

/-- The rule keeps content: whatever it answers for a node or a token has the characters of its text,
blanks and line endings aside, provided that the closure it is given does so. -/
structure Keeps {E : Type} (src : Str) (r : FmtRule E) : Prop where
  node : ∀ n ctx children t d, r.appliesNode n = true → StandsOn src n t →
    (∀ m u e, StandsOn src m u → children m = .ok e → solid (docText e) = solid u) →
    r.applyNode n ctx src children = .ok (some d) → solid (docText d) = solid t
  token : ∀ k a b ctx t d, r.appliesToken (k, a, b) = true → strGet src a b = some t →
    r.applyToken (k, a, b) ctx src = .ok (some d) → solid (docText d) = solid t

mutual
/-- What the built-in rules make of a tree whose leaves have the texts `ps`. -/
def standardDoc (R : FmtRoles) : Green → List Str → Doc
  | .leaf k _ _, ps =>
    if R.punctuation k = true ∧ ps.head? = some [','] then .concat [.text [','], .softLineSpace]
    else .text (ps.headD [])
  | .node k _ cs, ps =>
    if R.container k = true then .group (.indent (.concat [.line, .concat (standardDocs R cs ps)]))
    else if R.statement k = true then .concat [.concat (standardDocs R cs ps), .line]
    else .concat (standardDocs R cs ps)
def standardDocs (R : FmtRoles) : List Green → List Str → List Doc
  | [], _ => []
  | c :: cs, ps => standardDoc R c (ps.take (leavesOf c).length) :: standardDocs R cs (ps.drop (leavesOf c).length)
end

mutual
/-- A tree with leaf texts `ps` in which the rule that answers `f` for nodes and `g` for tokens has
replaced what it wants to. `anc` are the kinds of the nodes around the element, innermost first, and `o`
is its offset. -/
def replaced (f : RedNode → FmtCtx → Option Doc) (g : Nat × Nat × Nat → FmtCtx → Option Doc) (anc : List Nat)
    (o : Nat) : Green → List Str → Doc
  | .leaf k n _, ps => (g (k, o, o + n) ⟨anc.length, anc⟩).getD (.text (ps.headD []))
  | .node k n cs, ps =>
    (f ⟨k, n, cs, o⟩ ⟨anc.length + 1, k :: anc⟩).getD (.concat (replacedRow f g (k :: anc) o cs ps))
def replacedRow (f : RedNode → FmtCtx → Option Doc) (g : Nat × Nat × Nat → FmtCtx → Option Doc) (anc : List Nat)
    (o : Nat) : List Green → List Str → List Doc
  | [], _ => []
  | c :: cs, ps =>
    replaced f g anc o c (ps.take (leavesOf c).length) ::
      replacedRow f g anc (o + bytesBelow c) cs (ps.drop (leavesOf c).length)
end

end Oaks.Spec

namespace Oaks.Spec
open Oaks

mutual
/-- No built-in rule has anything to do in the tree. -/
def Inert (R : FmtRoles) : Green → Prop
  | .leaf k _ _ => R.punctuation k = false
  | .node k _ cs => R.container k = false ∧ R.statement k = false ∧ InertRow R cs
def InertRow (R : FmtRoles) : List Green → Prop
  | [] => True
  | c :: cs => Inert R c ∧ InertRow R cs
end

/-- `out` is `t` without the blanks at its very end when these are trimmed, and with a line ending when
one is asked for and missing. -/
def EndClosed (cfg : FormatConfig) (t out : Str) : Prop :=
  ∃ u, (if cfg.trimTrailing then Trimmed t u else u = t) ∧ Finished cfg u out

end Oaks.Spec
