import Verif.Base.Sort
import Verif.Model.Diagnostic

/-
Comments of the pretty printer (projects/oak-pretty-print/src/comment/mod.rs). Lines, columns and indent levels
of comments are carried around by the code and never read; they are left out.
-/
namespace Oaks

/-- `CommentKind` (comment/mod.rs:23-30). -/
inductive CKind where
  | line | block | doc
deriving DecidableEq

/-- `Comment` (comment/mod.rs:34-45); `start` and `stop` are the offsets of its span. -/
structure Comment where
  kind : CKind
  content : Str
  start : Nat
  stop : Nat
  trailing : Bool
deriving DecidableEq

/-- `str::trim` (standard library) for a class of white space; used at comment/mod.rs:93, 99, 110, 119. -/
def trimWs (ws : Char → Bool) (s : Str) : Str := ((s.dropWhile ws).reverse.dropWhile ws).reverse

/-- The marker before a comment (comment/mod.rs:82-86). -/
def CKind.marker : CKind → Str
  | .line => "//".toList
  | .block => "/*".toList
  | .doc => "///".toList

/-- The marker after it (comment/mod.rs:88-91). -/
def CKind.suffix : CKind → Str
  | .block => " */".toList
  | _ => []

/-- A line of a block comment (comment/mod.rs:107-112). -/
def blockRow (ws : Char → Bool) (indent line : Str) : Str := indent ++ (" * ".toList ++ (trimWs ws line ++ ['\n']))

/-- `formatted_text` (comment/mod.rs:81-124). -/
def Comment.formatted (ws : Char → Bool) (c : Comment) (indent : Str) : Str :=
  if trimWs ws c.content = [] then c.kind.marker ++ (c.content ++ c.kind.suffix)
  else
    match c.kind with
    | .block =>
      if '\n' ∈ c.content then
        "/*\n".toList ++ ((rustLines c.content).flatMap (blockRow ws indent) ++ (indent ++ " */".toList))
      else "/* ".toList ++ (trimWs ws c.content ++ " */".toList)
    | k => k.marker ++ (' ' :: trimWs ws c.content)

/-- `comments_in_range`, `comments_before`, `comments_after`, `trailing_comments` (comment/mod.rs:155-172). -/
def commentsIn (cs : List Comment) (start stop : Nat) : List Comment := cs.filter fun c => decide (c.start ≥ start ∧ c.stop ≤ stop)
/-- `comments_before` (comment/mod.rs:160-162). -/
def commentsBefore (cs : List Comment) (p : Nat) : List Comment := cs.filter fun c => decide (c.stop ≤ p)
/-- `comments_after` (comment/mod.rs:165-167). -/
def commentsAfter (cs : List Comment) (p : Nat) : List Comment := cs.filter fun c => decide (c.start ≥ p)
/-- `trailing_comments` (comment/mod.rs:170-172). -/
def trailingComments (cs : List Comment) : List Comment := cs.filter fun c => c.trailing

/-- `sort_by_position` (comment/mod.rs:180-182). -/
def sortComments (cs : List Comment) : List Comment := sortBy (fun a b => decide (a.start ≤ b.start)) cs

/-- `process_comments` (comment/mod.rs:228-245). -/
def processComments (ws : Char → Bool) (preserve format : Bool) (cs : List Comment) (indent : Str) : List Str :=
  if preserve then cs.map fun c => if format then c.formatted ws indent else c.content else []

/-- The loop of `insert_comments_at_position` (comment/mod.rs:250-256). -/
def insertLoop (ws : Char → Bool) (indent : Str) : Str → List Comment → Str
  | out, [] => out
  | out, c :: cs =>
    if c.trailing then insertLoop ws indent out cs
    else insertLoop ws indent (out ++ (indent ++ (c.formatted ws indent ++ ['\n']))) cs

/-- `insert_comments_at_position` (comment/mod.rs:248-257). -/
def insertAt (ws : Char → Bool) (cs : List Comment) (out : Str) (p : Nat) (indent : Str) : Str :=
  insertLoop ws indent out (commentsBefore cs p)

/-- The loop of `insert_trailing_comment` (comment/mod.rs:262-268). -/
def insertFirst (ws : Char → Bool) : Str → List Comment → Str
  | out, [] => out
  | out, c :: cs => if c.trailing then out ++ (' ' :: c.formatted ws []) else insertFirst ws out cs

/-- `insert_trailing_comment` (comment/mod.rs:260-269). -/
def insertTrailing (ws : Char → Bool) (cs : List Comment) (out : Str) (p : Nat) : Str := insertFirst ws out (commentsAfter cs p)

end Oaks
