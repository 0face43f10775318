import Verif.Model.Repl

/-
The ideal line editor: finished lines, and the line being edited split at the cursor. It works on
characters only.

As in the code (and in terminal line editors) Enter with incomplete input opens a new line after the
current one wherever the cursor is, and only the last line can be edited.
-/
namespace Oaks.Spec
open Oaks

structure Editor where
  done : List Str
  left : Str
  right : Str

def Editor.empty : Editor := ⟨[], [], []⟩

/-- All lines. -/
def Editor.lines (e : Editor) : List Str := e.done ++ [e.left ++ e.right]

/-- The text: the lines with line breaks between them. -/
def Editor.text (e : Editor) : Str := (List.intersperse ['\n'] e.lines).flatten

/-- A session with a handler. -/
structure Session (H : Handler) where
  editor : Editor
  handler : H.State
  submitted : List Str

/-- What each key should do. -/
inductive Pressed (H : Handler) : Session H → Key → Bool → Session H → Prop where
  | clear (s : Session H) : Pressed H s (.char 'c' true) false ⟨Editor.empty, s.handler, s.submitted⟩
  | eof (h : H.State) (sub : List Str) : Pressed H ⟨Editor.empty, h, sub⟩ (.char 'd' true) true ⟨Editor.empty, h, sub⟩
  | notEof (s : Session H) : ¬ (s.editor.done = [] ∧ s.editor.left = [] ∧ s.editor.right = []) →
      Pressed H s (.char 'd' true) false s
  | type (d : List Str) (l r : Str) (h : H.State) (sub : List Str) (c : Char) (ctrl : Bool) :
      ¬ (ctrl = true ∧ (c = 'c' ∨ c = 'd')) →
      Pressed H ⟨⟨d, l, r⟩, h, sub⟩ (.char c ctrl) false ⟨⟨d, l ++ [c], r⟩, h, sub⟩
  | submit (s : Session H) (h' : H.State) : H.complete s.handler s.editor.text = true →
      H.handle s.handler s.editor.text = (h', false) →
      Pressed H s .enter false ⟨Editor.empty, h', s.submitted ++ [s.editor.text]⟩
  | exit (s : Session H) (h' : H.State) : H.complete s.handler s.editor.text = true →
      H.handle s.handler s.editor.text = (h', true) →
      Pressed H s .enter true ⟨s.editor, h', s.submitted ++ [s.editor.text]⟩
  | newLine (s : Session H) : H.complete s.handler s.editor.text = false →
      Pressed H s .enter false
        ⟨⟨s.editor.lines, List.replicate (H.indent s.handler s.editor.text) ' ', []⟩, s.handler, s.submitted⟩
  | rubout (d : List Str) (l r : Str) (c : Char) (h : H.State) (sub : List Str) :
      Pressed H ⟨⟨d, l ++ [c], r⟩, h, sub⟩ .backspace false ⟨⟨d, l, r⟩, h, sub⟩
  | join (d : List Str) (p r : Str) (h : H.State) (sub : List Str) :
      Pressed H ⟨⟨d ++ [p], [], r⟩, h, sub⟩ .backspace false ⟨⟨d, p, r⟩, h, sub⟩
  | nothing (r : Str) (h : H.State) (sub : List Str) :
      Pressed H ⟨⟨[], [], r⟩, h, sub⟩ .backspace false ⟨⟨[], [], r⟩, h, sub⟩
  | left (d : List Str) (l r : Str) (c : Char) (h : H.State) (sub : List Str) :
      Pressed H ⟨⟨d, l ++ [c], r⟩, h, sub⟩ .left false ⟨⟨d, l, c :: r⟩, h, sub⟩
  | leftEnd (d : List Str) (r : Str) (h : H.State) (sub : List Str) :
      Pressed H ⟨⟨d, [], r⟩, h, sub⟩ .left false ⟨⟨d, [], r⟩, h, sub⟩
  | right (d : List Str) (l r : Str) (c : Char) (h : H.State) (sub : List Str) :
      Pressed H ⟨⟨d, l, c :: r⟩, h, sub⟩ .right false ⟨⟨d, l ++ [c], r⟩, h, sub⟩
  | rightEnd (d : List Str) (l : Str) (h : H.State) (sub : List Str) :
      Pressed H ⟨⟨d, l, []⟩, h, sub⟩ .right false ⟨⟨d, l, []⟩, h, sub⟩
  | other (s : Session H) : Pressed H s .other false s

/-- A whole session: keys are read until the session ends. -/
inductive Typed (H : Handler) : Session H → List Key → Bool → Session H → Prop where
  | nil (s : Session H) : Typed H s [] false s
  | stop {s s' : Session H} {k : Key} (ks : List Key) : Pressed H s k true s' → Typed H s (k :: ks) true s'
  | next {s s' s'' : Session H} {k : Key} {ks : List Key} {b : Bool} :
      Pressed H s k false s' → Typed H s' ks b s'' → Typed H s (k :: ks) b s''

/-- The buffer of the code shows the ideal editor. -/
def BufShows (b : LineBuf) (e : Editor) : Prop :=
  b.lines = e.lines ∧ b.current = e.done.length ∧ b.cursor = e.left.length

/-- One-byte characters only. -/
def AsciiText (s : Str) : Prop := ∀ c ∈ s, c.val.toNat < 128

def AsciiKey : Key → Prop
  | .char c _ => c.val.toNat < 128
  | _ => True

end Oaks.Spec
