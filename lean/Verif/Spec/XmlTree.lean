import Verif.Spec.Xml

/-
XML: the elements of a text.
-/
namespace Oaks.Spec
open Oaks

/-- What stands in an element or a document: a token that belongs to no tag, `<name/>`, or `<name>`, content and `</close>`. -/
inductive Item where
  | other (kind : Nat) (s : Str)
  | empty (name : Str)
  | pair (name : Str) (content : List Item) (close : Str)

mutual
/-- The tokens of an item: kind and text. -/
def Item.pieces : Item → List (Nat × Str)
  | .other k s => [(k, s)]
  | .empty n => [(Xml.leftAngle, ['<']), (Xml.identifier, n), (Xml.slashRightAngle, ['/', '>'])]
  | .pair n c e => (Xml.leftAngle, ['<']) :: (Xml.identifier, n) :: (Xml.rightAngle, ['>']) ::
      (itemsPieces c ++ [(Xml.leftAngleSlash, ['<', '/']), (Xml.identifier, e), (Xml.rightAngle, ['>'])])
/-- The tokens of items one after another. -/
def itemsPieces : List Item → List (Nat × Str)
  | [] => []
  | it :: its => it.pieces ++ itemsPieces its
end

mutual
/-- The item can stand in an element: no tag is hidden in it. -/
def Item.Inner : Item → Prop
  | .other k _ => k ≠ Xml.leftAngle ∧ k ≠ Xml.leftAngleSlash
  | .empty _ => True
  | .pair _ c _ => AllInner c
/-- All items can. -/
def AllInner : List Item → Prop
  | [] => True
  | it :: its => it.Inner ∧ AllInner its
end

/-- The item is an element. -/
def Item.IsElement : Item → Prop
  | .other _ _ => False
  | _ => True

/-- The items can stand in a document, where `</` is not special. -/
def TopLevel : List Item → Prop
  | [] => True
  | .other k _ :: its => k ≠ Xml.leftAngle ∧ TopLevel its
  | it :: its => it.Inner ∧ TopLevel its

mutual
/-- The bytes of the tags of an item. -/
def Item.len : Item → Nat
  | .other _ _ => 0
  | .empty n => blen n + 3
  | .pair n c e => blen n + 2 + itemsLen c + (blen e + 3)
/-- The bytes of the tags in items. -/
def itemsLen : List Item → Nat
  | [] => 0
  | it :: its => it.len + itemsLen its
end

mutual
/-- The value built of an item that begins `o` bytes behind the beginning of the tree; a name is read there in the text.
Only elements are asked for. -/
def Item.built (t : Str) (o : Nat) : Item → XmlVal
  | .other _ s => .text s
  | .empty n => .element [] [] [] o (o + (blen n + 3))
  | .pair n c e => .element ((strGet t (o + 1) (o + 1 + blen n)).getD []) [] (itemsBuilt t (o + (blen n + 2)) c) o
      (o + (blen n + 2 + itemsLen c + (blen e + 3)))
/-- The values built of the elements among items. -/
def itemsBuilt (t : Str) (o : Nat) : List Item → List XmlVal
  | [] => []
  | .other _ _ :: its => itemsBuilt t o its
  | .empty n :: its => (Item.empty n).built t o :: itemsBuilt t (o + (Item.empty n).len) its
  | .pair n c e :: its => (Item.pair n c e).built t o :: itemsBuilt t (o + (Item.pair n c e).len) its
end

/-- The text of tokens. -/
def piecesText (ps : List (Nat × Str)) : Str := ps.flatMap (·.2)

/-- The tokens as pieces of a cut. -/
def keyed (ps : List (Nat × Str)) : List (Option Nat × Str) := ps.map (fun p => (some p.1, p.2))

/-- A name. -/
def XmlName (n : Str) : Prop := ∃ c cs, n = c :: cs ∧ Xml.nameStart c = true ∧ ∀ d ∈ cs, Xml.nameChar d = true

mutual
/-- Elements with and without content, nothing between the tags, names as names are. -/
def Item.Proper : Item → Prop
  | .other _ _ => False
  | .empty n => XmlName n
  | .pair n c e => XmlName n ∧ AllProper c ∧ XmlName e
/-- All items are. -/
def AllProper : List Item → Prop
  | [] => True
  | it :: its => it.Proper ∧ AllProper its
end

mutual
/-- The value of an element written at byte `o`: its name (`short` of it for `<name/>`), its content, its place. The closing
name is not used. What is not an element has no value. -/
def Item.value (short : Str → Str) (o : Nat) : Item → XmlVal
  | .other _ s => .text s
  | .empty n => .element (short n) [] [] o (o + (blen n + 3))
  | .pair n c e => .element n [] (itemsValue short (o + (blen n + 2)) c) o (o + (blen n + 2 + itemsLen c + (blen e + 3)))
/-- The values of elements side by side from byte `o` on. -/
def itemsValue (short : Str → Str) (o : Nat) : List Item → List XmlVal
  | [] => []
  | it :: its => it.value short o :: itemsValue short (o + it.len) its
end

mutual
/-- No element is written as `<name/>`. -/
def Item.Paired : Item → Prop
  | .empty _ => False
  | .pair _ c _ => AllPaired c
  | .other _ _ => True
/-- In none of the items. -/
def AllPaired : List Item → Prop
  | [] => True
  | it :: its => it.Paired ∧ AllPaired its
end

mutual
/-- Elements all the way down, without attributes. -/
def XmlBare : XmlVal → Prop
  | .element _ as ks _ _ => as = [] ∧ AllBare ks
  | _ => False
/-- All values are. -/
def AllBare : List XmlVal → Prop
  | [] => True
  | v :: vs => XmlBare v ∧ AllBare vs
end

mutual
/-- The elements in a value have names as names are. -/
def Named : XmlVal → Prop
  | .element n _ ks _ _ => XmlName n ∧ AllNamed ks
  | .fragment vs => AllNamed vs
  | _ => True
/-- In all values. -/
def AllNamed : List XmlVal → Prop
  | [] => True
  | v :: vs => Named v ∧ AllNamed vs
end

mutual
/-- The names and places of the elements in a value, in the order of the text. -/
def elements : XmlVal → List (Str × Nat × Nat)
  | .element n _ ks a b => (n, a, b) :: allElements ks
  | .fragment vs => allElements vs
  | _ => []
/-- Of all values. -/
def allElements : List XmlVal → List (Str × Nat × Nat)
  | [] => []
  | v :: vs => elements v ++ allElements vs
end

/-- `close` is not in the text, nor does it begin in it. -/
def EndsFirst (close body : Str) : Prop := ∀ a b, body ++ close = a ++ close ++ b → b = []

/-- The tokens of an attribute with a blank before it. -/
def attrPieces (a : XmlAttr) : List (Nat × Str) :=
  [(Xml.whitespace, [' ']), (Xml.identifier, a.name), (Xml.equals, ['=']), (Xml.stringLiteral, '"' :: (a.value ++ ['"']))]

mutual
/-- The tokens meant by a value without text: tags with attributes, comments, sections, instructions. -/
def meant : XmlVal → List (Nat × Str)
  | .text _ => []
  | .comment s => [(Xml.comment, "<!--".toList ++ s ++ "-->".toList)]
  | .cdata s => [(Xml.cdata, "<![CDATA[".toList ++ s ++ "]]>".toList)]
  | .instruction t none _ _ => [(Xml.instruction, "<?".toList ++ t ++ "?>".toList)]
  | .instruction t (some d) _ _ => [(Xml.instruction, "<?".toList ++ t ++ " ".toList ++ d ++ "?>".toList)]
  | .fragment vs => allMeant vs
  | .element n as [] _ _ =>
    (Xml.leftAngle, ['<']) :: (Xml.identifier, n) :: (as.flatMap attrPieces ++ [(Xml.slashRightAngle, ['/', '>'])])
  | .element n as (k :: ks) _ _ =>
    (Xml.leftAngle, ['<']) :: (Xml.identifier, n) :: (as.flatMap attrPieces ++ (Xml.rightAngle, ['>']) :: (meant k ++ allMeant ks ++
      [(Xml.leftAngleSlash, ['<', '/']), (Xml.identifier, n), (Xml.rightAngle, ['>'])]))
/-- Of values one after another. -/
def allMeant : List XmlVal → List (Nat × Str)
  | [] => []
  | v :: vs => meant v ++ allMeant vs
end

mutual
/-- Names are names, values of attributes have no `"`, and comments, sections and instructions end where they should; there is no
text. -/
def Tidy : XmlVal → Prop
  | .text _ => False
  | .comment s => EndsFirst "-->".toList s
  | .cdata s => EndsFirst "]]>".toList s
  | .instruction t none _ _ => EndsFirst "?>".toList t
  | .instruction t (some d) _ _ => EndsFirst "?>".toList (t ++ ' ' :: d)
  | .fragment vs => AllTidy vs
  | .element n as ks _ _ => XmlName n ∧ (∀ a ∈ as, XmlName a.name ∧ '"' ∉ a.value) ∧ AllTidy ks
/-- All values are. -/
def AllTidy : List XmlVal → Prop
  | [] => True
  | v :: vs => Tidy v ∧ AllTidy vs
end

end Oaks.Spec
