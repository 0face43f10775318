import Verif.Model.Highlight

/-
Errors: `projects/oak-core/src/errors/mod.rs` and `display.rs`. Paths below are in that directory. A `std::io::Error` is its kind, the
text it prints, and the code of the operating system, if it has one. `{:?}` of a path is a parameter. Numbers are not limited.
-/
namespace Oaks

/-- A `std::io::Error` as far as it can be looked at (mod.rs:111). -/
structure IoErr where
  kind : Nat
  text : Str
  os : Option Int
deriving DecidableEq

/-- `OakErrorKind` (mod.rs:107-273). -/
inductive OakErr where
  | io (error : IoErr) (source : Option Nat)
  | syntaxError (message : Str) (offset : Nat) (source : Option Nat)
  | unexpectedCharacter (character : Char) (offset : Nat) (source : Option Nat)
  | unexpectedToken (token : Str) (offset : Nat) (source : Option Nat)
  | unexpectedEof (offset : Nat) (source : Option Nat)
  | customError (message : Str)
  | invalidTheme (message : Str)
  | unsupportedFormat (format : Str)
  | colorParse (color : Str)
  | formatError (message : Str)
  | semanticError (message : Str)
  | protocolError (message : Str)
  | expectedToken (expected : Str) (offset : Nat) (source : Option Nat)
  | expectedName (name : Str) (offset : Nat) (source : Option Nat)
  | trailingComma (offset : Nat) (source : Option Nat)
  | testFailure (path expected actual : Str)
  | testRegenerated (path : Str)
  | serdeError (message : Str)
  | deserializeError (message : Str)
  | xmlError (message : Str)
  | zipError (message : Str)
  | parseError (message : Str)
  | internalError (message : Str)
deriving DecidableEq

namespace OakErr

/-- `OakErrorKind::key` (mod.rs:277-303). -/
def key : OakErr → Str
  | io .. => "error.io".toList
  | syntaxError .. => "error.syntax".toList
  | unexpectedCharacter .. => "error.unexpected_character".toList
  | unexpectedToken .. => "error.unexpected_token".toList
  | unexpectedEof .. => "error.unexpected_eof".toList
  | customError .. => "error.custom".toList
  | invalidTheme .. => "error.invalid_theme".toList
  | unsupportedFormat .. => "error.unsupported_format".toList
  | colorParse .. => "error.color_parse".toList
  | formatError .. => "error.format".toList
  | semanticError .. => "error.semantic".toList
  | protocolError .. => "error.protocol".toList
  | expectedToken .. => "error.expected_token".toList
  | expectedName .. => "error.expected_name".toList
  | trailingComma .. => "error.trailing_comma_not_allowed".toList
  | testFailure .. => "error.test_failure".toList
  | testRegenerated .. => "error.test_regenerated".toList
  | serdeError .. => "error.serde".toList
  | deserializeError .. => "error.deserialize".toList
  | xmlError .. => "error.xml".toList
  | zipError .. => "error.zip".toList
  | parseError .. => "error.parse".toList
  | internalError .. => "error.internal".toList

/-- `{:?}` of an `Option<SourceId>` (standard library; display.rs:23). -/
def showSource : Option Nat → Str
  | none => "None".toList
  | some n => "Some(".toList ++ natStr n ++ ")".toList

/-- `{:?}:{}` of a source and an offset (display.rs:27 and the same below). -/
def showPlace (source : Option Nat) (offset : Nat) : Str := showSource source ++ ":".toList ++ natStr offset

/-- What `Display for OakErrorKind` writes after the key (display.rs:21-66); `path` is `{:?}` of a path. -/
def body (path : Str → Str) : OakErr → Str
  | io e s => "(".toList ++ showSource s ++ ")".toList ++ ": ".toList ++ e.text
  | syntaxError m o s => m ++ ": (at ".toList ++ showPlace s o ++ ")".toList
  | unexpectedCharacter c o s => "unexpected character '".toList ++ [c] ++ "' at ".toList ++ showPlace s o
  | unexpectedToken t o s => "unexpected token '".toList ++ t ++ "' at ".toList ++ showPlace s o
  | unexpectedEof o s => "unexpected end of file at ".toList ++ showPlace s o
  | customError m => m
  | invalidTheme m => m
  | unsupportedFormat f => "unsupported format: ".toList ++ f
  | colorParse c => "invalid color: ".toList ++ c
  | formatError m => m
  | semanticError m => m
  | protocolError m => m
  | expectedToken t o s => "expected token '".toList ++ t ++ "' at ".toList ++ showPlace s o
  | expectedName n o s => "expected ".toList ++ n ++ " at ".toList ++ showPlace s o
  | trailingComma o s => "trailing comma not allowed at ".toList ++ showPlace s o
  | testFailure p e a => "test failure in ".toList ++ path p ++ ": expected ".toList ++ e ++ ", found ".toList ++ a
  | testRegenerated p => "test regenerated: ".toList ++ path p
  | serdeError m => "serde error: ".toList ++ m
  | deserializeError m => "deserialization error: ".toList ++ m
  | xmlError m => "XML error: ".toList ++ m
  | zipError m => "zip error: ".toList ++ m
  | parseError m => "parse error: ".toList ++ m
  | internalError m => "internal error: ".toList ++ m

/-- `Display for OakErrorKind` (display.rs:18-67); `Display` and `Debug` for `OakError` are the same (display.rs:10-14, mod.rs:80-84). -/
def display (path : Str → Str) (e : OakErr) : Str := e.key ++ e.body path

/-- `OakError::with_source_id` (mod.rs:461-474). -/
def withSourceId (e : OakErr) (i : Nat) : OakErr :=
  match e with
  | io err _ => io err (some i)
  | syntaxError m o _ => syntaxError m o (some i)
  | unexpectedCharacter c o _ => unexpectedCharacter c o (some i)
  | unexpectedToken t o _ => unexpectedToken t o (some i)
  | expectedToken t o _ => expectedToken t o (some i)
  | expectedName n o _ => expectedName n o (some i)
  | trailingComma o _ => trailingComma o (some i)
  | e => e

/-- `Clone for OakErrorKind` (mod.rs:477-513): `io::Error::new` has no code of the operating system and prints the text it is given. -/
def clone : OakErr → OakErr
  | io e s => io ⟨e.kind, e.text, none⟩ s
  | e => e

end OakErr

/-- `OakDiagnostics` (mod.rs:27-35). -/
structure OakDiagnostics (α : Type) where
  result : Except OakErr α
  diagnostics : List OakErr

/-- `OakDiagnostics::has_errors` (mod.rs:54-56). -/
def OakDiagnostics.hasErrors {α : Type} (d : OakDiagnostics α) : Bool :=
  (match d.result with | .error _ => true | .ok _ => false) || !d.diagnostics.isEmpty

end Oaks
