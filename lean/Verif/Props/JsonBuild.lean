import Verif.Proofs.JsonBuild
import Verif.Props.JsonParse

/-! # C49: from a JSON text to a value and back -/

namespace Oaks.Props
open Oaks Oaks.Spec

/-- A text a value is written as is built to that value, and nothing is reported: for every source the text is in, every
configuration of the language, every depth and length below 4 GiB.

Missing for C49: `Writes` has no blanks before the value and after a scalar, and strings without escapes; the code is wrong on the
rest, see the witnesses below. -/
theorem C49_build_partial {ν : Type} {num : Str → Option ν} {src : Source} {v : JsonVal ν} {t : Str} (h : AnySource src t)
    (hl : blen t < 2 ^ 32) (hw : Writes num v t) (cfg : JsonCfg) {cc : CharClass} (hcc : SoundClasses cc) :
    Json.build num cfg cc src = .ok (some v, []) :=
  jsonBuild_writes hcc (supply_linked h.1 h.2 (longChunks_zero src t) (cutsAligned_zero h.1)) hl hw (lawful_full h.1)

/-- A text is written for one value at most. -/
theorem C49_one_value {ν : Type} {num : Str → Option ν} {v v' : JsonVal ν} {t : Str} (hl : blen t < 2 ^ 32) (hw : Writes num v t)
    (hw' : Writes num v' t) {cc : CharClass} (hcc : SoundClasses cc) : v = v' := by
  have h : AnySource (strSource t) t := ⟨strSource_lawful t, strSource_contiguous t⟩
  have h1 := C49_build_partial h hl hw .standard hcc
  rw [C49_build_partial h hl hw' .standard hcc] at h1
  injection h1 with h1
  injection h1 with h1
  injection h1 with h1
  exact h1.symm

/-- What `to_string` writes is read back as the value it was written for, if strings and keys have no quotes and no backslashes
and numbers are read back. -/
theorem C49_to_string_partial {ν : Type} {num : Str → Option ν} {shw : ν → Str} {v : JsonVal ν}
    (hv : PlainVal (fun x => NumberText (shw x) ∧ num (shw x) = some x) v) {src : Source} (h : AnySource src (Json.toText shw v))
    (hl : blen (Json.toText shw v) < 2 ^ 32) (cfg : JsonCfg) {cc : CharClass} (hcc : SoundClasses cc) :
    Json.build num cfg cc src = .ok (some v, []) :=
  C49_build_partial h hl (toText_writes shw v hv) cfg hcc

/-- `to_source` into a new buffer writes what `to_string` writes. -/
theorem C49_to_source {ν : Type} (shw : ν → Str) (v : JsonVal ν) {cc : CharClass} (hcc : SoundClasses cc) :
    (Json.toSource shw cc.alnum SBuf.new v).inner = Json.toText shw v :=
  toSource_new shw hcc.marks v

/-! Non-trivial cases -/

/-- Numbers as their digits; like `f64::from_str` the reader refuses blanks. -/
def digitsNum (s : Str) : Option Str := if s.all (fun c => Json.isDigit c || c == '-' || c == '.' || c == 'e') then some s else none

example : Writes digitsNum (.arr [.null, .obj [("a".toList, .num "-1.5e3".toList), ("".toList, .bool true)]])
    "[ null , {\"a\" : -1.5e3, \"\":true} ]".toList :=
  .arr (w := " ".toList) (m := "null , {\"a\" : -1.5e3, \"\":true} ".toList) (w' := []) (by decide) (by decide)
    (.cons (m := "null ".toList) (w := " ".toList) (m' := "{\"a\" : -1.5e3, \"\":true} ".toList) (.null (w := " ".toList) (by decide)) (by decide)
      (.one (.obj (w := []) (m := "\"a\" : -1.5e3, \"\":true".toList) (w' := " ".toList) (by decide) (by decide)
        (.cons (k := ['a']) (w := " ".toList) (w' := " ".toList) (m := "-1.5e3".toList) (w'' := " ".toList) (m' := "\"\":true".toList)
          (by decide) (by decide) (by decide)
          (.num ⟨['-'], ['1'], ".5".toList, "e3".toList, by decide, by decide, by decide, by decide, .inr ⟨['5'], rfl, by decide⟩,
            .inr ⟨'e', [], ['3'], by decide, by decide, rfl, by decide, by decide⟩⟩ rfl) (by decide)
          (.one (k := []) (w := []) (w' := []) (by decide) (by decide) (by decide) (.bool true))))))

example : (Json.build digitsNum .standard asciiClass (strSource "[ null , {\"a\" : -1.5e3, \"\":true} ]".toList)).map
    (fun r => (r.1.map (Json.toText id), r.2)) = .ok (some "[null,{\"a\":-1.5e3,\"\":true}]".toList, []) := by decide +kernel

/-! Where the code does not do what C49 says. -/

def builtText (s : String) : Run (Option Str × List PErr) :=
  (Json.build digitsNum .standard asciiClass (strSource s.toList)).map (fun r => (r.1.map (Json.toText id), r.2))

/-- Blanks before the document move every offset: `true` is read as `false`. -/
theorem C49_leading_blank_witness : builtText "  true" = .ok (some "false".toList, []) := by decide +kernel

/-- Blanks after a scalar belong to it: `true` is read as `false`, a string keeps its quote, a number is an error. -/
theorem C49_trailing_blank_witness : builtText "[true ]" = .ok (some "[false]".toList, []) ∧
    builtText "[\"a\" ]" = .ok (some "[\"a\" \"]".toList, []) ∧ builtText "[1 ]" = .ok (none, []) := by decide +kernel

/-- Escapes are kept, and an escaped quote at the end of a string is cut off. -/
theorem C49_escape_witness :
    (Json.build digitsNum .standard asciiClass (strSource "\"a\\n\\\"\"".toList)).map (fun r => r.1.map (fun v => match v with
      | .str s => s
      | _ => [])) = .ok (some ['a', '\\', 'n', '\\']) := by decide +kernel

/-- A string with a quote in it is written so that it is not read back. -/
theorem C49_write_quote_witness : builtText (String.ofList (Json.toText (id : Str → Str) (.str "a\"b".toList))) =
    .ok (some "\"a\"".toList, []) := by decide +kernel

end Oaks.Props
