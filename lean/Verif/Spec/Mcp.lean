import Verif.Model.Mcp

/-
JSON-RPC over lines: what a request line is, and what answers it.
-/
namespace Oaks.Spec
open Oaks

/-- `ls` are the lines of the input, the last one with or without a newline. -/
inductive IsLines : Str → List Str → Prop where
  | nil : IsLines [] []
  | last {l} : l ≠ [] → '\n' ∉ l → IsLines l [l]
  | more {l s ls} : '\n' ∉ l → IsLines s ls → IsLines (l ++ '\n' :: s) (l :: ls)

/-- `core` is `line` without white space around it. -/
def TrimOf (line core : Str) : Prop :=
  ∃ a b, line = a ++ core ++ b ∧ (∀ c ∈ a, isUniWhite c = true) ∧ (∀ c ∈ b, isUniWhite c = true) ∧
    (∀ c, core.head? = some c → isUniWhite c = false) ∧ (∀ c, core.getLast? = some c → isUniWhite c = false)

/-- The field `k` is written once, with the value `v`. -/
def Once (k : Str) (fs : List (Str × RpcVal)) (v : RpcVal) : Prop :=
  ∃ a b, fs = a ++ (k, v) :: b ∧ (∀ f ∈ a, f.1 ≠ k) ∧ ∀ f ∈ b, f.1 ≠ k

/-- A parameter as sent, and as received. -/
inductive Param : RpcVal → Option RpcVal → Prop where
  | null : Param .null none
  | some {v} : v ≠ .null → Param v (some v)

/-- `v` is a request: an object with the fields `jsonrpc`, `id`, `method` once each and `params` at most
once; or the row of their values. -/
inductive IsRequest : RpcVal → RpcRequest → Prop where
  | plain {fs ver id m} : Once "jsonrpc".toList fs (.str ver) → Once "id".toList fs id → Once "method".toList fs (.str m) →
      (∀ f ∈ fs, f.1 ≠ "params".toList) → IsRequest (.obj fs) ⟨ver, id, m, none⟩
  | params {fs ver id m p q} : Once "jsonrpc".toList fs (.str ver) → Once "id".toList fs id →
      Once "method".toList fs (.str m) → Once "params".toList fs p → Param p q → IsRequest (.obj fs) ⟨ver, id, m, q⟩
  | row {ver id m p q} : Param p q → IsRequest (.arr [.str ver, id, .str m, p]) ⟨ver, id, m, q⟩

/-- The line holds the request `r`. -/
def RequestLine (parse : Str → Option RpcVal) (line : Str) (r : RpcRequest) : Prop :=
  ∃ core v, TrimOf line core ∧ core ≠ [] ∧ parse core = some v ∧ IsRequest v r

/-- The field `k` of the arguments is `v`: the last one of that name. -/
def Arg (args : RpcVal) (k : Str) (v : RpcVal) : Prop :=
  ∃ a b, args = .obj (a ++ (k, v) :: b) ∧ ∀ f ∈ b, f.1 ≠ k

/-- The name and the arguments of a tool call, as far as they are given. -/
def Calls (r : RpcRequest) (name : Str) (args : RpcVal) : Prop :=
  r.method = "tools/call".toList ∧ ∃ p, r.params = some p ∧ Arg p "name".toList (.str name) ∧
    Arg p "arguments".toList args

/-- The response carries the id of the request, the version, and a result or an error, not both. -/
def Responds (r : RpcRequest) (resp : RpcResponse) : Prop :=
  resp.id = r.id ∧ resp.jsonrpc = "2.0".toList ∧
    ((resp.result.isSome ∧ resp.error = none) ∨ (resp.result = none ∧ resp.error.isSome))

end Oaks.Spec
