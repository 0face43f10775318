import Verif.Base.Run
import Verif.Base.Str

/-
Model of the MCP server (`projects/oak-mcp/src/lib.rs`, `projects/oak-mcp/src/tools.json`).

Simplifications: the JSON reader and writer of `serde_json` are parameters; `derive(Deserialize)` is
modelled on the value read (a field given twice is an error, unknown fields are ignored, a row of all the
fields in order is accepted too); input that is not UTF-8 and failing streams are left out; the language
service and the searcher are functions that do not change between calls.
-/
namespace Oaks

/-- `serde_json::Value` (external; oak-mcp/src/lib.rs:12); an object keeps its fields as written, numbers other than `u64` by
their text. -/
inductive RpcVal where
  | null
  | bool (b : Bool)
  | uint (n : Nat)
  | num (s : Str)
  | str (s : Str)
  | arr (vs : List RpcVal)
  | obj (fields : List (Str × RpcVal))

/-- `Value::get` with a string (external; oak-mcp/src/lib.rs:184): of a field written twice the last one counts. -/
def RpcVal.get (k : Str) : RpcVal → Option RpcVal
  | .obj fs => (fs.reverse.find? fun f => decide (f.1 = k)).map (·.2)
  | _ => none

/-- `Value::as_str` (external; oak-mcp/src/lib.rs:184). -/
def RpcVal.asStr : RpcVal → Option Str
  | .str s => some s
  | _ => none

/-- `Value::as_u64` (external; oak-mcp/src/lib.rs:223). -/
def RpcVal.asU64 : RpcVal → Option Nat
  | .uint n => some n
  | _ => none

/-- `JsonRpcRequest` (oak-mcp/src/lib.rs:20-29). -/
structure RpcRequest where
  jsonrpc : Str
  id : RpcVal
  method : Str
  params : Option RpcVal

/-- A field of a derived `Deserialize` (oak-mcp/src/lib.rs:19-29): `none` when it is written twice, else
what is written. -/
def rpcField (k : Str) (fs : List (Str × RpcVal)) : Option (Option RpcVal) :=
  match fs.filter fun f => decide (f.1 = k) with
  | [] => some none
  | [f] => some (some f.2)
  | _ => none

/-- An optional field read (oak-mcp/src/lib.rs:28): `null` is nothing. -/
def rpcOptional : Option RpcVal → Option RpcVal
  | none => none
  | some .null => none
  | some v => some v

/-- `JsonRpcRequest::from_json` (oak-mcp/src/lib.rs:31-36) on the value read. -/
def rpcRequestOf : RpcVal → Option RpcRequest
  | .obj fs => do
    let version ← rpcField "jsonrpc".toList fs
    let id ← rpcField "id".toList fs
    let method ← rpcField "method".toList fs
    let params ← rpcField "params".toList fs
    match version, id, method with
    | some (.str v), some id, some (.str m) => some ⟨v, id, m, rpcOptional params⟩
    | _, _, _ => none
  | .arr [.str v, id, .str m, params] => some ⟨v, id, m, rpcOptional (some params)⟩
  | _ => none

/-- `JsonRpcResponse` (oak-mcp/src/lib.rs:39-51) and `JsonRpcError` (60-70, `data` is always `None`). -/
structure RpcResponse where
  jsonrpc : Str
  id : RpcVal
  result : Option RpcVal
  error : Option (Int × Str)

/-- What the server is built on (oak-mcp/src/lib.rs:90-96): the language service (as the values it would
be sent as) and the searcher. -/
structure McpWorld where
  /-- the contents of `hover` -/
  hover : Str → Nat → Option Str
  symbols : Str → List RpcVal
  definition : Str → Nat → List RpcVal
  references : Str → Nat → List RpcVal
  diagnostics : Str → List RpcVal
  completion : Str → Nat → List RpcVal
  search : Option (Str → Nat → Except Str RpcVal)
  /-- `Value::to_string` -/
  show_ : RpcVal → Str
  /-- the contents of tools.json -/
  tools : RpcVal

/-- `args.get("uri").and_then(|v| v.as_str()).ok_or("Missing uri")` (oak-mcp/src/lib.rs:222, 229, 236, 243, 250, 255). -/
def mcpUri (args : RpcVal) : Except Str Str :=
  match (args.get "uri".toList).bind RpcVal.asStr with
  | some u => .ok u
  | none => .error "Missing uri".toList

/-- `args.get("offset").and_then(|v| v.as_u64()).ok_or("Missing offset")` (oak-mcp/src/lib.rs:223, 237, 244, 256); `usize`
has 64 bits. -/
def mcpOffset (args : RpcVal) : Except Str Nat :=
  match (args.get "offset".toList).bind RpcVal.asU64 with
  | some u => .ok u
  | none => .error "Missing offset".toList

/-- `handle_tool_call` (oak-mcp/src/lib.rs:219-270). -/
def mcpTool (W : McpWorld) (name : Str) (args : RpcVal) : Except Str RpcVal :=
  if name = "hover".toList then do
    let uri ← mcpUri args
    let offset ← mcpOffset args
    return .str ((W.hover uri offset).getD [])
  else if name = "symbols".toList then do
    let uri ← mcpUri args
    let _symbols := W.symbols uri
    return .arr []
  else if name = "definition".toList then do
    let uri ← mcpUri args
    let offset ← mcpOffset args
    let _locs := W.definition uri offset
    return .arr []
  else if name = "references".toList then do
    let uri ← mcpUri args
    let offset ← mcpOffset args
    let _locs := W.references uri offset
    return .arr []
  else if name = "diagnostics".toList then do
    let uri ← mcpUri args
    let _diagnostics := W.diagnostics uri
    return .arr []
  else if name = "completion".toList then do
    let uri ← mcpUri args
    let offset ← mcpOffset args
    let _items := W.completion uri offset
    return .arr []
  else if name = "semantic_search".toList then
    match W.search with
    | none => .error "Semantic search is not enabled".toList
    | some search =>
      match (args.get "query".toList).bind RpcVal.asStr with
      | none => .error "Missing query".toList
      | some q => search q (((args.get "limit".toList).bind RpcVal.asU64).getD 5)
  else .error ("Unknown tool: ".toList ++ name)

/-- The answer to `initialize` (oak-mcp/src/lib.rs:154-165). -/
def mcpHello : RpcVal :=
  .obj [("protocolVersion".toList, .str "2024-11-05".toList),
    ("capabilities".toList, .obj [("tools".toList, .obj [("listChanged".toList, .bool false)])]),
    ("serverInfo".toList, .obj [("name".toList, .str "oak-mcp".toList), ("version".toList, .str "0.0.1".toList)])]

/-- The wrapped result of a tool (oak-mcp/src/lib.rs:191-198). -/
def mcpContent (text : Str) : RpcVal :=
  .obj [("content".toList, .arr [.obj [("type".toList, .str "text".toList), ("text".toList, .str text)]])]

/-- `handle_request` (oak-mcp/src/lib.rs:149-206). -/
def mcpRequest (W : McpWorld) (r : RpcRequest) : RpcResponse :=
  if r.method = "initialize".toList then ⟨"2.0".toList, r.id, some mcpHello, none⟩
  else if r.method = "tools/list".toList then ⟨"2.0".toList, r.id, some (.obj [("tools".toList, W.tools)]), none⟩
  else if r.method = "tools/call".toList then
    let params := r.params.getD .null
    let name := ((params.get "name".toList).bind RpcVal.asStr).getD []
    let args := (params.get "arguments".toList).getD .null
    match mcpTool W name args with
    | .ok v => ⟨"2.0".toList, r.id, some (mcpContent (W.show_ v)), none⟩
    | .error e => ⟨"2.0".toList, r.id, none, some (-32000, e)⟩
  else ⟨"2.0".toList, r.id, none, some (-32601, "Method not found: ".toList ++ r.method)⟩

/-- `char::is_whitespace` (standard library; used through `trim`, oak-mcp/src/lib.rs:126). -/
def isUniWhite (c : Char) : Bool :=
  let n := c.toNat
  (9 ≤ n && n ≤ 13) || n == 32 || n == 0x85 || n == 0xa0 || n == 0x1680 || (0x2000 ≤ n && n ≤ 0x200a) ||
    n == 0x2028 || n == 0x2029 || n == 0x202f || n == 0x205f || n == 0x3000

/-- `str::trim` (standard library; oak-mcp/src/lib.rs:126). -/
def uniTrim (s : Str) : Str := ((s.dropWhile isUniWhite).reverse.dropWhile isUniWhite).reverse

/-- `read_line` (tokio; oak-mcp/src/lib.rs:125): up to and with the next newline, and the rest. -/
def readLine : Str → Str × Str
  | [] => ([], [])
  | c :: s => if c = '\n' then ([c], s) else (c :: (readLine s).1, (readLine s).2)

/-- The loop of `run` (oak-mcp/src/lib.rs:125-144): the input not yet read, fuel for the lines; what is
written. A line that is not a request is dropped: `handle_notification` (209-211) does nothing. -/
def mcpLoop (W : McpWorld) (parse : Str → Option RpcVal) (toJson : RpcResponse → Str) : Nat → Str → Run Str
  | 0, _ => .error .spin
  | fuel + 1, input =>
    if (readLine input).1 = [] then .ok []
    else if uniTrim (readLine input).1 = [] then mcpLoop W parse toJson fuel (readLine input).2
    else
      match (parse (uniTrim (readLine input).1)).bind rpcRequestOf with
      | some r => do
        let rest ← mcpLoop W parse toJson fuel (readLine input).2
        return toJson (mcpRequest W r) ++ ['\n'] ++ rest
      | none => mcpLoop W parse toJson fuel (readLine input).2

/-- `run` (oak-mcp/src/lib.rs:117-147) on the whole input. -/
def mcpRun (W : McpWorld) (parse : Str → Option RpcVal) (toJson : RpcResponse → Str) (input : Str) : Run Str :=
  mcpLoop W parse toJson (input.length + 1) input

/-- The names in tools.json (oak-mcp/src/tools.json:3, 24, 40, 61, 82, 98, 119, 140, 161) with the arguments each requires. -/
def mcpListed : List (Str × List Str) :=
  [("hover".toList, ["uri".toList, "offset".toList]), ("symbols".toList, ["uri".toList]),
    ("definition".toList, ["uri".toList, "offset".toList]), ("references".toList, ["uri".toList, "offset".toList]),
    ("diagnostics".toList, ["uri".toList]), ("completion".toList, ["uri".toList, "offset".toList]),
    ("set_file_content".toList, ["uri".toList, "content".toList]), ("search".toList, ["query".toList]),
    ("semantic_search".toList, ["query".toList])]

end Oaks
