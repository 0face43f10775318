import Verif.Spec.Mcp
import Mathlib.Data.List.Forall2

/-! # C62, C63: the MCP server -/

namespace Oaks.Props
open Oaks Oaks.Spec

/-! ## Reading requests -/

theorem rpcField_some {k : Str} {fs : List (Str × RpcVal)} {v : RpcVal} : rpcField k fs = some (some v) ↔ Once k fs v := by
  unfold rpcField
  constructor
  · intro h
    split at h
    · cases h
    · next f hf =>
      cases h
      obtain ⟨a, b, rfl, h1, h2, h3⟩ := List.filter_eq_cons_iff.1 hf
      have hk : f.1 = k := by simpa using h2
      refine ⟨a, b, by rw [← hk], ?_, ?_⟩
      · intro x hx; simpa using h1 x hx
      · intro x hx
        have := List.filter_eq_nil_iff.1 h3 x hx
        simpa using this
    · cases h
  · rintro ⟨a, b, rfl, h1, h2⟩
    have ha : a.filter (fun f => decide (f.1 = k)) = [] := List.filter_eq_nil_iff.2 fun x hx => by simpa using h1 x hx
    have hb : b.filter (fun f => decide (f.1 = k)) = [] := List.filter_eq_nil_iff.2 fun x hx => by simpa using h2 x hx
    simp [List.filter_append, List.filter_cons, ha, hb]

theorem rpcField_none {k : Str} {fs : List (Str × RpcVal)} : rpcField k fs = some none ↔ ∀ f ∈ fs, f.1 ≠ k := by
  unfold rpcField
  constructor
  · intro h
    split at h
    · next hf => intro x hx; simpa using List.filter_eq_nil_iff.1 hf x hx
    · cases h
    · cases h
  · intro h
    have : fs.filter (fun f => decide (f.1 = k)) = [] := List.filter_eq_nil_iff.2 fun x hx => by simpa using h x hx
    rw [this]

theorem rpcOptional_iff {v : RpcVal} {q : Option RpcVal} : Param v q ↔ rpcOptional (some v) = q := by
  constructor
  · intro h
    cases h with
    | null => rfl
    | some h => cases v <;> first | rfl | exact absurd rfl h
  · rintro rfl
    cases v <;> first | exact .null | exact .some (by simp)

/-- A request is read exactly when the value is one. -/
theorem C62_request (v : RpcVal) (r : RpcRequest) : rpcRequestOf v = some r ↔ IsRequest v r := by
  constructor
  · intro h
    unfold rpcRequestOf at h
    split at h
    · next fs =>
      cases h1 : rpcField "jsonrpc".toList fs with
      | none => rw [h1] at h; cases h
      | some ver =>
      cases h2 : rpcField "id".toList fs with
      | none => rw [h1, h2] at h; cases h
      | some id =>
      cases h3 : rpcField "method".toList fs with
      | none => rw [h1, h2, h3] at h; cases h
      | some m =>
      cases h4 : rpcField "params".toList fs with
      | none => rw [h1, h2, h3, h4] at h; cases h
      | some p =>
        rw [h1, h2, h3, h4] at h
        simp only [Option.bind_eq_bind, Option.bind_some] at h
        split at h
        · cases h
          cases p with
          | none => exact .plain (rpcField_some.1 h1) (rpcField_some.1 h2) (rpcField_some.1 h3) (rpcField_none.1 h4)
          | some p =>
            exact .params (rpcField_some.1 h1) (rpcField_some.1 h2) (rpcField_some.1 h3) (rpcField_some.1 h4)
              (rpcOptional_iff.2 rfl)
        · cases h
    · cases h
      exact .row (rpcOptional_iff.2 rfl)
    · cases h
  · intro h
    cases h with
    | plain h1 h2 h3 h4 =>
      unfold rpcRequestOf
      simp only [rpcField_some.2 h1, rpcField_some.2 h2, rpcField_some.2 h3, rpcField_none.2 h4, Option.bind_eq_bind,
        Option.bind_some]
      rfl
    | params h1 h2 h3 h4 h5 =>
      unfold rpcRequestOf
      simp only [rpcField_some.2 h1, rpcField_some.2 h2, rpcField_some.2 h3, rpcField_some.2 h4, Option.bind_eq_bind,
        Option.bind_some]
      rw [rpcOptional_iff.1 h5]
    | row h5 =>
      simp only [rpcRequestOf]
      rw [rpcOptional_iff.1 h5]

/-! ## Trimming and lines -/

theorem dropWhile_append_all {α : Type} (p : α → Bool) (a b : List α) (h : ∀ x ∈ a, p x = true) :
    (a ++ b).dropWhile p = b.dropWhile p := by
  induction a with
  | nil => rfl
  | cons x a ih =>
    rw [List.cons_append, List.dropWhile_cons, if_pos (h x (List.mem_cons_self ..)),
      ih fun y hy => h y (List.mem_cons_of_mem _ hy)]

theorem dropWhile_head_false {α : Type} (p : α → Bool) (l : List α) (h : ∀ x, l.head? = some x → p x = false) :
    l.dropWhile p = l := by
  cases l with
  | nil => rfl
  | cons x l => rw [List.dropWhile_cons, if_neg (by simp [h x rfl])]

theorem dropWhile_split {α : Type} (p : α → Bool) (l : List α) :
    ∃ a, l = a ++ l.dropWhile p ∧ (∀ x ∈ a, p x = true) ∧ ∀ x, (l.dropWhile p).head? = some x → p x = false := by
  induction l with
  | nil => exact ⟨[], rfl, by simp, by simp⟩
  | cons x l ih =>
    rw [List.dropWhile_cons]
    split
    · next h =>
      obtain ⟨a, h1, h2, h3⟩ := ih
      exact ⟨x :: a, by rw [List.cons_append, ← h1], by simpa [h] using h2, h3⟩
    · next h => exact ⟨[], rfl, by simp, by simpa using h⟩

theorem uniTrim_iff (line core : Str) : TrimOf line core ↔ core = uniTrim line := by
  constructor
  · rintro ⟨a, b, rfl, ha, hb, h1, h2⟩
    unfold uniTrim
    rw [List.append_assoc, dropWhile_append_all _ _ _ ha]
    by_cases hc : core = []
    · subst hc
      have : b.dropWhile isUniWhite = [] := by
        have := dropWhile_append_all isUniWhite b [] hb
        simpa using this
      simp [this]
    · rw [dropWhile_head_false _ (core ++ b), List.reverse_append,
        dropWhile_append_all _ _ _ (fun x hx => hb x (List.mem_reverse.1 hx)), dropWhile_head_false, List.reverse_reverse]
      · intro x hx; rw [List.head?_reverse] at hx; exact h2 x hx
      · intro x hx
        rw [List.head?_append_of_ne_nil _ hc] at hx
        exact h1 x hx
  · rintro rfl
    unfold uniTrim
    obtain ⟨a, e1, h1, h2⟩ := dropWhile_split isUniWhite line
    obtain ⟨b, e2, h3, h4⟩ := dropWhile_split isUniWhite (line.dropWhile isUniWhite).reverse
    have e3 : line.dropWhile isUniWhite = ((line.dropWhile isUniWhite).reverse.dropWhile isUniWhite).reverse ++ b.reverse := by
      conv_lhs => rw [← List.reverse_reverse (line.dropWhile isUniWhite), e2, List.reverse_append]
    refine ⟨a, b.reverse, ?_, h1, fun c hc => h3 c (List.mem_reverse.1 hc), ?_, ?_⟩
    · rw [List.append_assoc, ← e3, ← e1]
    · intro c hc
      refine h2 c ?_
      rw [e3]
      cases hx : ((line.dropWhile isUniWhite).reverse.dropWhile isUniWhite).reverse with
      | nil => rw [hx] at hc; cases hc
      | cons y ys => rw [hx] at hc; exact hc
    · intro c hc
      rw [List.getLast?_reverse] at hc
      exact h4 c hc

theorem readLine_more (l s : Str) (h : '\n' ∉ l) : readLine (l ++ '\n' :: s) = (l ++ ['\n'], s) := by
  induction l with
  | nil => simp [readLine]
  | cons c l ih =>
    simp only [List.mem_cons, not_or] at h
    rw [List.cons_append, readLine, if_neg (fun e => h.1 e.symm), ih h.2]
    rfl

theorem readLine_last (l : Str) (h : '\n' ∉ l) : readLine l = (l, []) := by
  induction l with
  | nil => rfl
  | cons c l ih =>
    simp only [List.mem_cons, not_or] at h
    rw [readLine, if_neg (fun e => h.1 e.symm), ih h.2]

theorem uniTrim_newline (l : Str) : uniTrim (l ++ ['\n']) = uniTrim l := by
  obtain ⟨a, b, h1, ha, hb, h2, h3⟩ := (uniTrim_iff l (uniTrim l)).2 rfl
  refine ((uniTrim_iff _ _).1 ⟨a, b ++ ['\n'], ?_, ha, ?_, h2, h3⟩).symm
  · conv_lhs => rw [h1]
    simp
  · intro c hc
    rcases List.mem_append.1 hc with h | h
    · exact hb c h
    · rw [List.mem_singleton.1 h]; decide

theorem isLines_more_inv {l s : Str} {ls : List Str} (hl : '\n' ∉ l) (h : IsLines (l ++ '\n' :: s) ls) :
    ∃ ls', ls = l :: ls' ∧ IsLines s ls' := by
  generalize hi : l ++ '\n' :: s = input at h
  cases h with
  | nil => simp at hi
  | last _ h2 => exact absurd (by rw [← hi]; simp) h2
  | more h1 h2 =>
    have e := readLine_more l s hl
    rw [hi, readLine_more _ _ h1] at e
    simp only [Prod.mk.injEq, List.append_cancel_right_eq] at e
    obtain ⟨rfl, rfl⟩ := e
    exact ⟨_, rfl, h2⟩

/-- Every input has lines, and only one way to cut it. -/
theorem C62_lines (input : Str) : ∃ ls, IsLines input ls ∧ ∀ ls', IsLines input ls' → ls' = ls := by
  induction h : input.length using Nat.strongRecOn generalizing input with
  | ind n ih =>
    subst h
    by_cases hn : '\n' ∈ input
    · obtain ⟨l, s, rfl, hl⟩ := List.eq_append_cons_of_mem hn
      obtain ⟨ls, h1, h2⟩ := ih s.length (by simp; omega) s rfl
      refine ⟨l :: ls, .more hl h1, fun ls' h' => ?_⟩
      obtain ⟨ls'', rfl, h3⟩ := isLines_more_inv hl h'
      rw [h2 _ h3]
    · by_cases he : input = []
      · subst he
        refine ⟨[], .nil, fun ls' h' => ?_⟩
        generalize hi : ([] : Str) = i at h'
        cases h' with
        | nil => rfl
        | last h => exact absurd hi.symm h
        | more => simp at hi
      · refine ⟨[input], .last he hn, fun ls' h' => ?_⟩
        cases h' with
        | nil => exact absurd rfl he
        | last => rfl
        | more => exact absurd (by simp) hn

/-! ## C62 -/

/-- What a line holds: the request, or nothing when it is none. -/
def Holds (parse : Str → Option RpcVal) (line : Str) : Option RpcRequest → Prop
  | some r => RequestLine parse line r
  | none => ∀ r, ¬ RequestLine parse line r

theorem holds_iff (parse : Str → Option RpcVal) (line : Str) (o : Option RpcRequest) :
    Holds parse line o ↔ o = if uniTrim line = [] then none else (parse (uniTrim line)).bind rpcRequestOf := by
  have key : ∀ r, RequestLine parse line r ↔
      uniTrim line ≠ [] ∧ (parse (uniTrim line)).bind rpcRequestOf = some r := by
    intro r
    constructor
    · rintro ⟨core, v, h1, h2, h3, h4⟩
      rw [uniTrim_iff] at h1
      subst h1
      refine ⟨h2, ?_⟩
      rw [h3]
      exact (C62_request v r).2 h4
    · rintro ⟨h1, h2⟩
      obtain ⟨v, h3, h4⟩ := Option.bind_eq_some_iff.1 h2
      exact ⟨_, v, (uniTrim_iff _ _).2 rfl, h1, h3, (C62_request v r).1 h4⟩
  cases o with
  | some r =>
    simp only [Holds, key]
    split
    · next h => simp [h]
    · next h => simp [h, eq_comm]
  | none =>
    simp only [Holds, key]
    split
    · next h => simp [h]
    · next h =>
      constructor
      · intro hn
        cases ho : (parse (uniTrim line)).bind rpcRequestOf with
        | none => rfl
        | some r => exact absurd ⟨h, ho⟩ (hn r)
      · intro hn r hr
        rw [← hn] at hr
        cases hr.2

theorem mcpRequest_responds (W : McpWorld) (r : RpcRequest) : Responds r (mcpRequest W r) := by
  unfold mcpRequest
  split
  · exact ⟨rfl, rfl, .inl ⟨rfl, rfl⟩⟩
  · split
    · exact ⟨rfl, rfl, .inl ⟨rfl, rfl⟩⟩
    · split
      · simp only []
        split
        · exact ⟨rfl, rfl, .inl ⟨rfl, rfl⟩⟩
        · exact ⟨rfl, rfl, .inr ⟨rfl, rfl⟩⟩
      · exact ⟨rfl, rfl, .inr ⟨rfl, rfl⟩⟩

/-- The server runs to the end of every input. What it writes is one line per request line of the
input, in their order: the response to that request, which carries its id and either a result or an
error. Other lines (blank ones, notifications, anything else) are answered by nothing. -/
theorem C62_served (W : McpWorld) (parse : Str → Option RpcVal) (toJson : RpcResponse → Str) (input : Str)
    (ls : List Str) (hl : IsLines input ls) :
    ∃ (held : List (Option RpcRequest)) (resps : List RpcResponse), List.Forall₂ (Holds parse) ls held ∧
      List.Forall₂ Responds (held.filterMap id) resps ∧ resps = (held.filterMap id).map (mcpRequest W) ∧
      mcpRun W parse toJson input = .ok (resps.flatMap fun r => toJson r ++ ['\n']) := by
  suffices h : ∀ (fuel : Nat) (input : Str) (ls : List Str), IsLines input ls → input.length < fuel →
      ∃ (held : List (Option RpcRequest)), List.Forall₂ (Holds parse) ls held ∧
        mcpLoop W parse toJson fuel input =
          .ok (((held.filterMap id).map (mcpRequest W)).flatMap fun r => toJson r ++ ['\n']) by
    obtain ⟨held, h1, h2⟩ := h (input.length + 1) input ls hl (by omega)
    refine ⟨held, _, h1, ?_, rfl, h2⟩
    rw [List.forall₂_map_right_iff]
    exact List.forall₂_same.2 fun r _ => mcpRequest_responds W r
  intro fuel
  induction fuel with
  | zero => intro input ls _ h; omega
  | succ fuel ih =>
    intro input ls hl hf
    have step : ∀ (line rest l : Str) (ls : List Str), readLine input = (line, rest) → line ≠ [] → uniTrim line = uniTrim l →
        (∃ (held : List (Option RpcRequest)), List.Forall₂ (Holds parse) ls held ∧
          mcpLoop W parse toJson fuel rest =
            .ok (((held.filterMap id).map (mcpRequest W)).flatMap fun r => toJson r ++ ['\n'])) →
        ∃ (held : List (Option RpcRequest)), List.Forall₂ (Holds parse) (l :: ls) held ∧
          mcpLoop W parse toJson (fuel + 1) input =
            .ok (((held.filterMap id).map (mcpRequest W)).flatMap fun r => toJson r ++ ['\n']) := by
      rintro line rest l ls h1 h2 h3 ⟨held, h4, h5⟩
      rw [mcpLoop, h1]
      simp only [if_neg h2, h3]
      by_cases ht : uniTrim l = []
      · rw [if_pos ht]
        exact ⟨none :: held, .cons ((holds_iff _ _ _).2 (by rw [if_pos ht])) h4, h5⟩
      · rw [if_neg ht]
        cases ho : (parse (uniTrim l)).bind rpcRequestOf with
        | none => exact ⟨none :: held, .cons ((holds_iff _ _ _).2 (by rw [if_neg ht, ho])) h4, h5⟩
        | some r =>
          refine ⟨some r :: held, .cons ((holds_iff _ _ _).2 (by rw [if_neg ht, ho])) h4, ?_⟩
          simp only [h5]
          rfl
    cases hl with
    | nil => exact ⟨[], .nil, by simp [mcpLoop, readLine]⟩
    | last h1 h2 =>
      refine step _ _ _ _ (readLine_last _ h2) h1 rfl (ih [] [] .nil ?_)
      cases input with
      | nil => exact absurd rfl h1
      | cons => simp at hf ⊢; omega
    | more h1 h2 =>
      refine step _ _ _ _ (readLine_more _ _ h1) (by simp) (uniTrim_newline _) (ih _ _ h2 ?_)
      simp at hf
      omega

/-- A method the server does not know is answered by the error `-32601`; `initialize` and `tools/list` by results. -/
theorem C62_methods (W : McpWorld) (r : RpcRequest) :
    (r.method ∉ ["initialize".toList, "tools/list".toList, "tools/call".toList] ↔
      ((mcpRequest W r).error.map (·.1)) = some (-32601)) ∧
    (r.method = "initialize".toList ∨ r.method = "tools/list".toList → (mcpRequest W r).result.isSome) := by
  unfold mcpRequest
  by_cases h1 : r.method = "initialize".toList
  · simp [h1]
  · by_cases h2 : r.method = "tools/list".toList
    · simp [h2]
    · by_cases h3 : r.method = "tools/call".toList
      · rw [if_neg h1, if_neg h2, if_pos h3]
        simp only []
        split <;> simp [h1, h2, h3]
      · rw [if_neg h1, if_neg h2, if_neg h3]
        exact ⟨⟨fun _ => rfl, fun _ => by simp only [List.mem_cons, List.not_mem_nil, or_false, not_or]; exact ⟨h1, h2, h3⟩⟩,
          fun h => absurd h (not_or.2 ⟨h1, h2⟩)⟩

/-! ## C63 -/

theorem get_iff (args : RpcVal) (k : Str) (v : RpcVal) : args.get k = some v ↔ Arg args k v := by
  constructor
  · intro h
    cases args with
    | obj fs =>
      simp only [RpcVal.get, Option.map_eq_some_iff] at h
      obtain ⟨f, hf, rfl⟩ := h
      rw [List.find?_eq_some_iff_append] at hf
      obtain ⟨h1, a, b, h2, h3⟩ := hf
      have hk : f.1 = k := by simpa using h1
      refine ⟨b.reverse, a.reverse, ?_, ?_⟩
      · rw [show fs = (a ++ f :: b).reverse by rw [← h2, List.reverse_reverse], ← hk]
        simp
      · intro x hx
        have := h3 x (List.mem_reverse.1 hx)
        simpa using this
    | _ => cases h
  · rintro ⟨a, b, rfl, h⟩
    simp only [RpcVal.get, Option.map_eq_some_iff]
    refine ⟨(k, v), ?_, rfl⟩
    rw [List.find?_eq_some_iff_append]
    refine ⟨by simp, b.reverse, a.reverse, by simp, fun x hx => ?_⟩
    have := h x (List.mem_reverse.1 hx)
    simpa using this

theorem mcpUri_arg {args : RpcVal} {u : Str} (h : Arg args "uri".toList (.str u)) : mcpUri args = .ok u := by
  unfold mcpUri
  rw [(get_iff _ _ _).2 h]
  rfl

theorem mcpOffset_arg {args : RpcVal} {n : Nat} (h : Arg args "offset".toList (.uint n)) : mcpOffset args = .ok n := by
  unfold mcpOffset
  rw [(get_iff _ _ _).2 h]
  rfl

theorem calls_response {W : McpWorld} {r : RpcRequest} {name : Str} {args : RpcVal} (h : Calls r name args) :
    mcpRequest W r = match mcpTool W name args with
      | .ok v => ⟨"2.0".toList, r.id, some (mcpContent (W.show_ v)), none⟩
      | .error e => ⟨"2.0".toList, r.id, none, some (-32000, e)⟩ := by
  obtain ⟨h1, p, h2, h3, h4⟩ := h
  unfold mcpRequest
  rw [if_neg (by rw [h1]; decide), if_neg (by rw [h1]; decide), if_pos h1, h2]
  simp only [Option.getD_some, (get_iff _ _ _).2 h3, (get_iff _ _ _).2 h4]
  rfl

/-- The tools that answer from what they are built on: `hover` gives the contents at the place, the
empty text when there are none; `semantic_search` gives the searcher's results, five of them unless told
otherwise, or its error. Missing for the full property: the other listed tools
(`C63_empty_witness`, `C63_unknown_witness`). -/
theorem C63_tools_partial (W : McpWorld) (r : RpcRequest) (args : RpcVal) :
    (∀ u n, Calls r "hover".toList args → Arg args "uri".toList (.str u) → Arg args "offset".toList (.uint n) →
      (mcpRequest W r).result = some (mcpContent (W.show_ (.str ((W.hover u n).getD []))))) ∧
    (∀ search q n, W.search = some search → Calls r "semantic_search".toList args → Arg args "query".toList (.str q) →
      (Arg args "limit".toList (.uint n) ∨ n = 5 ∧ ∀ v, ¬ Arg args "limit".toList v) →
      (∀ v, search q n = .ok v → (mcpRequest W r).result = some (mcpContent (W.show_ v))) ∧
      (∀ e, search q n = .error e → (mcpRequest W r).error = some (-32000, e))) := by
  constructor
  · intro u n h hu hn
    rw [calls_response h]
    unfold mcpTool
    rw [if_pos rfl, mcpUri_arg hu, mcpOffset_arg hn]
    rfl
  · intro search q n hs h hq hn
    rw [calls_response h]
    unfold mcpTool
    rw [if_neg (by decide), if_neg (by decide), if_neg (by decide), if_neg (by decide), if_neg (by decide),
      if_neg (by decide), if_pos rfl, hs, (get_iff _ _ _).2 hq]
    have hl : ((args.get "limit".toList).bind RpcVal.asU64).getD 5 = n := by
      rcases hn with hn | ⟨rfl, hn⟩
      · rw [(get_iff _ _ _).2 hn]; rfl
      · cases hg : args.get "limit".toList with
        | none => rfl
        | some v => exact absurd ((get_iff _ _ _).1 hg) (hn v)
    simp only [Option.bind_some, RpcVal.asStr, hl]
    constructor
    · intro v hv; rw [hv]
    · intro e he; rw [he]

/-- Counterexample to the full property: whatever the service finds, five tools answer the empty list. -/
theorem C63_empty_witness (W : McpWorld) (r : RpcRequest) (name : Str) (args : RpcVal) (u : Str) (n : Nat)
    (hn : name ∈ ["symbols".toList, "definition".toList, "references".toList, "diagnostics".toList, "completion".toList])
    (h : Calls r name args) (hu : Arg args "uri".toList (.str u)) (ho : Arg args "offset".toList (.uint n)) :
    (mcpRequest W r).result = some (mcpContent (W.show_ (.arr []))) := by
  rw [calls_response h]
  unfold mcpTool
  rw [mcpUri_arg hu, mcpOffset_arg ho]
  simp only [List.mem_cons, List.not_mem_nil, or_false] at hn
  rcases hn with rfl | rfl | rfl | rfl | rfl <;> rfl

/-- Counterexample to the full property: two of the tools that `tools/list` announces are unknown when called,
whatever their arguments. -/
theorem C63_unknown_witness (W : McpWorld) (r : RpcRequest) (name : Str) (args : RpcVal)
    (hn : name ∈ ["set_file_content".toList, "search".toList]) (h : Calls r name args) :
    name ∈ mcpListed.map (·.1) ∧ (mcpRequest W r).error = some (-32000, "Unknown tool: ".toList ++ name) := by
  rw [calls_response h]
  simp only [List.mem_cons, List.not_mem_nil, or_false] at hn
  rcases hn with rfl | rfl
  · exact ⟨by decide +kernel, rfl⟩
  · exact ⟨by decide +kernel, rfl⟩

/-- Every other announced tool can be called: with the arguments it requires, and a searcher that
finds something, it gives a result. -/
theorem C63_listed_partial (W : McpWorld) (r : RpcRequest) (name : Str) (args : RpcVal) (req : List Str) (u q : Str) (n : Nat)
    (hl : (name, req) ∈ mcpListed) (hk : name ≠ "set_file_content".toList) (hk' : name ≠ "search".toList)
    (h : Calls r name args) (hu : "uri".toList ∈ req → Arg args "uri".toList (.str u))
    (ho : "offset".toList ∈ req → Arg args "offset".toList (.uint n))
    (hq : "query".toList ∈ req → Arg args "query".toList (.str q))
    (search : Str → Nat → Except Str RpcVal) (hs : W.search = some search) (hf : ∀ q n, ∃ v, search q n = .ok v) :
    (mcpRequest W r).result.isSome := by
  rw [calls_response h]
  simp only [mcpListed, List.mem_cons, List.not_mem_nil, or_false, Prod.mk.injEq] at hl
  unfold mcpTool
  rcases hl with ⟨rfl, rfl⟩ | ⟨rfl, rfl⟩ | ⟨rfl, rfl⟩ | ⟨rfl, rfl⟩ | ⟨rfl, rfl⟩ | ⟨rfl, rfl⟩ | ⟨rfl, rfl⟩ | ⟨rfl, rfl⟩ | ⟨rfl, rfl⟩
  · rw [mcpUri_arg (hu (by decide)), mcpOffset_arg (ho (by decide))]; rfl
  · rw [mcpUri_arg (hu (by decide))]; rfl
  · rw [mcpUri_arg (hu (by decide)), mcpOffset_arg (ho (by decide))]; rfl
  · rw [mcpUri_arg (hu (by decide)), mcpOffset_arg (ho (by decide))]; rfl
  · rw [mcpUri_arg (hu (by decide))]; rfl
  · rw [mcpUri_arg (hu (by decide)), mcpOffset_arg (ho (by decide))]; rfl
  · exact absurd rfl hk
  · exact absurd rfl hk'
  · rw [if_neg (by decide), if_neg (by decide), if_neg (by decide), if_neg (by decide), if_neg (by decide),
      if_neg (by decide), if_pos rfl, hs, (get_iff _ _ _).2 (hq (by decide))]
    simp only [Option.bind_some, RpcVal.asStr]
    obtain ⟨v, hv⟩ := hf q (((args.get "limit".toList).bind RpcVal.asU64).getD 5)
    rw [hv]
    rfl

theorem mcpUri_missing {args : RpcVal} (h : ∀ u, ¬ Arg args "uri".toList (.str u)) : mcpUri args = .error "Missing uri".toList := by
  unfold mcpUri
  cases hg : args.get "uri".toList with
  | none => rfl
  | some v =>
    cases v with
    | str u => exact absurd ((get_iff _ _ _).1 hg) (h u)
    | _ => rfl

theorem mcpOffset_missing {args : RpcVal} (h : ∀ n, ¬ Arg args "offset".toList (.uint n)) : ∃ e, mcpOffset args = .error e := by
  unfold mcpOffset
  cases hg : args.get "offset".toList with
  | none => exact ⟨_, rfl⟩
  | some v =>
    cases v with
    | uint u => exact absurd ((get_iff _ _ _).1 hg) (h u)
    | _ => exact ⟨_, rfl⟩

/-- An announced tool called without an argument it requires, or with one of the wrong kind, answers with an error. -/
theorem C63_missing (W : McpWorld) (r : RpcRequest) (name : Str) (args : RpcVal) (req : List Str) (hl : (name, req) ∈ mcpListed)
    (h : Calls r name args)
    (hm : ("uri".toList ∈ req ∧ ∀ u, ¬ Arg args "uri".toList (.str u)) ∨
      ("offset".toList ∈ req ∧ ∀ n, ¬ Arg args "offset".toList (.uint n)) ∨
      ("query".toList ∈ req ∧ ∀ q, ¬ Arg args "query".toList (.str q))) :
    (mcpRequest W r).result = none ∧ ∃ e, (mcpRequest W r).error = some (-32000, e) := by
  have key : ∃ e, mcpTool W name args = .error e := by
    have two : ("uri".toList ∈ ["uri".toList, "offset".toList] ∧ ∀ u, ¬ Arg args "uri".toList (.str u)) ∨
        ("offset".toList ∈ ["uri".toList, "offset".toList] ∧ ∀ n, ¬ Arg args "offset".toList (.uint n)) ∨
        ("query".toList ∈ ["uri".toList, "offset".toList] ∧ ∀ q, ¬ Arg args "query".toList (.str q)) →
        ∀ f : Str → Nat → RpcVal, ∃ e, (do let uri ← mcpUri args; let offset ← mcpOffset args; return f uri offset : Except Str RpcVal) = .error e := by
      intro hm f
      rcases hm with ⟨_, hm⟩ | ⟨_, hm⟩ | ⟨hm, _⟩
      · rw [mcpUri_missing hm]; exact ⟨_, rfl⟩
      · obtain ⟨e, he⟩ := mcpOffset_missing hm
        rw [he]
        cases mcpUri args <;> exact ⟨_, rfl⟩
      · exact absurd hm (by decide)
    have one : ("uri".toList ∈ ["uri".toList] ∧ ∀ u, ¬ Arg args "uri".toList (.str u)) ∨
        ("offset".toList ∈ ["uri".toList] ∧ ∀ n, ¬ Arg args "offset".toList (.uint n)) ∨
        ("query".toList ∈ ["uri".toList] ∧ ∀ q, ¬ Arg args "query".toList (.str q)) →
        mcpUri args = .error "Missing uri".toList := by
      intro hm
      rcases hm with ⟨_, hm⟩ | ⟨hm, _⟩ | ⟨hm, _⟩
      · exact mcpUri_missing hm
      · exact absurd hm (by decide)
      · exact absurd hm (by decide)
    simp only [mcpListed, List.mem_cons, List.not_mem_nil, or_false, Prod.mk.injEq] at hl
    unfold mcpTool
    rcases hl with ⟨rfl, rfl⟩ | ⟨rfl, rfl⟩ | ⟨rfl, rfl⟩ | ⟨rfl, rfl⟩ | ⟨rfl, rfl⟩ | ⟨rfl, rfl⟩ | ⟨rfl, rfl⟩ | ⟨rfl, rfl⟩ | ⟨rfl, rfl⟩
    · exact two hm fun uri offset => .str ((W.hover uri offset).getD [])
    · rw [one hm]; exact ⟨_, rfl⟩
    · exact two hm fun _ _ => .arr []
    · exact two hm fun _ _ => .arr []
    · rw [one hm]; exact ⟨_, rfl⟩
    · exact two hm fun _ _ => .arr []
    · exact ⟨_, rfl⟩
    · exact ⟨_, rfl⟩
    · rw [if_neg (by decide), if_neg (by decide), if_neg (by decide), if_neg (by decide), if_neg (by decide),
        if_neg (by decide), if_pos rfl]
      cases W.search with
      | none => exact ⟨_, rfl⟩
      | some search =>
        rcases hm with ⟨hm, _⟩ | ⟨hm, _⟩ | ⟨_, hm⟩
        · exact absurd hm (by decide)
        · exact absurd hm (by decide)
        · cases hg : args.get "query".toList with
          | none => exact ⟨_, rfl⟩
          | some v =>
            cases v with
            | str u => exact absurd ((get_iff _ _ _).1 hg) (hm u)
            | _ => exact ⟨_, rfl⟩
  obtain ⟨e, he⟩ := key
  rw [calls_response h, he]
  exact ⟨rfl, e, rfl⟩

/-! ## Cases -/

/-- A server for the cases below: hovering anywhere shows `t`. -/
def demoMcp : McpWorld where
  hover _ _ := some "t".toList
  symbols _ := [.null]
  definition _ _ := [.null]
  references _ _ := []
  diagnostics _ := []
  completion _ _ := []
  search := none
  show_ v := match v with | .str s => s | _ => []
  tools := .arr []

/-- `hover` without an offset. -/
example : ∃ e, (mcpRequest demoMcp ⟨"2.0".toList, .null, "tools/call".toList, some (.obj
    [("name".toList, .str "hover".toList), ("arguments".toList, .obj [("uri".toList, .str [])])])⟩).error = some (-32000, e) := by
  refine (C63_missing demoMcp _ "hover".toList (.obj [("uri".toList, .str [])]) ["uri".toList, "offset".toList] (by simp [mcpListed])
    ⟨rfl, _, rfl, ⟨[], [_], rfl, by decide⟩, ⟨[_], [], rfl, by decide⟩⟩ (.inr (.inl ⟨by decide, ?_⟩))).2
  intro n h
  have := (get_iff _ _ _).2 h
  revert this
  rintro ⟨⟩

/-- A reader that knows four lines. -/
def demoParse (s : Str) : Option RpcVal :=
  let ver := ("jsonrpc".toList, RpcVal.str "1.0".toList)
  if s = "hover".toList then
    some (.obj [ver, ("id".toList, .uint 7), ("method".toList, .str "tools/call".toList), ("params".toList, .obj
      [("name".toList, .str "hover".toList), ("arguments".toList, .obj [("uri".toList, .str []), ("offset".toList, .uint 1)])])])
  else if s = "note".toList then some (.obj [ver, ("method".toList, .str "initialized".toList)])
  else if s = "x".toList then some (.obj [("method".toList, .str "x".toList), ("id".toList, .null), ver])
  else none

/-- A writer that shows id and error code. -/
def demoShow (r : RpcResponse) : Str :=
  (match r.id with | .uint n => (toString n).toList | _ => "null".toList) ++
    match r.error with | some (c, _) => (toString c).toList | none => "ok".toList

/-- Requests among a blank line, a notification and garbage; the version is not looked at. -/
example : mcpRun demoMcp demoParse demoShow " hover\r\n\n note\n{\nx".toList = .ok "7ok\nnull-32601\n".toList := by
  rfl

end Oaks.Props
