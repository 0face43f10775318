import Verif.Proofs.JsonParse
import Verif.Proofs.Diagnostic

/-! What the JSON builder makes of a text a value is written as. -/
namespace Oaks
open Spec Json

/-! ### Texts and tokens -/

/-- The trivia of blanks. -/
def blanksKl (w : Str) : List (Nat × Nat) := if w = [] then [] else [(whitespace, blen w)]

/-- The text `m` is the tokens `gs` whenever it is followed by a text that is `F`. -/
def Laid (cfg : JsonCfg) (cc : CharClass) (F : Str → Prop) (m : Str) (gs : List Group) : Prop :=
  Grouped ign gs ∧ ∃ ps : List (Option Nat × Str), (∀ p ∈ ps, p.1.isSome) ∧ ps.map pieceKl = flat gs ∧
    ∀ r qs, F r → Cut (JsonToken cfg cc) r qs → Cut (JsonToken cfg cc) (m ++ r) (ps ++ qs)

def Visible (cc : CharClass) (r : Str) : Prop := ∀ c, r.head? = some c → cc.ws c = false

/-- What may follow a value. -/
def Follow (r : Str) : Prop := ∀ c, r.head? = some c → c = ',' ∨ c = ']' ∨ c = '}'

section
variable {cfg : JsonCfg} {cc : CharClass}

theorem Follow.visible (hcc : SoundClasses cc) {r : Str} (h : Follow r) : Visible cc r := by
  intro c hc
  refine hcc.visible c ?_
  rcases h c hc with rfl | rfl | rfl <;> decide

theorem Laid.nil (F : Str → Prop) : Laid cfg cc F [] [] :=
  ⟨by simp [Grouped], [], by simp, rfl, fun _ _ _ h => h⟩

theorem Laid.append {F F' : Str → Prop} {m m' : Str} {gs gs' : List Group} (h : Laid cfg cc F m gs) (h' : Laid cfg cc F' m' gs')
    (hF : ∀ r, F' r → F (m' ++ r)) : Laid cfg cc F' (m ++ m') (gs ++ gs') := by
  obtain ⟨h0, ps, h1, h2, h3⟩ := h
  obtain ⟨h0', ps', h1', h2', h3'⟩ := h'
  refine ⟨?_, ps ++ ps', ?_, by rw [List.map_append, h2, h2', flat_append], ?_⟩
  · intro g hg
    rcases List.mem_append.mp hg with hg | hg
    · exact h0 g hg
    · exact h0' g hg
  · intro p hp
    rcases List.mem_append.mp hp with hp | hp
    · exact h1 p hp
    · exact h1' p hp
  · intro r qs hr hq
    rw [List.append_assoc, List.append_assoc]
    exact h3 _ _ (hF r hr) (h3' r qs hr hq)

theorem Laid.mono {F F' : Str → Prop} {m : Str} {gs : List Group} (h : Laid cfg cc F m gs) (hF : ∀ r, F' r → F r) :
    Laid cfg cc F' m gs := by
  obtain ⟨h0, ps, h1, h2, h3⟩ := h
  exact ⟨h0, ps, h1, h2, fun r qs hr => h3 r qs (hF r hr)⟩

/-- A token and the blanks after it. -/
theorem Laid.token (hcc : SoundClasses cc) {F : Str → Prop} {k : Nat} {m w : Str} (hm : m ≠ []) (hk : ign k = false) (hw : Spaces w)
    (ht : ∀ r, F r → JsonToken cfg cc (some k) m (w ++ r)) (hF : ∀ r, F r → Visible cc r) :
    Laid cfg cc F (m ++ w) [((k, blen m), blanksKl w)] := by
  have htri : ∀ t ∈ blanksKl w, ign t.1 = true := by
    intro t h
    unfold blanksKl at h
    split at h
    · simp at h
    · simp at h; rw [h]; rfl
  refine ⟨by intro g hg; simp at hg; rw [hg]; exact ⟨hk, htri⟩, (some k, m) :: (if w = [] then [] else [(some whitespace, w)]), ?_, ?_, ?_⟩
  · intro p hp
    split at hp <;> simp at hp
    · rw [hp]; rfl
    · rcases hp with rfl | rfl <;> rfl
  · unfold blanksKl
    split <;> simp [pieceKl, flat]
  · intro r qs hr hq
    rw [List.append_assoc, List.cons_append]
    refine .cons hm (ht r hr) ?_
    split
    · rename_i h; rw [h]; exact hq
    · rename_i h
      refine .cons h ?_ hq
      obtain ⟨c, s, rfl⟩ := List.exists_cons_of_ne_nil h
      refine ⟨c, s, rfl, ?_⟩
      have : firstRule cfg cc c = .space := by
        unfold firstRule
        rw [if_pos (hw c List.mem_cons_self)]
      rw [this]
      exact ⟨rfl, fun d hd => hcc.space d (hw d (List.mem_cons_of_mem _ hd)), fun d hd => by simp [hF r hr d hd]⟩

/-! The tokens of a value -/

theorem token_mark {c : Char} {k : Nat} (h : firstRule cfg cc c = .mark k) (r : Str) : JsonToken cfg cc (some k) [c] r :=
  ⟨c, [], rfl, by rw [h]; exact ⟨rfl, rfl⟩⟩

theorem firstRule_open (b : Bool) : firstRule cfg cc (if b then '{' else '[') = .mark (openKind b) := by
  unfold firstRule
  cases b <;> simp [isJsonSpace, Json.isDigit, openKind]

theorem firstRule_close (b : Bool) : firstRule cfg cc (if b then '}' else ']') = .mark (closeKind b) := by
  unfold firstRule
  cases b <;> simp [isJsonSpace, Json.isDigit, closeKind]

theorem firstRule_comma : firstRule cfg cc ',' = .mark comma := by
  unfold firstRule; simp [isJsonSpace, Json.isDigit]

theorem firstRule_colon : firstRule cfg cc ':' = .mark colon := by
  unfold firstRule; simp [isJsonSpace, Json.isDigit]

theorem plain_body {q : Char} {s : Str} (h : ∀ c ∈ s, c ≠ q ∧ c ≠ '\\') : LitBody q (some '\\') s := by
  induction s with
  | nil => exact .nil
  | cons c s ih =>
    exact .plain (h c List.mem_cons_self).1 (by simpa using (h c List.mem_cons_self).2) (ih fun d hd => h d (List.mem_cons_of_mem _ hd))

theorem token_string {s : Str} (h : PlainString s) (r : Str) : JsonToken cfg cc (some stringLiteral) ('"' :: (s ++ ['"'])) r := by
  refine ⟨'"', s ++ ['"'], rfl, ?_⟩
  have : firstRule cfg cc '"' = .quote := by unfold firstRule; simp [isJsonSpace]
  rw [this]
  exact .inl ⟨rfl, s, r, by simp, plain_body h, rfl⟩

theorem token_word {c : Char} {s : Str} {k : Nat} (h : isKeyword (c :: s) k) (r : Str) : JsonToken cfg cc (some k) (c :: s) r := by
  refine ⟨c, s, rfl, ?_⟩
  have : firstRule cfg cc c = .word := by
    have hc : c = 't' ∨ c = 'f' ∨ c = 'n' := by
      rcases h with ⟨h, _⟩ | ⟨h, _⟩ | ⟨h, _⟩ <;> simp at h <;> simp [h.1]
    unfold firstRule
    rcases hc with rfl | rfl | rfl <;> simp [isJsonSpace, Json.isDigit]
  rw [this]
  exact .inl ⟨k, h, rfl⟩

theorem token_number {m r : Str} (h : NumberText m) (hr : Follow r) : JsonToken cfg cc (some numberLiteral) m r := by
  obtain ⟨sign, int, frac, exp, rfl, hs, hi, hid, hf, he⟩ := h
  have e1 : ∀ c, (exp ++ r).head? = some c → c ∈ "eE,]}".toList := by
    intro c hc
    rcases he with rfl | ⟨e, sg, ds, h1, _, rfl, _⟩
    · rcases hr c hc with rfl | rfl | rfl <;> decide
    · simp at hc; subst hc; rcases h1 with rfl | rfl <;> decide
  have e2 : ∀ c, (frac ++ (exp ++ r)).head? = some c → c ∈ ".eE,]}".toList := by
    intro c hc
    rcases hf with rfl | ⟨ds, rfl, _⟩
    · exact List.mem_cons_of_mem _ (e1 c hc)
    · simp at hc; subst hc; decide
  have d1 : ∀ {c}, c ∈ ".eE,]}".toList → ¬ isJsonDigit c := by
    intro c hc
    simp at hc
    rcases hc with rfl | rfl | rfl | rfl | rfl | rfl <;> simp [isJsonDigit, Json.isDigit]
  have hr' : ∀ c, r.head? = some c → ¬ isJsonDigit c := by
    intro c hc
    rcases hr c hc with rfl | rfl | rfl <;> simp [isJsonDigit, Json.isDigit]
  have hrun : LongRun isJsonDigit int (frac ++ (exp ++ r)) := ⟨hid, fun c hc => d1 (e2 c hc)⟩
  have hfrac : ∃ ds, Fraction frac ds (exp ++ r) := by
    rcases hf with rfl | ⟨ds, rfl, hd⟩
    · exact ⟨[], .inr ⟨rfl, rfl, fun hc => absurd (e1 _ hc) (by decide)⟩⟩
    · exact ⟨ds, .inl ⟨rfl, hd, fun c hc => d1 (List.mem_cons_of_mem _ (e1 c hc))⟩⟩
  obtain ⟨ds, hfrac⟩ := hfrac
  have hexp : Exponent exp r := by
    rcases he with rfl | ⟨e, sg, es, h1, h2, rfl, h4, h5⟩
    · refine .inr ⟨rfl, ?_, ?_⟩ <;> intro hc <;> exact absurd (hr _ hc) (by decide)
    · refine .inl ⟨e, sg, es, h1, rfl, ⟨h5, hr'⟩, ?_⟩
      rcases h2 with rfl | h2 | h2
      · obtain ⟨d, es, rfl⟩ := List.exists_cons_of_ne_nil h4
        have hd := h5 d List.mem_cons_self
        refine .inr (.inr ⟨rfl, ?_, ?_⟩) <;> intro hc <;> simp at hc <;> subst hc <;> simp [isJsonDigit, Json.isDigit] at hd
      · exact .inl h2
      · exact .inr (.inl h2)
  have hhex : ∀ y z, HexPrefix cfg y → int ++ (frac ++ (exp ++ r)) ≠ y ++ z := by
    intro y z hy heq
    obtain ⟨d, int', rfl⟩ := List.exists_cons_of_ne_nil hi
    have h2 : ∃ x, (x = 'x' ∨ x = 'X') ∧ (int' ++ (frac ++ (exp ++ r))).head? = some x := by
      rcases hy.2 with rfl | rfl
      · simp only [List.cons_append, List.cons.injEq] at heq; exact ⟨'x', .inl rfl, by rw [heq.2]; rfl⟩
      · simp only [List.cons_append, List.cons.injEq] at heq; exact ⟨'X', .inr rfl, by rw [heq.2]; rfl⟩
    obtain ⟨x, hx, hh⟩ := h2
    cases int' with
    | nil =>
      have := e2 x hh
      rcases hx with rfl | rfl <;> exact absurd this (by decide)
    | cons d' int' =>
      simp at hh
      have := hid d' (by simp)
      rw [hh] at this
      rcases hx with rfl | rfl <;> simp [isJsonDigit, Json.isDigit] at this
  have hbody : NumBody cfg (some numberLiteral) (int ++ (frac ++ exp)) r := by
    have := NumBody.decimal (cfg := cfg) (x := []) (.inl ⟨rfl, hhex⟩) hrun hfrac hexp
    rwa [if_neg (fun h => hi h.1)] at this
  have hrule : ∀ c, c = '-' ∨ Json.isDigit c = true → firstRule cfg cc c = .number := by
    intro c hc
    have hn : ∀ d, Json.isDigit d = false → d ≠ '-' → c ≠ d := by
      rintro d h1 h2 rfl
      rcases hc with h | h
      · exact h2 h
      · rw [h1] at h; simp at h
    unfold firstRule
    rw [if_neg (show ¬ isJsonSpace c by
        rintro (h | h | h | h) <;> exact hn _ (by decide) (by decide) h), if_neg (hn _ (by decide) (by decide)),
      if_neg (fun h => hn _ (by decide) (by decide) h.1), if_pos hc]
  rcases hs with rfl | rfl
  · obtain ⟨d, int', rfl⟩ := List.exists_cons_of_ne_nil hi
    have hd := hid d List.mem_cons_self
    refine ⟨d, int' ++ (frac ++ exp), rfl, ?_⟩
    rw [hrule d (.inr hd)]
    unfold ruleHolds
    rw [if_neg (by rintro rfl; simp [isJsonDigit, Json.isDigit] at hd)]
    exact hbody
  · refine ⟨'-', int ++ (frac ++ exp), rfl, ?_⟩
    rw [hrule '-' (.inl rfl)]
    unfold ruleHolds
    rw [if_pos rfl]
    exact hbody

theorem number_starts {m : Str} (h : NumberText m) : ∃ c s, m = c :: s ∧ c ∈ "\"{}[],:-0123456789tfn".toList := by
  obtain ⟨sign, int, frac, exp, rfl, hs, hi, hid, _⟩ := h
  rcases hs with rfl | rfl
  · obtain ⟨d, int', rfl⟩ := List.exists_cons_of_ne_nil hi
    have hd := hid d List.mem_cons_self
    refine ⟨d, _, rfl, ?_⟩
    have hd : '0' ≤ d ∧ d ≤ '9' := by simpa [isJsonDigit, Json.isDigit] using hd
    have h1 : 48 ≤ d.toNat := hd.1
    have h2 : d.toNat ≤ 57 := hd.2
    have h3 : d = Char.ofNat d.toNat := by simp
    rw [h3]
    have h4 : d.toNat = 48 ∨ d.toNat = 49 ∨ d.toNat = 50 ∨ d.toNat = 51 ∨ d.toNat = 52 ∨ d.toNat = 53 ∨ d.toNat = 54 ∨
      d.toNat = 55 ∨ d.toNat = 56 ∨ d.toNat = 57 := by omega
    rcases h4 with h | h | h | h | h | h | h | h | h | h <;> rw [h] <;> decide
  · exact ⟨'-', _, rfl, by decide⟩

/-! ### Lengths -/

theorem blanks_leaves (w : Str) (h : blen w < 2 ^ 32) : lenSum ((blanksKl w).map leafOf) = blen w := by
  unfold blanksKl
  split
  · rename_i h; rw [h]; simp
  · simp [leafOf, lenSum, Green.len, Nat.mod_eq_of_lt h]

theorem leavesG_len {k : Nat} {m w : Str} (h : blen m + blen w < 2 ^ 32) :
    lenSum (leavesG ((k, blen m), blanksKl w)) = blen m + blen w := by
  unfold leavesG
  rw [lenSum_cons, blanks_leaves w (by omega)]
  simp [leafOf, Green.len, Nat.mod_eq_of_lt (show blen m < 2 ^ 32 by omega)]

/-! ### The builder -/

section
variable {ν : Type} {num : Str → Option ν}

theorem textOf_mid {t l m r : Str} (ht : t = l ++ (m ++ r)) : textOf t (blen l) (blen m) = .ok m := by
  unfold textOf
  exact (textSource_lawful t).textIn _ _ m ⟨l, r, by simpa using ht, rfl, rfl⟩

theorem trimMatches_quoted {s : Str} (h : PlainString s) : trimMatches '"' ('"' :: (s ++ ['"'])) = s := by
  have h1 : ∀ {s : Str}, (∀ c ∈ s, c ≠ '"') → s.dropWhile (· == '"') = s := by
    intro s h
    cases s with
    | nil => rfl
    | cons c s => rw [List.dropWhile_cons_of_neg (by simpa using h c List.mem_cons_self)]
  have hs : ∀ c ∈ s, c ≠ '"' := fun c hc => (h c hc).1
  unfold trimMatches
  rw [List.dropWhile_cons_of_pos (by rfl)]
  cases s with
  | nil => rfl
  | cons c s =>
    rw [List.cons_append, List.dropWhile_cons_of_neg (by simpa using hs c List.mem_cons_self), ← List.cons_append, List.reverse_append]
    rw [show ['"'].reverse = ['"'] from rfl, List.singleton_append, List.dropWhile_cons_of_pos (by rfl),
      h1 (fun d hd => hs d (List.mem_reverse.mp hd)), List.reverse_reverse]

theorem elements_leaves (t : Str) (ts : List (Nat × Nat)) (cs : List Green) (o : Nat) :
    buildElements num t o (ts.map leafOf ++ cs) = buildElements num t (o + lenSum (ts.map leafOf)) cs := by
  induction ts generalizing o with
  | nil => simp
  | cons x ts ih =>
    rw [List.map_cons, List.cons_append, leafOf, buildElements, ih, lenSum_cons, Nat.add_assoc]
    rfl

theorem fields_leaves (t : Str) (ts : List (Nat × Nat)) (cs : List Green) (o : Nat) :
    buildFields num t o (ts.map leafOf ++ cs) = buildFields num t (o + lenSum (ts.map leafOf)) cs := by
  induction ts generalizing o with
  | nil => simp
  | cons x ts ih =>
    rw [List.map_cons, List.cons_append, leafOf, buildFields, ih, lenSum_cons, Nat.add_assoc]
    rfl

theorem leavesG_map (g : Group) : leavesG g = (g.1 :: g.2).map leafOf := rfl

theorem field_blanks (t w : Str) (cs : List Green) (o : Nat) (f : Found ν) :
    buildField num t o ((blanksKl w).map leafOf ++ cs) f = buildField num t (o + lenSum ((blanksKl w).map leafOf)) cs f := by
  unfold blanksKl
  split
  · simp
  · simp only [List.map_cons, List.map_nil, List.cons_append, List.nil_append, leafOf]
    rw [buildField]
    have : fieldLeaf t whitespace (blen w % 2 ^ 32) o f = .ok f := by
      unfold fieldLeaf
      rw [if_neg (by decide), if_neg (by rintro ⟨h | h, _⟩ <;> exact absurd h (by decide))]; rfl
    rw [this, run_bind_ok]
    simp [lenSum, Green.len]

/-! ### Values -/

theorem writes_nonempty {v : JsonVal ν} {m : Str} (h : Writes num v m) : m ≠ [] := by
  cases h with
  | bool b => cases b <;> simp
  | num hm _ => obtain ⟨c, s, h, _⟩ := number_starts hm; simp [h]
  | _ => simp

theorem writesItems_nonempty {vs : List (JsonVal ν)} {m : Str} (h : WritesItems num vs m) (hv : vs ≠ []) : m ≠ [] := by
  cases h with
  | none => simp at hv
  | one h => exact writes_nonempty h
  | cons => simp

theorem writesFields_nonempty {vs : List (Str × JsonVal ν)} {m : Str} (h : WritesFields num vs m) (hv : vs ≠ []) : m ≠ [] := by
  cases h with
  | none => simp at hv
  | _ => simp

/-- The text `m` is the tokens `gs`, these are the tree `tree`, and that is built to `v`. -/
structure ValueOk (num : Str → Option ν) (cfg : JsonCfg) (cc : CharClass) (v : JsonVal ν) (m : Str) (gs : List Group) (tree : Green) :
    Prop where
  starts : ∃ c s, m = c :: s ∧ c ∈ "\"{}[],:-0123456789tfn".toList
  laid : Laid cfg cc Follow m gs
  derived : JD cfg (.item false) gs [tree]
  built : blen m < 2 ^ 32 → ∃ k cs, tree = .node k (blen m) cs ∧ isElement k = true ∧ isFieldValue k = true ∧
    ∀ t l r, t = l ++ (m ++ r) → buildValue num t (blen l) tree = .ok (some v)

/-- The same for a row of elements. -/
structure ItemsOk (num : Str → Option ν) (cfg : JsonCfg) (cc : CharClass) (vs : List (JsonVal ν)) (m : Str) (gs : List Group)
    (cs : List Green) : Prop where
  starts : m = [] ∨ ∃ c s, m = c :: s ∧ c ∈ "\"{}[],:-0123456789tfn".toList
  laid : Laid cfg cc Follow m gs
  derived : JD cfg (.items false) gs cs
  more : vs ≠ [] → ∀ g : Group, g.1.1 = comma → JD cfg (.more false) (g :: gs) (leavesG g ++ cs)
  built : blen m < 2 ^ 32 → lenSum cs = blen m ∧ ∀ t l r tail vs', t = l ++ (m ++ r) →
    buildElements num t (blen l + blen m) tail = .ok (some vs') → buildElements num t (blen l) (cs ++ tail) = .ok (some (vs ++ vs'))

/-- And of entries. -/
structure FieldsOk (num : Str → Option ν) (cfg : JsonCfg) (cc : CharClass) (fs : List (Str × JsonVal ν)) (m : Str) (gs : List Group)
    (cs : List Green) : Prop where
  starts : m = [] ∨ ∃ c s, m = c :: s ∧ c ∈ "\"{}[],:-0123456789tfn".toList
  laid : Laid cfg cc Follow m gs
  derived : JD cfg (.items true) gs cs
  more : fs ≠ [] → ∀ g : Group, g.1.1 = comma → JD cfg (.more true) (g :: gs) (leavesG g ++ cs)
  built : blen m < 2 ^ 32 → lenSum cs = blen m ∧ ∀ t l r tail fs', t = l ++ (m ++ r) →
    buildFields num t (blen l + blen m) tail = .ok (some fs') → buildFields num t (blen l) (cs ++ tail) = .ok (some (fs ++ fs'))

theorem scalar_ok {v : JsonVal ν} {k n : Nat} {m w : Str} (hcc : SoundClasses cc)
    (hk : k = stringLiteral ∨ k = numberLiteral ∨ k = booleanLiteral ∨ k = nullLiteral) (hn : nodeKind k = some n)
    (hstart : ∃ c s, m = c :: s ∧ c ∈ "\"{}[],:-0123456789tfn".toList) (hw : Spaces w)
    (ht : ∀ r, Follow r → JsonToken cfg cc (some k) m (w ++ r))
    (hb : ∀ t o, textOf t o (blen m + blen w) = .ok (m ++ w) → buildScalar num t n (blen m + blen w) o = .ok (some v)) :
    ∃ gs tree, ValueOk num cfg cc v (m ++ w) gs tree := by
  have hn' : n = string ∨ n = number ∨ n = boolean ∨ n = null := by
    rcases hk with h | h | h | h <;> subst h <;> injection hn with hn <;> simp [← hn]
  obtain ⟨c, s, rfl, hc⟩ := hstart
  refine ⟨[((k, blen (c :: s)), blanksKl w)], mkG n (leavesG ((k, blen (c :: s)), blanksKl w)), ⟨c, s ++ w, rfl, hc⟩,
    .token hcc (by simp) (by rcases hk with h | h | h | h <;> rw [h] <;> rfl) hw ht (fun r hr => hr.visible hcc),
    .scalar hk hn, ?_⟩
  intro hl
  have hlen := leavesG_len (k := k) (m := c :: s) (w := w) (by simpa [Nat.add_assoc] using hl)
  refine ⟨n, leavesG ((k, blen (c :: s)), blanksKl w), by rw [mkG, hlen, blen_append], ?_, ?_, ?_⟩
  · rcases hn' with h | h | h | h <;> rw [h] <;> rfl
  · rcases hn' with h | h | h | h <;> rw [h] <;> rfl
  · intro t l r he
    have := textOf_mid he
    rw [blen_append] at this
    rw [mkG, hlen, buildValue, if_neg (by rcases hn' with h | h | h | h <;> rw [h] <;> decide),
      if_neg (by rcases hn' with h | h | h | h <;> rw [h] <;> decide), if_pos hn']
    exact hb t _ this

theorem follow_close (b : Bool) (r : Str) : Follow ((if b then '}' else ']') :: r) := by
  intro c hc
  cases b <;> simp at hc <;> simp [← hc]

theorem visible_starts (hcc : SoundClasses cc) {m : Str} (h : ∃ c s, m = c :: s ∧ c ∈ "\"{}[],:-0123456789tfn".toList) (r : Str) :
    Visible cc (m ++ r) := by
  obtain ⟨c, s, rfl, hc⟩ := h
  intro d hd
  simp at hd
  rw [← hd]; exact hcc.visible c hc

/-- The row between two brackets, laid out. -/
theorem brackets_laid (hcc : SoundClasses cc) (b : Bool) {w m w' : Str} {gs : List Group} (hw : Spaces w) (hw' : Spaces w')
    (hs : m = [] ∨ ∃ c s, m = c :: s ∧ c ∈ "\"{}[],:-0123456789tfn".toList) (h : Laid cfg cc Follow m gs) :
    Laid cfg cc Follow ((if b then '{' else '[') :: (w ++ (m ++ (if b then '}' else ']') :: w')))
      (((openKind b, 1), blanksKl w) :: (gs ++ [((closeKind b, 1), blanksKl w')])) := by
  have h1 : Laid cfg cc (Visible cc) ([if b then '{' else '['] ++ w) [((openKind b, blen [if b then '{' else '[']), blanksKl w)] :=
    .token hcc (by simp) (by cases b <;> rfl) hw (fun r _ => token_mark (firstRule_open b) _) (fun _ h => h)
  have h2 : Laid cfg cc Follow ([if b then '}' else ']'] ++ w') [((closeKind b, blen [if b then '}' else ']']), blanksKl w')] :=
    .token hcc (by simp) (by cases b <;> rfl) hw' (fun r _ => token_mark (firstRule_close b) _) (fun _ h => h.visible hcc)
  have h3 := h.append h2 (fun r hr => follow_close b _)
  have h4 := h1.append h3 (fun r hr => by
    rcases hs with rfl | hs
    · exact (follow_close b _).visible hcc
    · rw [List.append_assoc]; exact visible_starts hcc hs _)
  have e1 : blen [if b then '{' else '['] = 1 := by cases b <;> rfl
  have e2 : blen [if b then '}' else ']'] = 1 := by cases b <;> rfl
  rw [e1, e2] at h4
  simpa using h4

theorem mark_len {k : Nat} {w : Str} (h : 1 + blen w < 2 ^ 32) : lenSum (leavesG ((k, 1), blanksKl w)) = 1 + blen w :=
  leavesG_len (m := [',']) (k := k) (w := w) h

/-- An entry. -/
theorem entry_ok (hcc : SoundClasses cc) {k w w' m : Str} {v : JsonVal ν} {gs : List Group} {tree : Green} (hk : PlainString k)
    (hw : Spaces w) (hw' : Spaces w') (h : ValueOk num cfg cc v m gs tree) :
    ∃ gs' tree', Laid cfg cc Follow ('"' :: (k ++ '"' :: (w ++ ':' :: (w' ++ m)))) gs' ∧ JD cfg (.item true) gs' [tree'] ∧
      (blen ('"' :: (k ++ '"' :: (w ++ ':' :: (w' ++ m)))) < 2 ^ 32 →
        tree'.len = blen ('"' :: (k ++ '"' :: (w ++ ':' :: (w' ++ m)))) ∧
        ∀ t l r tail fs', t = l ++ (('"' :: (k ++ '"' :: (w ++ ':' :: (w' ++ m)))) ++ r) →
          buildFields num t (blen l + blen ('"' :: (k ++ '"' :: (w ++ ':' :: (w' ++ m))))) tail = .ok (some fs') →
          buildFields num t (blen l) (tree' :: tail) = .ok (some ((k, v) :: fs'))) := by
  have h1 : Laid cfg cc (Visible cc) (('"' :: (k ++ ['"'])) ++ w) [((stringLiteral, blen ('"' :: (k ++ ['"']))), blanksKl w)] :=
    .token hcc (by simp) rfl hw (fun r _ => token_string hk _) (fun _ h => h)
  have h2 : Laid cfg cc (Visible cc) ([':'] ++ w') [((colon, blen [':']), blanksKl w')] :=
    .token hcc (by simp) rfl hw' (fun r _ => token_mark firstRule_colon _) (fun _ h => h)
  have h3 := h2.append h.laid (fun r _ => visible_starts hcc h.starts r)
  have h4 := h1.append h3 (fun r _ => by
    intro c hc
    simp at hc
    rw [← hc]; exact hcc.visible _ (by decide))
  have em : '"' :: (k ++ '"' :: (w ++ ':' :: (w' ++ m))) = ('"' :: (k ++ ['"'])) ++ w ++ ([':'] ++ w' ++ m) := by simp
  refine ⟨_, _, by rw [em]; exact h4, .entry (g := ((stringLiteral, blen ('"' :: (k ++ ['"']))), blanksKl w))
    (g' := ((colon, blen [':']), blanksKl w')) (.inl rfl) rfl h.derived, ?_⟩
  intro hl
  rw [em] at hl ⊢
  have hL : blen (('"' :: (k ++ ['"'])) ++ w ++ ([':'] ++ w' ++ m)) =
      blen ('"' :: (k ++ ['"'])) + blen w + (blen [':'] + blen w' + blen m) := by simp only [blen_append]
  rw [hL] at hl ⊢
  obtain ⟨kk, ks, rfl, hel, hfv, hb⟩ := h.built (by omega)
  have l1 := leavesG_len (k := stringLiteral) (m := '"' :: (k ++ ['"'])) (w := w) (by omega)
  have l2 := leavesG_len (k := colon) (m := [':']) (w := w') (by omega)
  have hlen : lenSum (leavesG ((stringLiteral, blen ('"' :: (k ++ ['"']))), blanksKl w) ++
      (leavesG ((colon, blen [':']), blanksKl w') ++ [Green.node kk (blen m) ks])) =
      blen ('"' :: (k ++ ['"'])) + blen w + (blen [':'] + blen w' + blen m) := by
    rw [lenSum_append, lenSum_append, l1, l2, lenSum_cons]
    simp [Green.len]
  refine ⟨by rw [mkG_len, hlen], ?_⟩
  intro t l r tail fs' he htail
  have hfield : buildField num t (blen l) (leavesG ((stringLiteral, blen ('"' :: (k ++ ['"']))), blanksKl w) ++
      (leavesG ((colon, blen [':']), blanksKl w') ++ [Green.node kk (blen m) ks])) ⟨none, none, false⟩ = .ok (some (k, v)) := by
    have t1 : textOf t (blen l) (blen ('"' :: (k ++ ['"']))) = .ok ('"' :: (k ++ ['"'])) :=
      textOf_mid (r := w ++ ([':'] ++ w' ++ m) ++ r) (by rw [he]; simp)
    unfold leavesG
    simp only [List.cons_append, leafOf]
    rw [buildField, Nat.mod_eq_of_lt (by omega)]
    have f1 : fieldLeaf t stringLiteral (blen ('"' :: (k ++ ['"']))) (blen l) (⟨none, none, false⟩ : Found ν) =
        .ok ⟨some k, none, false⟩ := by
      unfold fieldLeaf
      rw [if_neg (by decide), if_pos ⟨.inl rfl, rfl⟩, t1]
      simp only [run_bind_ok, if_true, trimMatches_quoted hk]
      rfl
    rw [f1, run_bind_ok, field_blanks, blanks_leaves w (by omega), buildField, Nat.mod_eq_of_lt (by omega)]
    have f2 : ∀ o, fieldLeaf t colon (blen [':']) o (⟨some k, none, false⟩ : Found ν) = .ok ⟨some k, none, true⟩ := fun o => rfl
    rw [f2, run_bind_ok, field_blanks, blanks_leaves w' (by omega), buildField]
    simp only [Bool.true_eq_false, if_false, Option.isNone_none, hfv, Bool.and_self, if_true]
    have hbv := hb t (l ++ (('"' :: (k ++ ['"'])) ++ w ++ ([':'] ++ w'))) r (by rw [he]; simp)
    simp only [blen_append, Nat.add_assoc] at hbv ⊢
    rw [hbv, run_bind_ok]
    rfl
  rw [mkG, hlen, buildFields, if_pos rfl, hfield]
  simp only [run_bind_ok, htail]
  rfl

mutual
theorem value_ok (hcc : SoundClasses cc) {v : JsonVal ν} {m : Str} : Writes num v m → ∃ gs tree, ValueOk num cfg cc v m gs tree
  | .null hw =>
    scalar_ok hcc (k := nullLiteral) (n := null) (by simp) rfl ⟨'n', _, rfl, by decide⟩ hw (fun r _ => token_word (.inr (.inr ⟨rfl, rfl⟩)) _)
      (fun t o h => by unfold buildScalar; rw [h, run_bind_ok]; rfl)
  | .bool b => by
    have := scalar_ok (num := num) (cfg := cfg) (v := .bool b) hcc (k := booleanLiteral) (n := boolean)
      (m := if b then "true".toList else "false".toList) (w := []) (by simp) rfl
      (by cases b <;> exact ⟨_, _, rfl, by decide⟩) (by simp [Spaces])
      (fun r _ => by
        cases b
        · exact token_word (.inr (.inl ⟨rfl, rfl⟩)) _
        · exact token_word (.inl ⟨rfl, rfl⟩) _)
      (fun t o h => by unfold buildScalar; rw [h, run_bind_ok]; cases b <;> rfl)
    simpa using this
  | .num (m := m) (v := v) hm hv => by
    have := scalar_ok (num := num) (cfg := cfg) (v := .num v) hcc (k := numberLiteral) (n := number)
      (m := m) (w := []) (by simp) rfl (number_starts hm) (by simp [Spaces]) (fun r hr => token_number hm hr)
      (fun t o h => by
        unfold buildScalar; rw [h, run_bind_ok, if_neg (by decide), if_pos rfl, List.append_nil, hv]; rfl)
    simpa using this
  | .str (s := s) hs => by
    have := scalar_ok (num := num) (cfg := cfg) (v := .str s) hcc (k := stringLiteral) (n := string)
      (m := '"' :: (s ++ ['"'])) (w := []) (by simp) rfl ⟨'"', _, rfl, by decide⟩ (by simp [Spaces]) (fun r hr => token_string hs _)
      (fun t o h => by
        unfold buildScalar; rw [h, run_bind_ok, if_pos rfl, List.append_nil, trimMatches_quoted hs]; rfl)
    simpa using this
  | .arr (vs := vs) (w := w) (m := m) (w' := w') hw hw' hi => by
    obtain ⟨gs, cs, h⟩ := items_ok hcc hi
    refine ⟨_, _, ⟨'[', _, rfl, by decide⟩, brackets_laid hcc false hw hw' h.starts h.laid,
      .seq (b := false) (g := ((openKind false, 1), blanksKl w)) (g' := ((closeKind false, 1), blanksKl w')) rfl rfl h.derived, ?_⟩
    intro hl
    have hL : blen ('[' :: (w ++ (m ++ ']' :: w'))) = 1 + blen w + (blen m + (1 + blen w')) := by
      simp only [blen_cons, blen_append]
      have e1 : '['.utf8Size = 1 := rfl
      have e2 : ']'.utf8Size = 1 := rfl
      omega
    rw [hL] at hl ⊢
    obtain ⟨hc, hb⟩ := h.built (by omega)
    have l1 := mark_len (k := openKind false) (w := w) (by omega)
    have l2 := mark_len (k := closeKind false) (w := w') (by omega)
    have hlen : lenSum (leavesG ((openKind false, 1), blanksKl w) ++ (cs ++ leavesG ((closeKind false, 1), blanksKl w'))) =
        1 + blen w + (blen m + (1 + blen w')) := by
      rw [lenSum_append, lenSum_append, l1, l2, hc]
    refine ⟨array, _, by rw [mkG, hlen]; rfl, rfl, rfl, ?_⟩
    intro t l r he
    rw [mkG, buildValue, if_neg (show ¬ nodeOf false = object by decide), if_pos (show nodeOf false = array from rfl), leavesG_map, elements_leaves, ← leavesG_map, l1]
    have hbv := hb t (l ++ ('[' :: w)) (']' :: (w' ++ r)) (leavesG ((closeKind false, 1), blanksKl w')) [] (by rw [he]; simp)
      (by rw [leavesG_map, ← List.append_nil (List.map _ _), elements_leaves]; rfl)
    have e : blen (l ++ ('[' :: w)) = blen l + (1 + blen w) := by rw [blen_append, blen_cons]; rfl
    rw [e] at hbv
    rw [hbv, run_bind_ok, List.append_nil]
    rfl
  | .obj (fs := fs) (w := w) (m := m) (w' := w') hw hw' hi => by
    obtain ⟨gs, cs, h⟩ := fields_ok hcc hi
    refine ⟨_, _, ⟨'{', _, rfl, by decide⟩, brackets_laid hcc true hw hw' h.starts h.laid,
      .seq (b := true) (g := ((openKind true, 1), blanksKl w)) (g' := ((closeKind true, 1), blanksKl w')) rfl rfl h.derived, ?_⟩
    intro hl
    have hL : blen ('{' :: (w ++ (m ++ '}' :: w'))) = 1 + blen w + (blen m + (1 + blen w')) := by
      simp only [blen_cons, blen_append]
      have e1 : '{'.utf8Size = 1 := rfl
      have e2 : '}'.utf8Size = 1 := rfl
      omega
    rw [hL] at hl ⊢
    obtain ⟨hc, hb⟩ := h.built (by omega)
    have l1 := mark_len (k := openKind true) (w := w) (by omega)
    have l2 := mark_len (k := closeKind true) (w := w') (by omega)
    have hlen : lenSum (leavesG ((openKind true, 1), blanksKl w) ++ (cs ++ leavesG ((closeKind true, 1), blanksKl w'))) =
        1 + blen w + (blen m + (1 + blen w')) := by
      rw [lenSum_append, lenSum_append, l1, l2, hc]
    refine ⟨object, _, by rw [mkG, hlen]; rfl, rfl, rfl, ?_⟩
    intro t l r he
    rw [mkG, buildValue, if_pos (show nodeOf true = object from rfl), leavesG_map, fields_leaves, ← leavesG_map, l1]
    have hbv := hb t (l ++ ('{' :: w)) ('}' :: (w' ++ r)) (leavesG ((closeKind true, 1), blanksKl w')) [] (by rw [he]; simp)
      (by rw [leavesG_map, ← List.append_nil (List.map _ _), fields_leaves]; rfl)
    have e : blen (l ++ ('{' :: w)) = blen l + (1 + blen w) := by rw [blen_append, blen_cons]; rfl
    rw [e] at hbv
    rw [hbv, run_bind_ok, List.append_nil]
    rfl
theorem items_ok (hcc : SoundClasses cc) {vs : List (JsonVal ν)} {m : Str} : WritesItems num vs m →
    ∃ gs cs, ItemsOk num cfg cc vs m gs cs
  | .none => ⟨[], [], .inl rfl, .nil _, .none, fun h => absurd rfl h, fun _ => ⟨rfl, fun t l r tail vs' _ h => by simpa using h⟩⟩
  | .one (v := v) (m := m) hv => by
    obtain ⟨gs, tree, h⟩ := value_ok hcc hv
    refine ⟨gs, [tree], .inr h.starts, h.laid, by simpa using JD.some h.derived .last,
      fun _ g hg => by simpa using JD.next hg h.derived .last, ?_⟩
    intro hl
    obtain ⟨k, cs, rfl, hel, _, hb⟩ := h.built hl
    refine ⟨by simp [lenSum_cons, Green.len], ?_⟩
    intro t l r tail vs' he htail
    simp only [List.cons_append, List.nil_append]
    rw [buildElements, if_pos hel, hb t l r he, run_bind_ok]
    simp only [htail, run_bind_ok]
    rfl
  | .cons (v := v) (m := m) (w := w) (u := u) (us := us) (m' := m') hv hw hi => by
    obtain ⟨gs, tree, h⟩ := value_ok hcc hv
    obtain ⟨gs', cs', h'⟩ := items_ok hcc hi
    have hs' : ∃ c s, m' = c :: s ∧ c ∈ "\"{}[],:-0123456789tfn".toList := by
      rcases h'.starts with rfl | h
      · exact absurd rfl (writesItems_nonempty hi (by simp))
      · exact h
    have h2 : Laid cfg cc (Visible cc) ([','] ++ w) [((comma, 1), blanksKl w)] :=
      .token hcc (m := [',']) (by simp) rfl hw (fun r _ => token_mark firstRule_comma _) (fun _ h => h)
    have h3 := h2.append h'.laid (fun r _ => visible_starts hcc hs' r)
    have h4 := h.laid.append h3 (fun r _ => by intro c hc; simp at hc; simp [← hc])
    have em : m ++ ',' :: (w ++ m') = m ++ ([','] ++ w ++ m') := by simp
    have hmore := h'.more (by simp) ((comma, 1), blanksKl w) rfl
    refine ⟨gs ++ ([((comma, 1), blanksKl w)] ++ gs'), [tree] ++ (leavesG ((comma, 1), blanksKl w) ++ cs'), .inr ?_, by rw [em]; exact h4,
      .some h.derived hmore, fun _ g hg => .next hg h.derived hmore, ?_⟩
    · obtain ⟨c, s, rfl, hc⟩ := h.starts
      exact ⟨c, _, rfl, hc⟩
    intro hl
    rw [em] at hl ⊢
    have hL : blen (m ++ ([','] ++ w ++ m')) = blen m + (1 + blen w + blen m') := by simp only [blen_append]; rfl
    rw [hL] at hl ⊢
    obtain ⟨k, cs, rfl, hel, _, hb⟩ := h.built (by omega)
    obtain ⟨hc, hb'⟩ := h'.built (by omega)
    have l1 := mark_len (k := comma) (w := w) (by omega)
    refine ⟨by rw [lenSum_append, lenSum_append, l1, hc]; simp [lenSum_cons, Green.len], ?_⟩
    intro t l r tail vs' he htail
    have hbv := hb t l ([','] ++ w ++ m' ++ r) (by rw [he]; simp)
    have hrest := hb' t (l ++ (m ++ ([','] ++ w))) r tail vs' (by rw [he]; simp) (by
      rw [← htail]
      congr 1
      simp only [blen_append]
      have : blen [','] = 1 := rfl
      omega)
    have e : blen (l ++ (m ++ ([','] ++ w))) = blen l + blen m + (1 + blen w) := by
      simp only [blen_append]
      have : blen [','] = 1 := rfl
      omega
    rw [e] at hrest
    simp only [List.cons_append, List.nil_append, List.append_assoc]
    rw [buildElements, if_pos hel, hbv, run_bind_ok]
    simp only
    rw [leavesG_map, elements_leaves, ← leavesG_map, l1, hrest]
    rfl
theorem fields_ok (hcc : SoundClasses cc) {fs : List (Str × JsonVal ν)} {m : Str} : WritesFields num fs m →
    ∃ gs cs, FieldsOk num cfg cc fs m gs cs
  | .none => ⟨[], [], .inl rfl, .nil _, .none, fun h => absurd rfl h, fun _ => ⟨rfl, fun t l r tail vs' _ h => by simpa using h⟩⟩
  | .one (k := k) (w := w) (w' := w') (v := v) (m := m) hk hw hw' hv => by
    obtain ⟨gs0, tree0, h0⟩ := value_ok hcc hv
    obtain ⟨gs, tree, hlaid, hj, hb⟩ := entry_ok (num := num) hcc hk hw hw' h0
    refine ⟨gs, [tree], .inr ⟨'"', _, rfl, by decide⟩, hlaid, by simpa using JD.some hj .last,
      fun _ g hg => by simpa using JD.next hg hj .last, ?_⟩
    intro hl
    obtain ⟨hlen, hb⟩ := hb hl
    refine ⟨by simp [lenSum_cons, hlen], ?_⟩
    intro t l r tail fs' he htail
    exact hb t l r tail fs' he htail
  | .cons (k := k) (w := w) (w' := w') (v := v) (m := m) (w'' := w'') (u := u) (us := us) (m' := m') hk hw hw' hv hw'' hi => by
    obtain ⟨gs0, tree0, h0⟩ := value_ok hcc hv
    obtain ⟨gs, tree, hlaid, hj, hb⟩ := entry_ok (num := num) hcc hk hw hw' h0
    obtain ⟨gs', cs', h'⟩ := fields_ok hcc hi
    have hs' : ∃ c s, m' = c :: s ∧ c ∈ "\"{}[],:-0123456789tfn".toList := by
      rcases h'.starts with rfl | h
      · exact absurd rfl (writesFields_nonempty hi (by simp))
      · exact h
    generalize hM : '"' :: (k ++ '"' :: (w ++ ':' :: (w' ++ m))) = M at hlaid hb
    have hMs : ∃ c s, M = c :: s ∧ c ∈ "\"{}[],:-0123456789tfn".toList := ⟨'"', _, hM.symm, by decide⟩
    have h2 : Laid cfg cc (Visible cc) ([','] ++ w'') [((comma, 1), blanksKl w'')] :=
      .token hcc (m := [',']) (by simp) rfl hw'' (fun r _ => token_mark firstRule_comma _) (fun _ h => h)
    have h3 := h2.append h'.laid (fun r _ => visible_starts hcc hs' r)
    have h4 := hlaid.append h3 (fun r _ => by intro c hc; simp at hc; simp [← hc])
    have em : M ++ ',' :: (w'' ++ m') = M ++ ([','] ++ w'' ++ m') := by simp
    have hmore := h'.more (by simp) ((comma, 1), blanksKl w'') rfl
    refine ⟨gs ++ ([((comma, 1), blanksKl w'')] ++ gs'), [tree] ++ (leavesG ((comma, 1), blanksKl w'') ++ cs'), .inr ?_, by rw [em]; exact h4,
      .some hj hmore, fun _ g hg => .next hg hj hmore, ?_⟩
    · obtain ⟨c, s, rfl, hc⟩ := hMs
      exact ⟨c, _, rfl, hc⟩
    intro hl
    rw [em] at hl ⊢
    have hL : blen (M ++ ([','] ++ w'' ++ m')) = blen M + (1 + blen w'' + blen m') := by simp only [blen_append]; rfl
    rw [hL] at hl ⊢
    obtain ⟨hlen, hb⟩ := hb (by omega)
    obtain ⟨hc, hb'⟩ := h'.built (by omega)
    have l1 := mark_len (k := comma) (w := w'') (by omega)
    refine ⟨by rw [lenSum_append, lenSum_append, l1, hc]; simp [lenSum_cons, hlen], ?_⟩
    intro t l r tail fs' he htail
    have hrest := hb' t (l ++ (M ++ ([','] ++ w''))) r tail fs' (by rw [he]; simp) (by
      rw [← htail]
      congr 1
      simp only [blen_append]
      have : blen [','] = 1 := rfl
      omega)
    have e : blen (l ++ (M ++ ([','] ++ w''))) = blen l + blen M + (1 + blen w'') := by
      simp only [blen_append]
      have : blen [','] = 1 := rfl
      omega
    rw [e] at hrest
    have := hb t l ([','] ++ w'' ++ m' ++ r) (leavesG ((comma, 1), blanksKl w'') ++ (cs' ++ tail)) (u :: us ++ fs') (by rw [he]; simp) (by
      rw [leavesG_map, fields_leaves, ← leavesG_map, l1, hrest])
    simpa using this
end

theorem jsonBuild_writes (hcc : SoundClasses cc) {src : Source} {v : JsonVal ν} {m : Str} (hs : Supplied src m) (hl : blen m < 2 ^ 32)
    (hw : Writes num v m) (ht : src.textIn 0 src.length = .ok m) : Json.build num cfg cc src = .ok (some v, []) := by
  obtain ⟨gs, tree, h⟩ := value_ok (cfg := cfg) hcc hw
  obtain ⟨hgr, ps, hsome, hkl, hcut⟩ := h.laid
  have hc := hcut [] [] (by simp [Follow]) .nil
  rw [List.append_nil, List.append_nil] at hc
  obtain ⟨ps', hc', hlex⟩ := jsonLex_spec hs cfg hcc
  obtain rfl : ps' = ps := hc'.unique (fun _ _ h h' he => jsonToken_unique h h' he) hc
  have hg : Grouped ign (gs ++ [((eof, 0), [])]) := by
    intro g hg
    rcases List.mem_append.mp hg with hg | hg
    · exact hgr g hg
    · simp at hg; rw [hg]; exact ⟨rfl, by simp⟩
  have hk : (tokensOf 0 ps' ++ [(⟨Json.eof, blen m, blen m⟩ : Tok)]).map Tok.kl = [] ++ flat (gs ++ [((eof, 0), [])]) := by
    rw [List.map_append, kl_pieces hsome, hkl, flat_append]
    simp [Tok.kl, Tok.length, flat]
  have hsum : ((flat (gs ++ [((eof, 0), [])])).map (·.2)).sum < 2 ^ 32 := by
    have := sum_pieceKl ps'
    rw [hkl, hc.text] at this
    rw [flat_append, List.map_append, List.sum_append, this]
    simp [flat]; omega
  obtain ⟨s, g1, g2⟩ := PAt.new (ign := ign) hk (by simp) hg.head src.length
  obtain ⟨a, rest, cs, es, s', r1, r2, r3, r4, r5, r6⟩ := parseRoot_ends cfg g2 hg (by have := weight_le (gs ++ [((eof, 0), [])]); omega)
  obtain ⟨rfl, rfl, rfl, rfl⟩ := r6 gs [((eof, 0), [])] [tree] h.derived rfl
  have hp : Json.parse cfg cc src = .ok (mkG root [tree], []) := by
    unfold Json.parse
    rw [hlex, run_bind_ok, g1, run_bind_ok, r1, run_bind_ok]
    simp only [r2]
    rfl
  obtain ⟨k, cs, rfl, _, _, hb⟩ := h.built hl
  unfold Json.build
  rw [hp, run_bind_ok]
  simp only
  rw [ht, run_bind_ok, mkG, buildRoot]
  have := hb m [] [] (by simp)
  rw [show blen [] = 0 from rfl] at this
  rw [this]
  rfl

/-! ### The writers -/

section
variable (shw : ν → Str)

/-- A number that is read back. -/
def GoodNum (num : Str → Option ν) (shw : ν → Str) (x : ν) : Prop := NumberText (shw x) ∧ num (shw x) = some x

mutual
theorem toText_writes : ∀ v : JsonVal ν, PlainVal (GoodNum num shw) v → Writes num v (toText shw v)
  | .null, _ => .null (w := []) (by simp [Spaces])
  | .bool b, _ => .bool b
  | .num x, h => .num (h : GoodNum num shw x).1 (h : GoodNum num shw x).2
  | .str s, h => .str h
  | .arr vs, h => .arr (w := []) (w' := []) (by simp [Spaces]) (by simp [Spaces]) (toTexts_writes vs h)
  | .obj fs, h => .obj (w := []) (w' := []) (by simp [Spaces]) (by simp [Spaces]) (fieldTexts_writes fs h)
theorem toTexts_writes : ∀ vs : List (JsonVal ν), PlainVals (GoodNum num shw) vs → WritesItems num vs (joinComma (toTexts shw vs))
  | [], _ => .none
  | [v], h => .one (toText_writes v h.1)
  | v :: u :: us, h => .cons (w := []) (toText_writes v h.1) (by simp [Spaces]) (toTexts_writes (u :: us) h.2)
theorem fieldTexts_writes : ∀ fs : List (Str × JsonVal ν), PlainFields (GoodNum num shw) fs →
    WritesFields num fs (joinComma (fieldTexts shw fs))
  | [], _ => .none
  | [(k, v)], h => .one (w := []) (w' := []) h.1 (by simp [Spaces]) (by simp [Spaces]) (toText_writes v h.2.1)
  | (k, v) :: (k', u) :: us, h =>
    .cons (w := []) (w' := []) (w'' := []) h.1 (by simp [Spaces]) (by simp [Spaces]) (toText_writes v h.2.1) (by simp [Spaces])
      (fieldTexts_writes ((k', u) :: us) h.2.2)
end

/-- A buffer that holds the text `x`. -/
def bufOf (x : Str) : SBuf := ⟨x, x.getLast?⟩

theorem bufOf_push {alnum : Char → Bool} {x s : Str} (h : s ≠ [] → isWordOpt alnum x.getLast? = false ∨ isWordOpt alnum s.head? = false) :
    (bufOf x).push alnum s = bufOf (x ++ s) := by
  cases s with
  | nil => simp [SBuf.push]
  | cons c s =>
    have h := h (by simp)
    unfold SBuf.push bufOf
    simp only [List.head?_cons] at h ⊢
    have : (isWordOpt alnum x.getLast? && isWordOpt alnum (some c)) = false := by
      rcases h with h | h <;> simp [h]
    rw [this]
    have e : (x ++ c :: s).getLast? = (c :: s).getLast? := by
      rw [List.getLast?_append, List.getLast?_eq_some_getLast (List.cons_ne_nil c s)]; rfl
    rw [e]; rfl

theorem joinComma_cons (s : Str) (ss : List Str) : joinComma (s :: ss) = s ++ ss.flatMap (',' :: ·) := by
  induction ss generalizing s with
  | nil => simp [joinComma]
  | cons u ss ih => rw [joinComma, ih]; simp; simp

variable {alnum : Char → Bool} (ha : ∀ c, c ∈ "\"{}[],:".toList → alnum c = false)
include ha

theorem mark_word {c : Char} (hc : c ∈ "\"{}[],:".toList) : isWordOpt alnum (some c) = false := by
  simp only [isWordOpt, ha c hc, Bool.false_or]
  simp at hc
  rcases hc with rfl | rfl | rfl | rfl | rfl | rfl | rfl <;> rfl

theorem bufOf_mark {c : Char} (hc : c ∈ "\"{}[],:".toList) (x : Str) : (bufOf x).push alnum [c] = bufOf (x ++ [c]) :=
  bufOf_push (fun _ => .inr (mark_word ha hc))

theorem last_mark {c : Char} (hc : c ∈ "\"{}[],:".toList) (x : Str) : isWordOpt alnum (x ++ [c]).getLast? = false := by
  rw [List.getLast?_append]; exact mark_word ha hc

theorem stringSource_buf (x s : Str) : stringSource alnum (bufOf x) s = bufOf (x ++ ('"' :: (s ++ ['"']))) := by
  unfold stringSource
  rw [bufOf_mark ha (by decide), bufOf_push (fun _ => .inl (last_mark ha (by decide) x)), bufOf_mark ha (by decide)]
  simp

mutual
theorem toSource_buf : ∀ (v : JsonVal ν) (x : Str), isWordOpt alnum x.getLast? = false →
    toSource shw alnum (bufOf x) v = bufOf (x ++ toText shw v)
  | .null, x, h => by rw [toSource, toText]; exact bufOf_push (fun _ => .inl h)
  | .bool b, x, h => by rw [toSource, toText]; exact bufOf_push (fun _ => .inl h)
  | .num v, x, h => by rw [toSource, toText]; exact bufOf_push (fun _ => .inl h)
  | .str s, x, h => by rw [toSource, toText]; exact stringSource_buf ha x s
  | .arr vs, x, h => by
    rw [toSource, bufOf_mark ha (by decide), elementsSource_buf vs (x ++ ['[']) true (fun _ => last_mark ha (by decide) x),
      bufOf_mark ha (by decide), toText]
    cases vs with
    | nil => simp [toTexts, joinComma]
    | cons v vs => simp [toTexts, joinComma_cons]
  | .obj fs, x, h => by
    rw [toSource, bufOf_mark ha (by decide), fieldsSource_buf fs (x ++ ['{']) true (fun _ => last_mark ha (by decide) x),
      bufOf_mark ha (by decide), toText]
    cases fs with
    | nil => simp [fieldTexts, joinComma]
    | cons f fs => obtain ⟨k, v⟩ := f; simp [fieldTexts, joinComma_cons]
theorem elementsSource_buf : ∀ (vs : List (JsonVal ν)) (x : Str) (first : Bool), (first = true → isWordOpt alnum x.getLast? = false) →
    elementsSource shw alnum first (bufOf x) vs =
      bufOf (x ++ (match toTexts shw vs with
        | [] => []
        | s :: ss => (if first then [] else [',']) ++ (s ++ ss.flatMap (',' :: ·))))
  | [], x, first, h => by simp [elementsSource, toTexts]
  | v :: vs, x, first, h => by
    have hc : commaSource alnum first (bufOf x) = bufOf (x ++ (if first then [] else [','])) := by
      cases first
      · exact bufOf_mark ha (by decide) x
      · simp [commaSource]
    have hl : isWordOpt alnum (x ++ (if first then [] else [','])).getLast? = false := by
      cases first
      · exact last_mark ha (by decide) x
      · simpa using h rfl
    rw [elementsSource, hc, toSource_buf v _ hl, elementsSource_buf vs _ false (by simp), toTexts]
    cases vs with
    | nil => simp [toTexts]
    | cons u us => simp [toTexts]
theorem fieldsSource_buf : ∀ (fs : List (Str × JsonVal ν)) (x : Str) (first : Bool), (first = true → isWordOpt alnum x.getLast? = false) →
    fieldsSource shw alnum first (bufOf x) fs =
      bufOf (x ++ (match fieldTexts shw fs with
        | [] => []
        | s :: ss => (if first then [] else [',']) ++ (s ++ ss.flatMap (',' :: ·))))
  | [], x, first, h => by simp [fieldsSource, fieldTexts]
  | (k, v) :: fs, x, first, h => by
    have hc : commaSource alnum first (bufOf x) = bufOf (x ++ (if first then [] else [','])) := by
      cases first
      · exact bufOf_mark ha (by decide) x
      · simp [commaSource]
    rw [fieldsSource, hc, stringSource_buf ha, bufOf_mark ha (by decide), toSource_buf v _ (last_mark ha (by decide) _),
      fieldsSource_buf fs _ false (by simp), fieldTexts]
    cases fs with
    | nil => simp [fieldTexts]
    | cons u us => obtain ⟨k', u⟩ := u; simp [fieldTexts]
end

theorem toSource_new (v : JsonVal ν) : (toSource shw alnum SBuf.new v).inner = toText shw v := by
  have := toSource_buf shw ha v [] rfl
  rw [show SBuf.new = bufOf [] from rfl, this]
  simp [bufOf]

end

end
end
end Oaks
