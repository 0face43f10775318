import Verif.Spec.Highlight
import Verif.Proofs.Visit

/-! Escaping, themes and segments. -/

namespace Oaks
open Spec

/-! ### JSON -/

theorem hex4_control : ∀ n < 160, hexVal4 (hexDigit (n / 4096 % 16)) (hexDigit (n / 256 % 16)) (hexDigit (n / 16 % 16))
    (hexDigit (n % 16)) = some n ∧ n.isValidChar := by decide +kernel

theorem hexDigit_visible : ∀ n < 16, isControl (hexDigit n) = false := by decide +kernel

theorem isControl_lt {c : Char} (h : isControl c = true) : c.toNat < 160 := by
  simp [isControl] at h; omega

theorem isControl_ge {c : Char} (h : isControl c = false) : 0x20 ≤ c.toNat := by
  simp [isControl] at h; omega

theorem readsString_char (c : Char) {s t rest : Str} (h : ReadsString s t rest) :
    ReadsString (jsonEscapeChar c ++ s) (c :: t) rest := by
  unfold jsonEscapeChar
  repeat' split
  · next h0 => subst h0; exact .short (e := '"') rfl h
  · next h0 => subst h0; exact .short (e := '\\') rfl h
  · next h0 => subst h0; exact .short (e := 'b') rfl h
  · next h0 => subst h0; exact .short (e := 'f') rfl h
  · next h0 => subst h0; exact .short (e := 'n') rfl h
  · next h0 => subst h0; exact .short (e := 'r') rfl h
  · next h0 => subst h0; exact .short (e := 't') rfl h
  · next h0 =>
    obtain ⟨h1, h2⟩ := hex4_control c.toNat (isControl_lt h0)
    have := ReadsString.code h1 h2 h
    rw [Char.ofNat_toNat] at this
    exact this
  · next h1 h2 _ _ _ _ _ h3 => exact .plain h1 h2 (isControl_ge (by simpa using h3)) h

theorem readsString_escape (s : Str) (rest : Str) : ReadsString (jsonEscape s ++ '"' :: rest) s rest := by
  induction s with
  | nil => exact .close
  | cons c s ih =>
    rw [jsonEscape, List.flatMap_cons, List.append_assoc]
    exact readsString_char c ih

theorem readsString_unique {s t rest t' rest' : Str} (h : ReadsString s t rest) (h' : ReadsString s t' rest') :
    t = t' ∧ rest = rest' := by
  induction h generalizing t' rest' with
  | close =>
    cases h' with
    | close => exact ⟨rfl, rfl⟩
    | plain h1 => exact absurd rfl h1
  | plain h1 h2 h3 _ ih =>
    cases h' with
    | close => exact absurd rfl h1
    | plain _ _ _ h => obtain ⟨rfl, rfl⟩ := ih h; exact ⟨rfl, rfl⟩
    | short _ _ => exact absurd rfl h2
    | code _ _ _ => exact absurd rfl h2
  | short h1 _ ih =>
    cases h' with
    | plain _ h2 => exact absurd rfl h2
    | short h2 h =>
      obtain ⟨rfl, rfl⟩ := ih h
      rw [h1] at h2; cases h2
      exact ⟨rfl, rfl⟩
    | code _ _ _ => simp [shortEscape] at h1
  | code h1 h2 _ ih =>
    cases h' with
    | plain _ h2 => exact absurd rfl h2
    | short h2 h => simp [shortEscape] at h2
    | code h3 h4 h =>
      obtain ⟨rfl, rfl⟩ := ih h
      rw [h1] at h3; cases h3
      exact ⟨rfl, rfl⟩

theorem jsonEscape_visible (s : Str) : ∀ c ∈ jsonEscape s, isControl c = false := by
  intro c hc
  obtain ⟨x, _, hx⟩ := List.mem_flatMap.1 hc
  unfold jsonEscapeChar at hx
  repeat' split at hx
  all_goals try (simp only [List.mem_cons, List.not_mem_nil, or_false] at hx; rcases hx with rfl | rfl <;> decide)
  · simp only [hex4, List.mem_cons, List.not_mem_nil, or_false] at hx
    rcases hx with rfl | rfl | rfl | rfl | rfl | rfl
    · decide
    · decide
    all_goals exact hexDigit_visible _ (Nat.mod_lt _ (by decide))
  · next h => rw [List.mem_singleton] at hx; subst hx; simpa using h

/-! ### the JSON exporter -/

theorem jtext_str (s : Str) : JText (.str s) (lit "\"" ++ jsonEscape s ++ lit "\"") :=
  .str (readsString_escape s [])

/-- A plain name is its own JSON string. -/
theorem jtext_name (k : Str) (h : jsonEscape k = k) : JText (.str k) ('"' :: k ++ ['"']) := by
  have := jtext_str k
  rw [h] at this; exact this

theorem jtext_bool (b : Bool) : JText (.bool b) (boolStr b) := by
  cases b
  · exact .false
  · exact .true

theorem jitems_join {A : Type} (l : List A) (v : A → JVal) (t : A → Str) (h : ∀ a ∈ l, JText (v a) (t a)) :
    JItems (l.map v) (joinStr [','] (l.map t)) := by
  induction l with
  | nil => exact .nil
  | cons a l ih =>
    have h1 := h a (List.mem_cons_self ..)
    have h2 := ih fun x hx => h x (List.mem_cons_of_mem _ hx)
    cases l with
    | nil => simpa [joinStr] using JItems.one h1
    | cons b l =>
      have := JItems.more h1 (by simp) h2
      simpa [joinStr] using this

/-- A field of an object: the name, the value and its text. -/
structure Field where
  key : Str
  plain : jsonEscape key = key
  val : JVal
  text : Str
  ok : JText val text

theorem jfields_join (l : List Field) :
    JFields (l.map fun f => (f.key, f.val)) (joinStr [','] (l.map fun f => '"' :: f.key ++ '"' :: ':' :: f.text)) := by
  induction l with
  | nil => exact .nil
  | cons a l ih =>
    cases l with
    | nil =>
      have := JFields.one (jtext_name a.key a.plain) a.ok
      simpa [joinStr] using this
    | cons b l =>
      have := JFields.more (jtext_name a.key a.plain) a.ok (by simp) ih
      simpa [joinStr] using this

theorem jsonSegment_ok (s : Segment) : JText (segVal s) (jsonSegment s) := by
  have hspan := JText.obj (jfields_join [⟨lit "start", by decide +kernel, _, _, .nat s.start⟩, ⟨lit "end", by decide +kernel, _, _, .nat s.stop⟩])
  let fs : List Field := [⟨lit "bold", by decide +kernel, _, _, jtext_bool s.style.bold⟩,
      ⟨lit "italic", by decide +kernel, _, _, jtext_bool s.style.italic⟩,
      ⟨lit "underline", by decide +kernel, _, _, jtext_bool s.style.underline⟩] ++
    (match s.style.color with | some c => [⟨lit "color", by decide +kernel, _, _, jtext_str c⟩] | none => []) ++
    (match s.style.background with | some c => [⟨lit "background_color", by decide +kernel, _, _, jtext_str c⟩] | none => [])
  have hstyle := JText.obj (jfields_join fs)
  have hall := JText.obj (jfields_join [⟨lit "span", by decide +kernel, _, _, hspan⟩, ⟨lit "style", by decide +kernel, _, _, hstyle⟩,
    ⟨lit "text", by decide +kernel, _, _, jtext_str s.text⟩])
  have e1 : segVal s = .obj ([(⟨lit "span", by decide +kernel, _, _, hspan⟩ : Field), ⟨lit "style", by decide +kernel, _, _, hstyle⟩,
    ⟨lit "text", by decide +kernel, _, _, jtext_str s.text⟩].map fun f => (f.key, f.val)) := by
    simp only [segVal, List.map_cons, List.map_nil, fs]
    cases s.style.color <;> cases s.style.background <;> rfl
  rw [e1]
  refine cast (congrArg _ ?_) hall
  simp only [List.map_cons, List.map_nil, fs, jsonSegment]
  cases s.style.color <;> cases s.style.background <;>
    simp [joinStr, lit]

theorem exportJson_ok (segs : List Segment) (source : Str) : JText (resultVal segs source) (exportJson segs source) := by
  have h1 := JText.arr (jitems_join segs segVal jsonSegment fun s _ => jsonSegment_ok s)
  have h2 := JText.obj (jfields_join [⟨lit "segments", by decide +kernel, _, _, h1⟩, ⟨lit "source", by decide +kernel, _, _, jtext_str source⟩])
  have e : resultVal segs source = .obj ([(⟨lit "segments", by decide +kernel, _, _, h1⟩ : Field),
    ⟨lit "source", by decide +kernel, _, _, jtext_str source⟩].map fun f => (f.key, f.val)) := rfl
  rw [e]
  refine cast (congrArg _ ?_) h2
  simp [joinStr, exportJson, lit]

/-! ### HTML -/

theorem readHtml_escapeChar (c : Char) (r : Str) :
    readHtml .text (htmlEscapeChar c ++ r) = .ch c :: readHtml .text r := by
  unfold htmlEscapeChar
  repeat' split
  all_goals try (next h => subst h; simp [readHtml, entityChar, lit])
  next h1 h2 h3 h4 h5 => simp [readHtml, h1, h2, h3]

theorem readHtml_escape (s r : Str) : readHtml .text (htmlEscape s ++ r) = s.map .ch ++ readHtml .text r := by
  induction s with
  | nil => rfl
  | cons c s ih =>
    rw [htmlEscape, List.flatMap_cons, List.append_assoc, readHtml_escapeChar]
    simp only [List.map_cons, List.cons_append, List.cons.injEq, true_and]
    exact ih

theorem htmlEscape_diag (s : Str) : htmlEscapeDiag s = htmlEscape s := by
  induction s with
  | nil => rfl
  | cons c s ih =>
    simp only [htmlEscapeDiag, htmlEscape, replaceCh, List.flatMap_cons, List.flatMap_append] at ih ⊢
    rw [ih]
    congr 1
    unfold htmlEscapeChar
    by_cases h1 : c = '<'
    · subst h1; decide +kernel
    by_cases h2 : c = '>'
    · subst h2; decide +kernel
    by_cases h3 : c = '&'
    · subst h3; decide +kernel
    by_cases h4 : c = '"'
    · subst h4; decide +kernel
    by_cases h5 : c = '\''
    · subst h5; decide +kernel
    simp [h1, h2, h3, h4, h5]

/-- Reading a tag whose inside has balanced quotes and no `>` outside them. -/
def quoteAfter (q : Bool) : Str → Option Bool
  | [] => some q
  | c :: r => if c = '>' ∧ q = false then none else quoteAfter (if c = '"' then !q else q) r

theorem readHtml_tag (t : Str) (q : Bool) (a r : Str) (h : quoteAfter q t = some false) :
    readHtml (.tag q a) (t ++ '>' :: r) = .tag (a ++ t) :: readHtml .text r := by
  induction t generalizing q a with
  | nil =>
    simp [quoteAfter] at h; subst h
    simp [readHtml]
  | cons c t ih =>
    simp only [quoteAfter] at h
    split at h
    · cases h
    · next hc =>
      rw [List.cons_append, readHtml, if_neg hc, ih _ _ h]
      simp

theorem readHtml_open (t r : Str) (h : quoteAfter false t = some false) :
    readHtml .text ('<' :: (t ++ '>' :: r)) = .tag t :: readHtml .text r := by
  rw [readHtml, if_pos rfl, readHtml_tag t false [] r h]; rfl

theorem quoteAfter_append (q : Bool) (a b : Str) :
    quoteAfter q (a ++ b) = (quoteAfter q a).bind fun q => quoteAfter q b := by
  induction a generalizing q with
  | nil => rfl
  | cons c a ih =>
    simp only [List.cons_append, quoteAfter]
    split
    · rfl
    · exact ih _

/-- Inside quotes, text without a quote stays inside. -/
theorem quoteAfter_quoted (a : Str) (h : '"' ∉ a) : quoteAfter true a = some true := by
  induction a with
  | nil => rfl
  | cons c a ih =>
    rw [List.mem_cons, not_or] at h
    simp only [quoteAfter, Bool.true_eq_false, and_false, if_false]
    rw [if_neg (fun hc => h.1 hc.symm)]
    exact ih h.2

theorem readHtml_segment (t text r : Str) (h : quoteAfter false t = some false) :
    readHtml .text ('<' :: (t ++ '>' :: (htmlEscape text ++ (lit "</span>" ++ r)))) =
      segTokens (some t) text ++ readHtml .text r := by
  rw [readHtml_open t _ h, readHtml_escape]
  have : lit "</span>" ++ r = '<' :: (lit "/span" ++ '>' :: r) := by simp [lit]
  rw [this, readHtml_open _ _ (by decide)]
  simp [segTokens]

theorem not_mem_join {c : Char} (sep : Str) (l : List Str) (hs : c ∉ sep) (hl : ∀ x ∈ l, c ∉ x) : c ∉ joinStr sep l := by
  induction l with
  | nil => simp [joinStr]
  | cons a l ih =>
    cases l with
    | nil => simpa [joinStr] using hl
    | cons b l =>
      have e : joinStr sep (a :: b :: l) = a ++ (sep ++ joinStr sep (b :: l)) := by simp [joinStr]
      rw [e, List.mem_append, List.mem_append]
      rintro (h | h | h)
      · exact hl a (by simp) h
      · exact hs h
      · exact ih (fun x hx => hl x (List.mem_cons_of_mem _ hx)) h

/-- An attribute whose value has no quote. -/
theorem quoteAfter_attr (name value : Str) (hn : quoteAfter false name = some true) (hv : '"' ∉ value) :
    quoteAfter false (name ++ value ++ lit "\"") = some false := by
  rw [quoteAfter_append, quoteAfter_append, hn, Option.bind_some, quoteAfter_quoted _ hv]
  decide

theorem mem_ite_lit {b : Bool} {y : String} {x : Str} (h : x ∈ (if b = true then [lit y] else [])) : x = lit y := by
  cases b
  · simp at h
  · simpa using h

theorem htmlClass_read (s : Segment) (r : Str) :
    readHtml .text (htmlClass s ++ r) = segTokens (classTag s) s.text ++ readHtml .text r := by
  have hq : '"' ∉ joinStr (lit " ") ((if s.style.bold then [lit "bold"] else []) ++
        (if s.style.italic then [lit "italic"] else []) ++ (if s.style.underline then [lit "underline"] else [])) := by
      refine not_mem_join _ _ (by decide) ?_
      intro x hx
      simp only [List.mem_append] at hx
      rcases hx with (hx | hx) | hx <;> rw [mem_ite_lit hx] <;> decide
  unfold htmlClass classTag
  simp only [List.isEmpty_iff]
  generalize ((if s.style.bold then [lit "bold"] else []) ++
        (if s.style.italic then [lit "italic"] else []) ++ (if s.style.underline then [lit "underline"] else [])) = cs at hq ⊢
  by_cases hcs : cs = []
  · rw [if_pos hcs, if_pos hcs]
    exact readHtml_escape _ _
  · rw [if_neg hcs, if_neg hcs]
    have := readHtml_segment _ s.text r (quoteAfter_attr (lit "span class=\"") _ (by decide) hq)
    rw [← this]
    congr 1
    simp [lit]

theorem htmlInline_read (s : Segment) (r : Str) (hc : ∀ c, s.style.color = some c → '"' ∉ c)
    (hb : ∀ c, s.style.background = some c → '"' ∉ c) :
    readHtml .text (htmlInline s ++ r) = segTokens (inlineTag s) s.text ++ readHtml .text r := by
  have hq : '"' ∉ joinStr (lit "; ") ((match s.style.color with | some c => [lit "color: " ++ c] | none => []) ++
    (match s.style.background with | some c => [lit "background-color: " ++ c] | none => []) ++
    (if s.style.bold then [lit "font-weight: bold"] else []) ++
    (if s.style.italic then [lit "font-style: italic"] else []) ++
    (if s.style.underline then [lit "text-decoration: underline"] else [])) := by
      refine not_mem_join _ _ (by decide) ?_
      intro x hx
      simp only [List.mem_append] at hx
      rcases hx with (((hx | hx) | hx) | hx) | hx
      · split at hx
        · next c h =>
          rw [List.mem_singleton.1 hx, List.mem_append, not_or]
          exact ⟨by decide, hc c h⟩
        · simp at hx
      · split at hx
        · next c h =>
          rw [List.mem_singleton.1 hx, List.mem_append, not_or]
          exact ⟨by decide, hb c h⟩
        · simp at hx
      all_goals rw [mem_ite_lit hx]; decide
  unfold htmlInline inlineTag
  simp only [List.isEmpty_iff]
  generalize ((match s.style.color with | some c => [lit "color: " ++ c] | none => []) ++
    (match s.style.background with | some c => [lit "background-color: " ++ c] | none => []) ++
    (if s.style.bold then [lit "font-weight: bold"] else []) ++
    (if s.style.italic then [lit "font-style: italic"] else []) ++
    (if s.style.underline then [lit "text-decoration: underline"] else [])) = cs at hq ⊢
  by_cases hcs : cs = []
  · rw [if_pos hcs, if_pos hcs]
    exact readHtml_escape _ _
  · rw [if_neg hcs, if_neg hcs]
    have := readHtml_segment _ s.text r (quoteAfter_attr (lit "span style=\"") _ (by decide) hq)
    rw [← this]
    congr 1
    simp [lit]

theorem readHtml_segs (f : Segment → Str) (tag : Segment → Option Str) (segs : List Segment) (r : Str)
    (h : ∀ s ∈ segs, ∀ r, readHtml .text (f s ++ r) = segTokens (tag s) s.text ++ readHtml .text r) :
    readHtml .text (segs.flatMap f ++ r) = segs.flatMap (fun s => segTokens (tag s) s.text) ++ readHtml .text r := by
  induction segs with
  | nil => rfl
  | cons s segs ih =>
    rw [List.flatMap_cons, List.append_assoc, h s (List.mem_cons_self ..),
      ih fun x hx => h x (List.mem_cons_of_mem _ hx), List.flatMap_cons, List.append_assoc]

/-! ### themes -/

theorem parentScope_none {s : Str} : parentScope s = none ↔ '.' ∉ s := by
  unfold parentScope
  split
  · next h =>
    simp only [true_iff]
    have : ∀ l : List Char, l.dropWhile (fun c => decide (c ≠ '.')) = [] → '.' ∉ l := by
      intro l
      induction l with
      | nil => simp
      | cons c l ih =>
        rw [List.dropWhile_cons]
        split
        · next hc =>
          intro h hm
          rcases List.mem_cons.1 hm with rfl | hm
          · simp at hc
          · exact ih h hm
        · intro h; cases h
    intro hm
    exact this _ h (List.mem_reverse.2 hm)
  · next c r h =>
    simp only [reduceCtorEq, false_iff, Decidable.not_not]
    have : ∀ l : List Char, l.dropWhile (fun c => decide (c ≠ '.')) = c :: r → '.' ∈ l := by
      intro l
      induction l with
      | nil => intro h; cases h
      | cons x l ih =>
        rw [List.dropWhile_cons]
        split
        · intro h; exact List.mem_cons_of_mem _ (ih h)
        · next hx => intro _; simp at hx; subst hx; exact List.mem_cons_self ..
    exact List.mem_reverse.1 (this _ h)

/-- The parent scope is what stands before the last dot. -/
theorem parentScope_some {s p : Str} : parentScope s = some p ↔ ∃ r, s = p ++ '.' :: r ∧ '.' ∉ r := by
  have key : ∀ l : List Char, ∀ x r, l.dropWhile (fun c => decide (c ≠ '.')) = x :: r →
      x = '.' ∧ ∃ b, l = b ++ '.' :: r ∧ '.' ∉ b := by
    intro l
    induction l with
    | nil => intro x r h; cases h
    | cons c l ih =>
      intro x r
      rw [List.dropWhile_cons]
      split
      · next hc =>
        intro h
        obtain ⟨h1, b, h2, h3⟩ := ih x r h
        refine ⟨h1, c :: b, by rw [h2]; rfl, ?_⟩
        intro hm
        rcases List.mem_cons.1 hm with rfl | hm
        · simp at hc
        · exact h3 hm
      · next hc =>
        intro h
        simp at hc
        cases h
        exact ⟨hc, [], by rw [hc]; rfl, by simp⟩
  unfold parentScope
  constructor
  · intro h
    split at h
    · cases h
    · next x r hx =>
      cases h
      obtain ⟨_, b, h2, h3⟩ := key _ _ _ hx
      refine ⟨b.reverse, ?_, by simpa using h3⟩
      have := congrArg List.reverse h2
      simpa using this
  · rintro ⟨r, rfl, hr⟩
    have : ∀ b : List Char, '.' ∉ b → ∀ q, (b ++ '.' :: q).dropWhile (fun c => decide (c ≠ '.')) = '.' :: q := by
      intro b
      induction b with
      | nil => intro _ q; simp
      | cons c b ih =>
        intro hb q
        rw [List.mem_cons, not_or] at hb
        rw [List.cons_append, List.dropWhile_cons, if_pos (by simpa using fun h => hb.1 h.symm)]
        exact ih hb.2 q
    have e : (p ++ '.' :: r).reverse = r.reverse ++ '.' :: p.reverse := by simp
    rw [e, this _ (by simpa using hr)]
    simp

theorem parts_append (a b : Str) : parts (a ++ '.' :: b) = parts a + parts b := by
  simp [parts]; omega

theorem parts_nodot {r : Str} (h : '.' ∉ r) : parts r = 1 := by
  simp only [parts, Nat.add_eq_right, List.length_eq_zero_iff, List.filter_eq_nil_iff]
  intro c hc h'
  simp only [decide_eq_true_eq] at h'
  exact h (h' ▸ hc)

/-- Prefixes of a scope other than itself are prefixes of its parent. -/
theorem scopePrefix_parent {s p q : Str} (hp : parentScope s = some p) :
    ScopePrefix q s ↔ q ≠ [] ∧ q = s ∨ ScopePrefix q p := by
  obtain ⟨r, rfl, hr⟩ := parentScope_some.1 hp
  constructor
  · rintro ⟨h0, h | ⟨r', h⟩⟩
    · exact .inl ⟨h0, h⟩
    · right
      refine ⟨h0, ?_⟩
      rw [List.append_eq_append_iff] at h
      rcases h with ⟨a, h1, h2⟩ | ⟨a, h1, h2⟩
      · cases a with
        | nil => left; simpa using h1
        | cons x a =>
          exfalso
          rw [List.cons_append] at h2
          cases h2
          exact hr (by simp)
      · cases a with
        | nil => left; simpa using h1.symm
        | cons x a =>
          right
          rw [List.cons_append] at h2
          cases h2
          exact ⟨a, h1⟩
  · rintro (⟨h0, h⟩ | ⟨h0, h | ⟨r', h⟩⟩)
    · exact ⟨h0, .inl h⟩
    · exact ⟨h0, .inr ⟨r, by rw [h]⟩⟩
    · exact ⟨h0, .inr ⟨r' ++ '.' :: r, by rw [h]; simp⟩⟩

theorem scopePrefix_top {s q : Str} (hp : parentScope s = none) : ScopePrefix q s ↔ q ≠ [] ∧ q = s := by
  constructor
  · rintro ⟨h0, h | ⟨r, h⟩⟩
    · exact ⟨h0, h⟩
    · exact absurd (by rw [h]; simp) (parentScope_none.1 hp)
  · rintro ⟨h0, h⟩; exact ⟨h0, .inl h⟩

theorem scopePrefix_length {s q : Str} (h : ScopePrefix q s) : q.length ≤ s.length := by
  rcases h.2 with rfl | ⟨r, rfl⟩ <;> simp

theorem resolveLoop_spec (t : Theme) (fuel : Nat) (s : Str) (hf : s.length < fuel) :
    (resolveLoop t fuel s = .ok none ∧ NoMatch t s) ∨
    ∃ p st, resolveLoop t fuel s = .ok (some st) ∧ BestMatch t s p st := by
  induction fuel generalizing s with
  | zero => omega
  | succ fuel ih =>
    unfold resolveLoop
    split
    · next h =>
      left
      refine ⟨rfl, ?_⟩
      rintro q ⟨h0, hq | ⟨r, hr⟩⟩
      · rw [hq] at h0; exact absurd h h0
      · rw [h] at hr; simp at hr
    · next h0 =>
      cases ht : t s with
      | some st =>
        right
        exact ⟨s, st, rfl, ⟨h0, .inl rfl⟩, ht, fun q hq _ => scopePrefix_length hq⟩
      | none =>
        cases hp : parentScope s with
        | none =>
          left
          refine ⟨rfl, ?_⟩
          intro q hq
          rw [((scopePrefix_top hp).1 hq).2]; exact ht
        | some p =>
          simp only []
          have hlen : p.length < s.length := by
            obtain ⟨r, rfl, _⟩ := parentScope_some.1 hp
            simp
          rcases ih p (by omega) with ⟨h1, h2⟩ | ⟨q, st, h1, ⟨h2, h3, h4⟩⟩
          · left
            refine ⟨h1, ?_⟩
            intro q hq
            rcases (scopePrefix_parent hp).1 hq with ⟨_, rfl⟩ | hq
            · exact ht
            · exact h2 q hq
          · right
            refine ⟨q, st, h1, (scopePrefix_parent hp).2 (.inr h2), h3, ?_⟩
            intro q' hq' hs
            rcases (scopePrefix_parent hp).1 hq' with ⟨_, rfl⟩ | hq'
            · rw [ht] at hs; cases hs
            · exact h4 q' hq' hs

/-- The inner loop of `resolve_styles` compares the depth of the most specific match. -/
theorem resolveInner_spec (t : Theme) (fuel : Nat) (s : Str) (best : Option Style × Int) (hf : s.length < fuel) :
    (resolveInner t fuel s (parts s) best = .ok best ∧ NoMatch t s) ∨
    ∃ p st, BestMatch t s p st ∧
      resolveInner t fuel s (parts s) best = .ok (if (parts p : Int) > best.2 then (some st, (parts p : Int)) else best) := by
  induction fuel generalizing s with
  | zero => omega
  | succ fuel ih =>
    unfold resolveInner
    split
    · next h =>
      left
      refine ⟨rfl, ?_⟩
      rintro q ⟨h0, hq | ⟨r, hr⟩⟩
      · rw [hq] at h0; exact absurd h h0
      · rw [h] at hr; simp at hr
    · next h0 =>
      cases ht : t s with
      | some st =>
        right
        exact ⟨s, st, ⟨⟨h0, .inl rfl⟩, ht, fun q hq _ => scopePrefix_length hq⟩, rfl⟩
      | none =>
        cases hp : parentScope s with
        | none =>
          left
          refine ⟨rfl, ?_⟩
          intro q hq
          rw [((scopePrefix_top hp).1 hq).2]; exact ht
        | some p =>
          simp only []
          have hd : (parts s : Int) - 1 = parts p := by
            obtain ⟨r, rfl, hr⟩ := parentScope_some.1 hp
            rw [parts_append, parts_nodot hr]; omega
          rw [hd]
          have hlen : p.length < s.length := by
            obtain ⟨r, rfl, _⟩ := parentScope_some.1 hp
            simp
          rcases ih p (by omega) with ⟨h1, h2⟩ | ⟨q, st, ⟨h2, h3, h4⟩, h1⟩
          · left
            refine ⟨h1, ?_⟩
            intro q hq
            rcases (scopePrefix_parent hp).1 hq with ⟨_, rfl⟩ | hq
            · exact ht
            · exact h2 q hq
          · right
            refine ⟨q, st, ⟨(scopePrefix_parent hp).2 (.inr h2), h3, ?_⟩, h1⟩
            intro q' hq' hs
            rcases (scopePrefix_parent hp).1 hq' with ⟨_, rfl⟩ | hq'
            · rw [ht] at hs; cases hs
            · exact h4 q' hq' hs

/-- Prefixes of one scope with the same length are equal. -/
theorem bestMatch_unique {t : Theme} {s p q : Str} {st st' : Style} (h : BestMatch t s p st) (h' : BestMatch t s q st') :
    p = q ∧ st = st' := by
  have e : p = q := by
    have hl : p.length = q.length := by
      have a := h.2.2 q h'.1 (by rw [h'.2.1]; rfl)
      have b := h'.2.2 p h.1 (by rw [h.2.1]; rfl)
      omega
    have pre : ∀ {x : Str}, ScopePrefix x s → x <+: s := by
      rintro x ⟨_, rfl | ⟨r, rfl⟩⟩
      · exact List.prefix_rfl
      · exact List.prefix_append _ _
    exact (List.prefix_of_prefix_length_le (pre h.1) (pre h'.1) (by omega)).eq_of_length hl
  subst e
  have := h.2.1
  rw [h'.2.1] at this
  exact ⟨rfl, (Option.some.inj this).symm⟩

/-- The outcome of looking at scopes: nothing matched, or the first of the deepest matches. -/
def Deepest (t : Theme) (scopes : List Str) (best : Option Style × Int) : Prop :=
  (best = (none, -1) ∧ ∀ s ∈ scopes, NoMatch t s) ∨
  ∃ before s after p st, scopes = before ++ s :: after ∧ BestMatch t s p st ∧ best = (some st, (parts p : Int)) ∧
    (∀ s' ∈ before, ∀ q st', BestMatch t s' q st' → parts q < parts p) ∧
    (∀ s' ∈ after, ∀ q st', BestMatch t s' q st' → parts q ≤ parts p)

theorem noMatch_not_best {t : Theme} {s q : Str} {st : Style} (h : NoMatch t s) : ¬ BestMatch t s q st := by
  rintro ⟨h1, h2, _⟩
  rw [h q h1] at h2; cases h2

theorem resolveStyles_fold (t : Theme) (done scopes : List Str) (best : Option Style × Int) (h : Deepest t done best) :
    ∃ best', scopes.foldlM (m := Run) (fun best sc => resolveInner t (sc.length + 1) sc (splitCount sc) best) best = .ok best' ∧
      Deepest t (done ++ scopes) best' := by
  induction scopes generalizing done best with
  | nil => exact ⟨best, rfl, by simpa using h⟩
  | cons s scopes ih =>
    rw [List.foldlM_cons]
    have hstep : ∃ b, resolveInner t (s.length + 1) s (splitCount s) best = .ok b ∧ Deepest t (done ++ [s]) b := by
      rcases resolveInner_spec t (s.length + 1) s best (by omega) with ⟨h1, h2⟩ | ⟨p, st, h1, h2⟩
      · refine ⟨best, h1, ?_⟩
        rcases h with ⟨rfl, g⟩ | ⟨b, x, a, q, st', rfl, g1, g2, g3, g4⟩
        · left
          refine ⟨rfl, ?_⟩
          intro s' hs'
          rcases List.mem_append.1 hs' with hs' | hs'
          · exact g s' hs'
          · rw [List.mem_singleton.1 hs']; exact h2
        · right
          refine ⟨b, x, a ++ [s], q, st', by simp, g1, g2, g3, ?_⟩
          intro s' hs' q' st'' hb
          rcases List.mem_append.1 hs' with hs' | hs'
          · exact g4 s' hs' q' st'' hb
          · rw [List.mem_singleton.1 hs'] at hb
            exact absurd hb (noMatch_not_best h2)
      · refine ⟨_, h2, ?_⟩
        rcases h with ⟨rfl, g⟩ | ⟨b, x, a, q, st', rfl, g1, rfl, g3, g4⟩
        · right
          rw [if_pos (by simp; omega)]
          refine ⟨done, s, [], p, st, rfl, h1, rfl, ?_, by simp⟩
          intro s' hs' q' st'' hb
          exact absurd hb (noMatch_not_best (g s' hs'))
        · right
          split
          · next hgt =>
            simp only [gt_iff_lt, Int.ofNat_lt] at hgt
            refine ⟨b ++ x :: a, s, [], p, st, by simp, h1, rfl, ?_, by simp⟩
            intro s' hs' q' st'' hb
            rcases List.mem_append.1 hs' with hs' | hs'
            · have := g3 s' hs' q' st'' hb; omega
            · rcases List.mem_cons.1 hs' with rfl | hs'
              · rw [(bestMatch_unique hb g1).1]; exact hgt
              · have := g4 s' hs' q' st'' hb; omega
          · next hle =>
            simp only [gt_iff_lt, Int.ofNat_lt] at hle
            refine ⟨b, x, a ++ [s], q, st', by simp, g1, rfl, g3, ?_⟩
            intro s' hs' q' st'' hb
            rcases List.mem_append.1 hs' with hs' | hs'
            · exact g4 s' hs' q' st'' hb
            · rw [List.mem_singleton.1 hs'] at hb
              rw [(bestMatch_unique hb h1).1]; omega
    obtain ⟨b, h1, h2⟩ := hstep
    rw [h1, run_bind_ok]
    obtain ⟨best', h3, h4⟩ := ih (done ++ [s]) b h2
    exact ⟨best', h3, by simpa using h4⟩

theorem resolveStyles_ok (t : Theme) (scopes : List Str) :
    ∃ best, Deepest t scopes best ∧ resolveStyles t scopes = .ok (best.1.getD (noneStyle t)) := by
  obtain ⟨best, h1, h2⟩ := resolveStyles_fold t [] scopes (none, -1) (.inl ⟨rfl, by simp⟩)
  refine ⟨best, by simpa using h2, ?_⟩
  unfold resolveStyles
  rw [h1, run_bind_ok]
  cases best.1 <;> rfl

/-! ### segments -/

/-- Leaves that stand for pieces of the text: each has the length of its piece. -/
theorem highlight_fold (t : Theme) (scopesOf : Nat → List Str) (source : Str) (ls : List (Nat × Nat)) (texts : List Str)
    (pre : Str) (hl : texts.map blen = ls.map (·.2)) (hs : source = pre ++ texts.flatten) (segs : List Segment) :
    ∃ new, (place (blen pre) ls).foldlM (fun s l => visitToken t scopesOf source l s) segs = .ok (segs ++ new) ∧
      new.map (·.text) = texts ∧ new.map (fun s => (s.start, s.stop)) = (place (blen pre) ls).map (·.2) ∧
      ∀ (i : Nat) (s : Segment) (l : Nat × Nat), new[i]? = some s → ls[i]? = some l →
        resolveStyles t (scopesOf l.1) = .ok s.style := by
  induction ls generalizing texts pre segs with
  | nil =>
    cases texts with
    | nil => exact ⟨[], by simp [place], rfl, rfl, by simp⟩
    | cons x xs => simp at hl
  | cons l ls ih =>
    obtain ⟨k, n⟩ := l
    cases texts with
    | nil => simp at hl
    | cons x xs =>
      simp only [List.map_cons, List.cons.injEq] at hl
      obtain ⟨hx, hxs⟩ := hl
      obtain ⟨best, _, hst⟩ := resolveStyles_ok t (scopesOf k)
      have hget : strGet source (blen pre) (blen pre + n) = some x :=
        strGet_eq_some.2 ⟨pre, xs.flatten, by rw [hs]; simp, rfl, by rw [hx]⟩
      have hstep : visitToken t scopesOf source (k, blen pre, blen pre + n) segs =
          .ok (segs ++ [⟨blen pre, blen pre + n, best.1.getD (noneStyle t), x⟩]) := by
        simp only [visitToken, hst, run_bind_ok, hget]; rfl
      have hb : blen (pre ++ x) = blen pre + n := by rw [blen_append, hx]
      obtain ⟨new, h1, h2, h3, h4⟩ := ih xs (pre ++ x) hxs (by rw [hs]; simp)
        (segs ++ [⟨blen pre, blen pre + n, best.1.getD (noneStyle t), x⟩])
      rw [hb] at h1 h3
      refine ⟨⟨blen pre, blen pre + n, best.1.getD (noneStyle t), x⟩ :: new, ?_, by simp [h2], by simp [place, h3], ?_⟩
      · simp only [place, List.foldlM_cons, hstep, run_bind_ok, h1]
        simp
      · intro i s l hi hl
        cases i with
        | zero => simp at hi hl; subst hi; subst hl; exact hst
        | succ i => simp at hi hl; exact h4 i s l hi hl

/-! ### terminal escapes -/

theorem stripAnsi_plain (a b : Str) (h : '\x1b' ∉ a) : stripAnsi .text (a ++ b) = a ++ stripAnsi .text b := by
  induction a with
  | nil => rfl
  | cons c a ih =>
    rw [List.mem_cons, not_or] at h
    rw [List.cons_append, stripAnsi, if_neg (fun hc => h.1 hc.symm), ih h.2]; rfl

theorem stripAnsi_params (a b : Str) (h : 'm' ∉ a) : stripAnsi .params (a ++ 'm' :: b) = stripAnsi .text b := by
  induction a with
  | nil => simp [stripAnsi]
  | cons c a ih =>
    rw [List.mem_cons, not_or] at h
    rw [List.cons_append, stripAnsi, if_neg (fun hc => h.1 hc.symm), ih h.2]

theorem ansiColor_no_m (c : Str) : 'm' ∉ ansiColor c := by
  unfold ansiColor
  repeat' split
  all_goals decide

theorem ansiSegment_strip (s : Segment) (h : '\x1b' ∉ s.text) (r : Str) :
    stripAnsi .text (ansiSegment s ++ r) = s.text ++ stripAnsi .text r := by
  unfold ansiSegment
  split
  · have hm : ∀ l : List Str, (∀ x ∈ l, 'm' ∉ x) → 'm' ∉ joinStr (lit ";") l := by
      intro l hl
      induction l with
      | nil => simp [joinStr]
      | cons a l ih =>
        cases l with
        | nil => simpa [joinStr] using hl
        | cons b l =>
          have e : joinStr (lit ";") (a :: b :: l) = a ++ (lit ";" ++ joinStr (lit ";") (b :: l)) := by
            simp [joinStr]
          rw [e, List.mem_append, List.mem_append]
          rintro (h | h | h)
          · exact hl a (by simp) h
          · revert h; decide
          · exact ih (fun x hx => hl x (List.mem_cons_of_mem _ hx)) h
    have hcodes := hm (ansiCodes s) (by
      intro x hx
      unfold ansiCodes at hx
      have one : ∀ (b : Bool) (y : String), 'm' ∉ lit y → x ∈ (if b = true then [lit y] else []) → 'm' ∉ x := by
        intro b y hy hm
        cases b
        · simp at hm
        · simp at hm; rw [hm]; exact hy
      simp only [List.mem_append] at hx
      rcases hx with (((hx | hx) | hx) | hx) | hx
      · rw [List.mem_singleton.1 hx]; decide
      · exact one _ _ (by decide) hx
      · exact one _ _ (by decide) hx
      · exact one _ _ (by decide) hx
      · split at hx
        · rw [List.mem_singleton] at hx; subst hx; exact ansiColor_no_m _
        · simp at hx)
    generalize joinStr (lit ";") _ = codes at hcodes ⊢
    have e : lit "\x1b[" ++ codes ++ lit "m" ++ s.text ++ lit "\x1b[0m" ++ r =
        '\x1b' :: '[' :: (codes ++ 'm' :: (s.text ++ ('\x1b' :: '[' :: (['0'] ++ 'm' :: r)))) := by simp [lit]
    rw [e]
    rw [stripAnsi, if_pos rfl, stripAnsi, if_pos rfl, stripAnsi_params _ _ hcodes, stripAnsi_plain _ _ h,
      stripAnsi, if_pos rfl, stripAnsi, if_pos rfl, stripAnsi_params _ _ (by decide)]
  · exact stripAnsi_plain _ _ h

end Oaks
