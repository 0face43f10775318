import Verif.Spec.Svg
import Verif.Proofs.Highlight

/-! Lemmas for reading SVG. -/

namespace Oaks.Viz
open Oaks Oaks.Spec Oaks.Viz.Spec

theorem readHtml_plain : ∀ (s r : Str), PlainText s → readHtml .text (s ++ r) = s.map .ch ++ readHtml .text r
  | [], r, _ => rfl
  | c :: s, r, h => by
    obtain ⟨h1, h2, h3⟩ := h
    simp only [List.mem_cons, not_or] at h1 h2 h3
    rw [List.cons_append, readHtml, if_neg (Ne.symm h1.1), if_neg (Ne.symm h3.1), if_neg (Ne.symm h2.1),
      readHtml_plain s r ⟨h1.2, h2.2, h3.2⟩]
    rfl

theorem see_plain (s : Str) (ts : List HTok) : see none (s.map .ch ++ ts) = see none ts := by
  induction s with
  | nil => rfl
  | cons c s ih => rw [List.map_cons, List.cons_append, see, ih]

theorem see_label (as : List (Str × Str)) : ∀ (s a : Str) (ts : List HTok), see (some (as, a)) (s.map .ch ++ ts) = see (some (as, a ++ s)) ts
  | [], a, ts => by simp
  | c :: s, a, ts => by rw [List.map_cons, List.cons_append, see, see_label as s]; simp

theorem picture_plain (s r : Str) (h : PlainText s) : picture (s ++ r) = picture r := by
  unfold picture; rw [readHtml_plain s r h, see_plain]

/-- Attributes a reader can read. -/
def OkAttrs (kvs : List (Str × Str)) : Prop := ∀ kv ∈ kvs, PlainKey kv.1 ∧ PlainValue kv.2

theorem okAttrs_cons {k v : Str} {r : List (Str × Str)} (hk : PlainKey k) (hv : PlainValue v) (hr : OkAttrs r) : OkAttrs ((k, v) :: r) := by
  intro kv h
  rcases List.mem_cons.1 h with rfl | h
  · exact ⟨hk, hv⟩
  · exact hr kv h

theorem okAttrs_append {a b : List (Str × Str)} (ha : OkAttrs a) (hb : OkAttrs b) : OkAttrs (a ++ b) := by
  intro kv h
  rcases List.mem_append.1 h with h | h
  · exact ha kv h
  · exact hb kv h

theorem okAttrs_nil : OkAttrs [] := by intro kv h; simp at h

theorem readTag_key (k r : Str) : ∀ a : Str, (∀ c ∈ k, c ≠ '=') → readTag (.key a) (k ++ '=' :: r) = readTag (.eq (a ++ k)) r := by
  induction k with
  | nil => intro a _; simp [readTag]
  | cons c k ih =>
    intro a h
    rw [List.cons_append, readTag, if_neg (h c List.mem_cons_self), ih _ (fun d hd => h d (List.mem_cons_of_mem _ hd))]
    simp

theorem readTag_value (k v r : Str) : ∀ a : Str, '"' ∉ v → readTag (.value k a) (v ++ '"' :: r) = (k, a ++ v) :: readTag .between r := by
  induction v with
  | nil => intro a _; simp [readTag]
  | cons c v ih =>
    intro a h
    simp only [List.mem_cons, not_or] at h
    rw [List.cons_append, readTag, if_neg (Ne.symm h.1), ih _ h.2]
    simp

theorem readTag_attr (k v r : Str) (hk : PlainKey k) (hv : PlainValue v) :
    readTag .between (attrText (k, v) ++ r) = (k, v) :: readTag .between r := by
  obtain ⟨hne, hk⟩ := hk
  cases k with
  | nil => exact absurd rfl hne
  | cons c k =>
    have hc := hk c List.mem_cons_self
    have e : attrText (c :: k, v) ++ r = ' ' :: c :: (k ++ '=' :: '"' :: (v ++ '"' :: r)) := by
      simp [attrText, lit]
    rw [e, readTag, if_pos (.inl rfl), readTag, if_neg (by simp [hc.1, hc.2.1]),
      readTag_key _ _ _ (fun d hd => (hk d (List.mem_cons_of_mem _ hd)).2.2.1), readTag, if_pos rfl, readTag_value _ _ _ _ hv]
    rfl

theorem readTag_attrs (tail : Str) (ht : readTag .between tail = []) : ∀ kvs : List (Str × Str), OkAttrs kvs →
    readTag .between (kvs.flatMap attrText ++ tail) = kvs
  | [], _ => ht
  | (k, v) :: kvs, h => by
    rw [List.flatMap_cons, List.append_assoc, readTag_attr k v _ (h _ List.mem_cons_self).1 (h _ List.mem_cons_self).2,
      readTag_attrs tail ht kvs (fun kv hkv => h kv (List.mem_cons_of_mem _ hkv))]

theorem readTag_name : ∀ (name a r : Str), ' ' ∉ name → readTag (.name a) (name ++ ' ' :: r) = ([], a ++ name) :: readTag .between r
  | [], a, r, _ => by simp [readTag]
  | c :: name, a, r, h => by
    simp only [List.mem_cons, not_or] at h
    rw [List.cons_append, readTag, if_neg (Ne.symm h.1), readTag_name name _ r h.2]
    simp

theorem readTag_bare : ∀ (name a : Str), ' ' ∉ name → readTag (.name a) name = [([], a ++ name)]
  | [], a, _ => by simp [readTag]
  | c :: name, a, h => by
    simp only [List.mem_cons, not_or] at h
    rw [readTag, if_neg (Ne.symm h.1), readTag_bare name _ h.2]
    simp

theorem readTag_elem (name tail : Str) (kvs : List (Str × Str)) (hn : ' ' ∉ name) (hk : OkAttrs kvs)
    (ht : tail = [] ∨ (tail = lit "/" ∧ kvs ≠ [])) :
    readTag (.name []) (name ++ (kvs.flatMap attrText ++ tail)) = ([], name) :: kvs := by
  have hb : readTag .between tail = [] := by rcases ht with rfl | ⟨rfl, _⟩ <;> rfl
  cases kvs with
  | nil =>
    rcases ht with rfl | ⟨_, h⟩
    · simpa using readTag_bare name [] hn
    · exact absurd rfl h
  | cons kv kvs =>
    obtain ⟨k, v⟩ := kv
    have h := readTag_attrs tail hb _ hk
    obtain ⟨r, hr⟩ : ∃ r, ((k, v) :: kvs).flatMap attrText ++ tail = ' ' :: r := ⟨_, rfl⟩
    rw [hr] at h ⊢
    rw [readTag_name name [] r hn, List.nil_append]
    rw [readTag, if_pos (.inl rfl)] at h
    rw [h]

theorem quote_key : ∀ (k r : Str), (∀ c ∈ k, c ≠ '"' ∧ c ≠ '>') → quoteAfter false (k ++ r) = quoteAfter false r
  | [], _, _ => rfl
  | c :: k, r, h => by
    have hc := h c List.mem_cons_self
    rw [List.cons_append, quoteAfter, if_neg (by simp [hc.2]), if_neg hc.1, quote_key k r (fun d hd => h d (List.mem_cons_of_mem _ hd))]

theorem quote_attr (k v : Str) (hk : PlainKey k) (hv : PlainValue v) : quoteAfter false (attrText (k, v)) = some false := by
  unfold attrText
  rw [quote_key (lit " ") _ (by decide +kernel), quote_key k _ (fun c hc => ⟨(hk.2 c hc).2.2.2.1, (hk.2 c hc).2.2.2.2⟩)]
  rw [quoteAfter_append, show quoteAfter false (lit "=\"") = some true by decide +kernel, Option.bind_some, quoteAfter_append,
    quoteAfter_quoted _ hv, Option.bind_some]
  decide +kernel

theorem quote_attrs : ∀ kvs : List (Str × Str), OkAttrs kvs → quoteAfter false (kvs.flatMap attrText) = some false
  | [], _ => rfl
  | (k, v) :: kvs, h => by
    rw [List.flatMap_cons, quoteAfter_append, quote_attr k v (h _ List.mem_cons_self).1 (h _ List.mem_cons_self).2, Option.bind_some,
      quote_attrs kvs (fun kv hkv => h kv (List.mem_cons_of_mem _ hkv))]

/-- A name of an element. -/
def OkName (n : Str) : Prop := ∀ c ∈ n, c ≠ ' ' ∧ c ≠ '"' ∧ c ≠ '>'

theorem read_elem (name : Str) (kvs : List (Str × Str)) (tail r : Str) (hn : OkName name) (hk : OkAttrs kvs)
    (ht : tail = [] ∨ (tail = lit "/" ∧ kvs ≠ [])) :
    readHtml .text (openTag name kvs ++ (tail ++ (lit ">" ++ r))) = .tag (name ++ (kvs.flatMap attrText ++ tail)) :: readHtml .text r := by
  have e : openTag name kvs ++ (tail ++ (lit ">" ++ r)) = '<' :: ((name ++ (kvs.flatMap attrText ++ tail)) ++ '>' :: r) := by
    simp [openTag, lit]
  rw [e, readHtml_open]
  rw [quote_key name _ (fun c hc => (hn c hc).2), quoteAfter_append, quote_attrs kvs hk, Option.bind_some]
  rcases ht with rfl | ⟨rfl, _⟩ <;> decide +kernel

theorem attrOf_name (name : Str) (kvs : List (Str × Str)) : attrOf "" (([], name) :: kvs) = some name := by
  rw [attrOf, if_pos (by decide)]

theorem picture_elem (name : Str) (kvs : List (Str × Str)) (tail r : Str) (hn : OkName name) (hk : OkAttrs kvs)
    (ht : tail = [] ∨ (tail = lit "/" ∧ kvs ≠ [])) (hx : name ≠ lit "text") :
    picture (openTag name kvs ++ (tail ++ (lit ">" ++ r))) = shapeOf (([], name) :: kvs) ++ picture r := by
  unfold picture
  rw [read_elem name kvs tail r hn hk ht, see, readTag_elem name tail kvs (fun h => (hn _ h).1 rfl) hk ht, attrOf_name,
    if_neg (by simpa [lit] using hx)]

/-- An element that ends with `>`. -/
theorem picture_open (name : Str) (kvs : List (Str × Str)) (r : Str) (hn : OkName name) (hk : OkAttrs kvs) (hx : name ≠ lit "text") :
    picture (openTag name kvs ++ (lit ">" ++ r)) = shapeOf (([], name) :: kvs) ++ picture r :=
  picture_elem name kvs [] r hn hk (.inl rfl) hx

/-- An element that ends with `/>`. -/
theorem picture_empty (name : Str) (kvs : List (Str × Str)) (r : Str) (hn : OkName name) (hk : OkAttrs kvs) (hx : name ≠ lit "text")
    (hne : kvs ≠ []) :
    picture (openTag name kvs ++ (lit "/>" ++ r)) = shapeOf (([], name) :: kvs) ++ picture r :=
  picture_elem name kvs (lit "/") r hn hk (.inr ⟨rfl, hne⟩) hx

theorem picture_text (kvs : List (Str × Str)) (label r : Str) (hk : OkAttrs kvs) (hl : PlainText label) :
    picture (openTag (lit "text") kvs ++ (lit ">" ++ (label ++ (openTag (lit "/text") [] ++ (lit ">" ++ r))))) =
      .text ((attrOf "x" kvs).getD []) ((attrOf "y" kvs).getD []) ((attrOf "fill" kvs).getD []) ((attrOf "font-size" kvs).getD []) label :: picture r := by
  unfold picture
  have h1 := read_elem (lit "text") kvs [] (label ++ (openTag (lit "/text") [] ++ (lit ">" ++ r))) (by unfold OkName; decide +kernel) hk (.inl rfl)
  have h2 := read_elem (lit "/text") [] [] r (by unfold OkName; decide +kernel) okAttrs_nil (.inl rfl)
  rw [List.nil_append] at h1 h2
  rw [h1, see, readTag_elem (lit "text") [] kvs (by decide +kernel) hk (.inl rfl), attrOf_name, if_pos (by decide +kernel),
    readHtml_plain _ _ hl, see_label, h2, List.nil_append, see, if_pos (by decide +kernel)]
  have skip : ∀ k : String, k.toList ≠ [] → attrOf k (([], lit "text") :: kvs) = attrOf k kvs := by
    intro k hk; rw [attrOf, if_neg (Ne.symm hk)]
  rw [skip "x" (by decide), skip "y" (by decide), skip "fill" (by decide), skip "font-size" (by decide)]

end Oaks.Viz
