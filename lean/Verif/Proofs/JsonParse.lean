import Verif.Proofs.JsonLex
import Verif.Proofs.CsvDoc

/-! What the JSON parser builds from a row of tokens. -/
namespace Oaks
open Spec Json

def nodeOf : Bool → Nat | false => array | true => object

/-- Tokens that are a part of a value, and the trees they become. -/
inductive JD (cfg : JsonCfg) : JsonPart → List Group → List Green → Prop where
  | scalar {g k} : g.1.1 = stringLiteral ∨ g.1.1 = numberLiteral ∨ g.1.1 = booleanLiteral ∨ g.1.1 = nullLiteral →
      nodeKind g.1.1 = Option.some k → JD cfg (.item false) [g] [mkG k (leavesG g)]
  | seq {b g g' gs cs} : g.1.1 = openKind b → g'.1.1 = closeKind b → JD cfg (.items b) gs cs →
      JD cfg (.item false) (g :: (gs ++ [g'])) [mkG (nodeOf b) (leavesG g ++ (cs ++ leavesG g'))]
  | entry {g g' gs cs} : g.1.1 = stringLiteral ∨ cfg.bareKeys = true ∧ g.1.1 = bareKey → g'.1.1 = colon →
      JD cfg (.item false) gs cs → JD cfg (.item true) (g :: g' :: gs) [mkG objectEntry (leavesG g ++ (leavesG g' ++ cs))]
  | none {b} : JD cfg (.items b) [] []
  | some {b gs cs gs' cs'} : JD cfg (.item b) gs cs → JD cfg (.more b) gs' cs' → JD cfg (.items b) (gs ++ gs') (cs ++ cs')
  | last {b} : JD cfg (.more b) [] []
  | trailing {b g} : cfg.trailingComma = true → g.1.1 = comma → JD cfg (.more b) [g] (leavesG g)
  | next {b g gs cs gs' cs'} : g.1.1 = comma → JD cfg (.item b) gs cs → JD cfg (.more b) gs' cs' →
      JD cfg (.more b) (g :: (gs ++ gs')) (leavesG g ++ (cs ++ cs'))

def kindsG (gs : List Group) : List Nat := gs.map (·.1.1)

theorem JD.syntax {cfg : JsonCfg} {p : JsonPart} {gs : List Group} {cs : List Green} (h : JD cfg p gs cs) :
    JsonSyntax cfg p (kindsG gs) := by
  induction h with
  | scalar h _ => exact .scalar h
  | @seq b g g' gs cs h h' _ ih =>
    simp only [kindsG, List.map_cons, List.map_append, h, h', List.map_nil] at ih ⊢
    cases b
    · exact .array ih
    · exact .object ih
  | entry h h' _ ih =>
    simp only [kindsG, List.map_cons, h'] at ih ⊢
    exact .entry h ih
  | none => exact .none
  | some _ _ ih ih' => simp only [kindsG, List.map_append] at ih ih' ⊢; exact .some ih ih'
  | last => exact .last
  | trailing h h' => simp only [kindsG, List.map_cons, h', List.map_nil]; exact .trailing h
  | next h _ _ ih ih' => simp only [kindsG, List.map_append, List.map_cons, h] at ih ih' ⊢; exact .next ih ih'

theorem JD.of_syntax {cfg : JsonCfg} {p : JsonPart} {ks : List Nat} (h : JsonSyntax cfg p ks) :
    ∀ gs, kindsG gs = ks → ∃ cs, JD cfg p gs cs := by
  have seq : ∀ {b : Bool} {ks : List Nat}, (∀ gs, kindsG gs = ks → ∃ cs, JD cfg (.items b) gs cs) →
      ∀ gs, kindsG gs = openKind b :: (ks ++ [closeKind b]) → ∃ cs, JD cfg (.item false) gs cs := by
    intro b ks ih gs hg
    obtain ⟨g, gs, rfl, h1, h2⟩ := List.map_eq_cons_iff.mp hg
    obtain ⟨gs, l, rfl, h3, h4⟩ := List.map_eq_append_iff.mp h2
    obtain ⟨g', l', rfl, h5, h6⟩ := List.map_eq_cons_iff.mp h4
    obtain rfl := List.map_eq_nil_iff.mp h6
    obtain ⟨cs, hc⟩ := ih gs h3
    exact ⟨_, .seq h1 h5 hc⟩
  induction h with
  | @scalar k h =>
    intro gs hg
    obtain ⟨g, l, rfl, h1, h2⟩ := List.map_eq_cons_iff.mp hg
    obtain rfl := List.map_eq_nil_iff.mp h2
    have : ∃ n, nodeKind k = Option.some n := by rcases h with rfl | rfl | rfl | rfl <;> exact ⟨_, rfl⟩
    obtain ⟨n, hn⟩ := this
    exact ⟨_, .scalar (by rw [h1]; exact h) (by rw [h1]; exact hn)⟩
  | array _ ih => exact seq (b := false) ih
  | object _ ih => exact seq (b := true) ih
  | entry h _ ih =>
    intro gs hg
    obtain ⟨g, l, rfl, h1, h2⟩ := List.map_eq_cons_iff.mp hg
    obtain ⟨g', l, rfl, h3, h4⟩ := List.map_eq_cons_iff.mp h2
    obtain ⟨cs, hc⟩ := ih l h4
    exact ⟨_, .entry (by rw [h1]; exact h) h3 hc⟩
  | none =>
    intro gs hg
    obtain rfl := List.map_eq_nil_iff.mp hg
    exact ⟨_, .none⟩
  | some _ _ ih ih' =>
    intro gs hg
    obtain ⟨a, b, rfl, h1, h2⟩ := List.map_eq_append_iff.mp hg
    obtain ⟨cs, hc⟩ := ih a h1
    obtain ⟨cs', hc'⟩ := ih' b h2
    exact ⟨_, .some hc hc'⟩
  | last =>
    intro gs hg
    obtain rfl := List.map_eq_nil_iff.mp hg
    exact ⟨_, .last⟩
  | trailing h =>
    intro gs hg
    obtain ⟨g, l, rfl, h1, h2⟩ := List.map_eq_cons_iff.mp hg
    obtain rfl := List.map_eq_nil_iff.mp h2
    exact ⟨_, .trailing h h1⟩
  | next _ _ ih ih' =>
    intro gs hg
    obtain ⟨g, l, rfl, h1, h2⟩ := List.map_eq_cons_iff.mp hg
    obtain ⟨a, b, rfl, h3, h4⟩ := List.map_eq_append_iff.mp h2
    obtain ⟨cs, hc⟩ := ih a h3
    obtain ⟨cs', hc'⟩ := ih' b h4
    exact ⟨_, .next h1 hc hc'⟩

/-! ### Runs -/

theorem weight_append (a b : List Group) : weight (a ++ b) = weight a + weight b := by
  simp [weight, lenSum_append]

theorem weight_one (g : Group) : weight [g] = lenSum (leavesG g) := by simp [weight]

/-- The parser went over the groups `a` of `gs`, pushed `cs` and recorded `es`. -/
structure Went (pre : List (Nat × Nat)) (gs : List Group) (sink : List Green) (errs : List PErr)
    (a rest : List Group) (cs : List Green) (es : List PErr) (s : PState) : Prop where
  split : gs = a ++ rest
  now : PAt (pre ++ flat a) (flat rest) (sink ++ cs) (errs ++ es) s
  len : lenSum cs = weight a
  leaves : leavesOfList cs = leavesOfList (a.flatMap leavesG)

section
variable {pre : List (Nat × Nat)} {gs : List Group} {sink : List Green} {errs : List PErr} {s : PState}

theorem Went.refl (h : PAt pre (flat gs) sink errs s) : Went pre gs sink errs [] gs [] [] s :=
  ⟨rfl, by simpa [flat] using h, by simp [weight], rfl⟩

theorem Went.trans {a rest a' rest' : List Group} {cs cs' : List Green} {es es' : List PErr} {s' : PState}
    (h : Went pre gs sink errs a rest cs es s) (h' : Went (pre ++ flat a) rest (sink ++ cs) (errs ++ es) a' rest' cs' es' s') :
    Went pre gs sink errs (a ++ a') rest' (cs ++ cs') (es ++ es') s' :=
  ⟨by rw [h.split, h'.split, List.append_assoc], by simpa [flat_append] using h'.now,
    by rw [lenSum_append, weight_append, h.len, h'.len],
    by rw [leavesOfList_append, List.flatMap_append, leavesOfList_append, h.leaves, h'.leaves]⟩

theorem Went.record {a rest : List Group} {cs : List Green} {es : List PErr} (h : Went pre gs sink errs a rest cs es s) (c : Nat) :
    Went pre gs sink errs a rest cs (es ++ [⟨c, s.currentOffset⟩]) (s.record c) :=
  ⟨h.split, ⟨h.now.tokens, h.now.index, h.now.sink, by simp [PState.record, h.now.errors], h.now.inc⟩, h.len, h.leaves⟩

theorem Went.recordEof {a rest : List Group} {cs : List Green} {es : List PErr} (h : Went pre gs sink errs a rest cs es s) :
    Went pre gs sink errs a rest cs (es ++ [⟨4, s.srcLen⟩]) (Json.recordEof s) :=
  ⟨h.split, ⟨h.now.tokens, h.now.index, h.now.sink, by simp [Json.recordEof, h.now.errors], h.now.inc⟩, h.len, h.leaves⟩

theorem Went.grouped {a rest : List Group} {cs : List Green} {es : List PErr} (h : Went pre gs sink errs a rest cs es s)
    {ign : Nat → Bool} (hg : Grouped ign gs) : Grouped ign rest := by
  rw [h.split] at hg; exact hg.append

theorem Went.weight {a rest : List Group} {cs : List Green} {es : List PErr} (h : Went pre gs sink errs a rest cs es s) :
    lenSum cs + Oaks.weight rest = Oaks.weight gs := by
  rw [h.split, weight_append, h.len]

theorem Went.count {a rest : List Group} {cs : List Green} {es : List PErr} (h : Went pre gs sink errs a rest cs es s) :
    a.length + rest.length = gs.length := by
  rw [h.split]; simp

theorem Went.bump {g : Group} (h : PAt pre (flat (g :: gs)) sink errs s) (hg : Grouped ign (g :: gs)) :
    ∃ s', s.bump ign = .ok s' ∧ Went pre (g :: gs) sink errs [g] gs (leavesG g) [] s' := by
  obtain ⟨s', h1, h2⟩ := h.bumpG hg
  exact ⟨s', h1, rfl, by simpa [flat] using h2, by simp [Oaks.weight], by simp⟩

theorem skip_at (h : PAt pre (flat gs) sink errs s) (hg : Grouped ign gs) : skip s = .ok s := by
  unfold skip skipLoop
  have hc := h.current
  split
  · rfl
  · rename_i t ht
    rw [ht] at hc
    have := hg.head _ hc.symm
    have hk : ign t.kind = false := this
    rw [hk]; rfl

/-- Eating a token that is there, and one that is not. -/
theorem eat_yes {g : Group} {k : Nat} (hk : g.1.1 = k) (h : PAt pre (flat (g :: gs)) sink errs s) (hg : Grouped ign (g :: gs)) :
    ∃ s', s.eat ign k = .ok (true, s') ∧ Went pre (g :: gs) sink errs [g] gs (leavesG g) [] s' := by
  obtain ⟨s', h1, h2⟩ := Went.bump h hg
  refine ⟨s', ?_, h2⟩
  unfold PState.eat
  rw [h.atG]
  simp only [List.head?_cons, Option.map_some, hk, beq_self_eq_true, if_true, h1, run_bind_ok]
  rfl

theorem at_iff (h : PAt pre (flat gs) sink errs s) (k : Nat) : s.atKind k = true ↔ headKind gs = some k := by
  rw [h.atG]; simp [headKind]

theorem eat_no {k : Nat} (hk : headKind gs ≠ some k) (h : PAt pre (flat gs) sink errs s) : s.eat ign k = .ok (false, s) := by
  unfold PState.eat
  rw [if_neg (by rw [at_iff h]; exact hk)]

theorem headKind_some {k : Nat} (h : headKind gs = some k) : ∃ g gs', gs = g :: gs' ∧ g.1.1 = k := by
  cases gs with
  | nil => simp [headKind] at h
  | cons g gs => exact ⟨g, gs, rfl, by simpa [headKind] using h⟩

theorem notAtEnd_at (h : PAt pre (flat gs) sink errs s) : notAtEnd s = decide (gs ≠ []) := by
  unfold notAtEnd
  rw [h.length, h.index, decide_eq_decide]
  cases gs <;> simp [flat]

/-- A node around what was pushed. -/
theorem node_at {a rest : List Group} {cs : List Green} {es : List PErr} {s' : PState} {k : Nat} {f : PState → Run (Bool × PState)}
    {ok : Bool} (h : PAt pre (flat gs) sink errs s) (hf : f s = .ok (ok, s')) (hw : Went pre gs sink errs a rest cs es s')
    (hl : weight gs < 2 ^ 32) :
    ∃ s'', incrementalNode s k f = .ok (ok, s'') ∧ Went pre gs sink errs a rest [mkG k cs] es s'' := by
  unfold incrementalNode PState.tryReuse
  rw [h.inc]
  simp only [run_bind_ok, Bool.false_eq_true, if_false, hf]
  have := hw.weight
  obtain ⟨e, s2, g1, _, g3⟩ := hw.now.finish s.checkpoint (by simp [PState.checkpoint, h.sink_length]) k (by omega)
  simp only [g1, run_bind_ok]
  exact ⟨s2, rfl, hw.split, g3, by simp [hw.len], by simp [mkG, leavesOf, leavesOfList, hw.leaves]⟩

/-- How a part of the parser ends. -/
def Ends (x : Run (Bool × PState)) (pre : List (Nat × Nat)) (gs : List Group) (sink : List Green) (errs : List PErr)
    (Q : List Group → List Green → Prop) : Prop :=
  ∃ ok s' a rest cs es, x = .ok (ok, s') ∧ Went pre gs sink errs a rest cs es s' ∧ (ok = true → a ≠ []) ∧
    (ok = false → es ≠ []) ∧ (ok = true → es = [] → Q a cs)

/-- Some more was done first. -/
theorem Ends.after {a rest : List Group} {cs : List Green} {es : List PErr} {x : Run (Bool × PState)}
    {Q Q' : List Group → List Green → Prop} (h : Went pre gs sink errs a rest cs es s)
    (hx : Ends x (pre ++ flat a) rest (sink ++ cs) (errs ++ es) Q) (hQ : es = [] → ∀ a' cs', Q a' cs' → Q' (a ++ a') (cs ++ cs')) :
    Ends x pre gs sink errs Q' := by
  obtain ⟨ok, s', a', rest', cs', es', h1, h2, h3, h4, h5⟩ := hx
  refine ⟨ok, s', a ++ a', rest', cs ++ cs', es ++ es', h1, h.trans h2, ?_, ?_, ?_⟩
  · intro hok he; exact h3 hok (List.append_eq_nil_iff.mp he).2
  · intro hok he; exact h4 hok (List.append_eq_nil_iff.mp he).2
  · intro hok he
    obtain ⟨e1, e2⟩ := List.append_eq_nil_iff.mp he
    exact hQ e1 a' cs' (h5 hok e2)

theorem Ends.failed {a rest : List Group} {cs : List Green} {es : List PErr} (h : Went pre gs sink errs a rest cs es s) (he : es ≠ [])
    (Q : List Group → List Green → Prop) : Ends (.ok (false, s)) pre gs sink errs Q :=
  ⟨false, s, a, rest, cs, es, rfl, h, by simp, fun _ => he, by simp⟩

theorem close_at (b : Bool) (h : PAt pre (flat gs) sink errs s) (hg : Grouped ign gs) :
    Ends (close b s) pre gs sink errs (fun a cs => ∃ g, a = [g] ∧ g.1.1 = closeKind b ∧ cs = leavesG g) := by
  unfold close
  by_cases hk : headKind gs = some (closeKind b)
  · obtain ⟨g, gs, rfl, hgk⟩ := headKind_some hk
    obtain ⟨s', h1, h2⟩ := eat_yes hgk h hg
    simp only [h1, run_bind_ok]
    exact ⟨true, s', _, _, _, _, rfl, h2, by simp, by simp, fun _ _ => ⟨g, rfl, hgk, rfl⟩⟩
  · rw [eat_no hk h]
    simp only [run_bind_ok, Bool.false_eq_true, if_false]
    split
    · exact .failed (Went.refl h).recordEof (by simp) _
    · exact .failed ((Went.refl h).record 1) (by simp) _

theorem separator_at (cfg : JsonCfg) (b first : Bool) (h : PAt pre (flat gs) sink errs s) (hg : Grouped ign gs) :
    ∃ d s' a rest cs es, separator cfg b first s = .ok (d, s') ∧ Went pre gs sink errs a rest cs es s' ∧
      ((first = true ∧ d = .go ∧ a = [] ∧ cs = [] ∧ es = []) ∨
        (first = false ∧ d = .go ∧ es = [] ∧ ∃ g, a = [g] ∧ g.1.1 = comma ∧ cs = leavesG g) ∨
        (first = false ∧ d = .stop ∧ es = [] ∧ cfg.trailingComma = true ∧ ∃ g, a = [g] ∧ g.1.1 = comma ∧ cs = leavesG g) ∨
        (d = .stop ∧ es ≠ []) ∨ (d = .fail ∧ es ≠ [])) := by
  unfold separator
  cases first with
  | true => exact ⟨.go, s, [], gs, [], [], rfl, .refl h, .inl ⟨rfl, rfl, rfl, rfl, rfl⟩⟩
  | false =>
    rw [if_neg (by simp)]
    by_cases hk : headKind gs = some comma
    · obtain ⟨g, gs, rfl, hgk⟩ := headKind_some hk
      obtain ⟨s', h1, h2⟩ := eat_yes hgk h hg
      simp only [h1, run_bind_ok, if_true]
      rw [skip_at h2.now hg.tail]
      simp only [run_bind_ok]
      split
      · by_cases ht : cfg.trailingComma = true
        · rw [if_pos ht]
          exact ⟨.stop, s', [g], gs, _, _, rfl, h2, .inr (.inr (.inl ⟨trivial, rfl, rfl, ht, g, rfl, hgk, rfl⟩))⟩
        · rw [if_neg ht]
          exact ⟨.fail, _, [g], gs, _, _, rfl, h2.record 3, .inr (.inr (.inr (.inr ⟨rfl, by simp⟩)))⟩
      · exact ⟨.go, s', [g], gs, _, _, rfl, h2, .inr (.inl ⟨trivial, rfl, rfl, g, rfl, hgk, rfl⟩)⟩
    · rw [eat_no hk h]
      simp only [run_bind_ok, Bool.false_eq_true, if_false]
      exact ⟨.stop, _, [], gs, _, _, rfl, (Went.refl h).record 1, .inr (.inr (.inr (.inl ⟨rfl, by simp⟩)))⟩

theorem separator_first (cfg : JsonCfg) (b : Bool) (s : PState) : separator cfg b true s = .ok (.go, s) := rfl

theorem eatColon_at (h : PAt pre (flat gs) sink errs s) (hg : Grouped ign gs) :
    ∃ s' a rest cs es, eatColon s = .ok s' ∧ Went pre gs sink errs a rest cs es s' ∧
      (es = [] → ∃ g, a = [g] ∧ g.1.1 = colon ∧ cs = leavesG g) := by
  unfold eatColon
  by_cases hk : headKind gs = some colon
  · obtain ⟨g, gs, rfl, hgk⟩ := headKind_some hk
    obtain ⟨s', h1, h2⟩ := eat_yes hgk h hg
    simp only [h1, run_bind_ok, if_true]
    exact ⟨s', [g], gs, _, [], rfl, h2, fun _ => ⟨g, rfl, hgk, rfl⟩⟩
  · rw [eat_no hk h]
    simp only [run_bind_ok, Bool.false_eq_true, if_false]
    exact ⟨_, [], gs, [], _, rfl, (Went.refl h).record 1, by simp⟩

end

theorem nodeKind_cases {k n : Nat} (h : nodeKind k = some n) :
    (∃ b, k = openKind b ∧ n = nodeOf b) ∨
      (n ≠ object ∧ n ≠ array ∧ (k = stringLiteral ∨ k = numberLiteral ∨ k = booleanLiteral ∨ k = nullLiteral)) := by
  unfold nodeKind at h
  split at h
  · rename_i e; simp at h; exact .inl ⟨true, e, h.symm⟩
  split at h
  · rename_i e; simp at h; exact .inl ⟨false, e, h.symm⟩
  split at h
  · rename_i e; simp at h; exact .inr ⟨by rw [← h]; decide, by rw [← h]; decide, by simp [e]⟩
  split at h
  · rename_i e; simp at h; exact .inr ⟨by rw [← h]; decide, by rw [← h]; decide, by simp [e]⟩
  split at h
  · rename_i e; simp at h; exact .inr ⟨by rw [← h]; decide, by rw [← h]; decide, by simp [e]⟩
  split at h
  · rename_i e; simp at h; exact .inr ⟨by rw [← h]; decide, by rw [← h]; decide, by simp [e]⟩
  · simp at h

/-- The tokens after the opening bracket: elements and the closing bracket. -/
def SeqRest (cfg : JsonCfg) (b first : Bool) (a : List Group) (cs : List Green) : Prop :=
  ∃ gs' cs' g', a = gs' ++ [g'] ∧ g'.1.1 = closeKind b ∧ JD cfg (if first then .items b else .more b) gs' cs' ∧ cs = cs' ++ leavesG g'

theorem current_at {pre : List (Nat × Nat)} {g : Group} {gs : List Group} {sink : List Green} {errs : List PErr} {s : PState}
    (h : PAt pre (flat (g :: gs)) sink errs s) : ∃ t, s.current = some t ∧ t.kind = g.1.1 := by
  have hc := h.current
  rw [show (flat (g :: gs)).head? = some g.1 by simp [flat], Option.map_eq_some_iff] at hc
  obtain ⟨t, h1, h2⟩ := hc
  exact ⟨t, h1, congrArg Prod.fst h2⟩

theorem current_nil {pre : List (Nat × Nat)} {sink : List Green} {errs : List PErr} {s : PState}
    (h : PAt pre (flat []) sink errs s) : s.current = none := by
  have hc := h.current
  simpa [flat] using hc

/-- Every row of tokens is parsed, to a value or with a report. -/
theorem parse_ends (cfg : JsonCfg) (n : Nat) : ∀ (pre : List (Nat × Nat)) (gs : List Group) (sink : List Green) (errs : List PErr)
    (s : PState), PAt pre (flat gs) sink errs s → Grouped ign gs → weight gs < 2 ^ 32 →
    (4 * gs.length + 4 ≤ n → Ends (parseValue cfg n s) pre gs sink errs (JD cfg (.item false))) ∧
    (4 * gs.length + 3 ≤ n → ∀ b, Ends (parseSeq cfg n b s) pre gs sink errs (fun a cs => ∃ g a' cs', a = g :: a' ∧
        g.1.1 = openKind b ∧ cs = leavesG g ++ cs' ∧ SeqRest cfg b true a' cs')) ∧
    (4 * gs.length + 6 ≤ n → ∀ b first, Ends (seqLoop cfg n b first s) pre gs sink errs (SeqRest cfg b first)) ∧
    (4 * gs.length + 5 ≤ n → Ends (parseEntry cfg n s) pre gs sink errs (JD cfg (.item true))) := by
  induction n with
  | zero => intro pre gs sink errs s _ _ _; refine ⟨?_, ?_, ?_, ?_⟩ <;> intro h <;> omega
  | succ n ih =>
    intro pre gs sink errs s h hg hl
    refine ⟨?_, ?_, ?_, ?_⟩
    · intro hn
      unfold parseValue
      rw [skip_at h hg]
      simp only [run_bind_ok]
      cases gs with
      | nil =>
        rw [current_nil h]
        exact .failed (Went.refl h).recordEof (by simp) _
      | cons g gs =>
        obtain ⟨t, ht, hk⟩ := current_at h
        simp only [ht, hk]
        by_cases he : g.1.1 = eof
        · rw [if_pos he]
          exact .failed (Went.refl h).recordEof (by simp) _
        rw [if_neg he]
        cases hnk : nodeKind g.1.1 with
        | none => exact .failed ((Went.refl h).record 2) (by simp) _
        | some k =>
          simp only
          have hseq : ∀ b, g.1.1 = openKind b → k = nodeOf b →
              Ends (incrementalNode s k (fun s =>
                if k = object then parseSeq cfg n true s
                else if k = array then parseSeq cfg n false s
                else do
                  let s ← s.bump ign
                  pure (true, s))) pre (g :: gs) sink errs (JD cfg (.item false)) := by
            intro b hb hkb
            obtain ⟨ok, s', a, rest, cs, es, e1, e2, e3, e4, e5⟩ := (ih pre (g :: gs) sink errs s h hg hl).2.1 (by simp at hn ⊢; omega) b
            have hf : (fun s =>
                if k = object then parseSeq cfg n true s
                else if k = array then parseSeq cfg n false s
                else do
                  let s ← s.bump ign
                  pure (true, s)) s = .ok (ok, s') := by
              rw [hkb]
              cases b
              · exact e1
              · exact e1
            obtain ⟨s'', f1, f2⟩ := node_at (k := k) (f := fun s =>
                if k = object then parseSeq cfg n true s
                else if k = array then parseSeq cfg n false s
                else do
                  let s ← s.bump ign
                  pure (true, s)) h hf e2 hl
            refine ⟨ok, s'', a, rest, _, es, f1, f2, e3, e4, ?_⟩
            intro hok hes
            obtain ⟨g0, a', cs', rfl, h1, rfl, gs', cs'', g', rfl, h2, h3, rfl⟩ := e5 hok hes
            rw [hkb]
            exact .seq h1 h2 h3
          rcases nodeKind_cases hnk with ⟨b, hb, hkb⟩ | ⟨h1, h2, h3⟩
          · exact hseq b hb hkb
          · obtain ⟨s', e1, e2⟩ := Went.bump h hg
            have hf : (fun s =>
                if k = object then parseSeq cfg n true s
                else if k = array then parseSeq cfg n false s
                else do
                  let s ← s.bump ign
                  pure (true, s)) s = .ok (true, s') := by
              simp only
              rw [if_neg h1, if_neg h2, e1]; rfl
            obtain ⟨s'', f1, f2⟩ := node_at (k := k) (f := fun s =>
                if k = object then parseSeq cfg n true s
                else if k = array then parseSeq cfg n false s
                else do
                  let s ← s.bump ign
                  pure (true, s)) h hf e2 hl
            exact ⟨true, s'', _, _, _, _, f1, f2, by simp, by simp, fun _ _ => .scalar h3 hnk⟩
    · intro hn b
      unfold parseSeq
      by_cases hk : headKind gs = some (openKind b)
      · obtain ⟨g, gs, rfl, hgk⟩ := headKind_some hk
        obtain ⟨s', h1, h2⟩ := eat_yes hgk h hg
        simp only [h1, run_bind_ok, if_true]
        have hw := h2.weight
        refine .after h2 ((ih _ gs _ _ s' h2.now hg.tail (by omega)).2.2.1 (by simp at hn; omega) b true) ?_
        intro _ a' cs' hQ
        exact ⟨g, a', cs', rfl, hgk, rfl, hQ⟩
      · rw [eat_no hk h]
        simp only [run_bind_ok, Bool.false_eq_true, if_false]
        exact .failed ((Went.refl h).record 1) (by simp) _
    · intro hn b first
      unfold seqLoop
      have hclose : ∀ {pre gs sink errs s}, PAt pre (flat gs) sink errs s → Grouped ign gs →
          Ends (close b s) pre gs sink errs (SeqRest cfg b true) ∧ Ends (close b s) pre gs sink errs (SeqRest cfg b false) := by
        intro pre gs sink errs s h hg
        obtain ⟨ok, s', a, rest, cs, es, e1, e2, e3, e4, e5⟩ := close_at b h hg
        refine ⟨⟨ok, s', a, rest, cs, es, e1, e2, e3, e4, ?_⟩, ⟨ok, s', a, rest, cs, es, e1, e2, e3, e4, ?_⟩⟩
        · intro hok hes
          obtain ⟨g, rfl, hk, rfl⟩ := e5 hok hes
          exact ⟨[], [], g, rfl, hk, .none, rfl⟩
        · intro hok hes
          obtain ⟨g, rfl, hk, rfl⟩ := e5 hok hes
          exact ⟨[], [], g, rfl, hk, .last, rfl⟩
      have hclose' : Ends (close b s) pre gs sink errs (SeqRest cfg b first) := by
        cases first
        · exact (hclose h hg).2
        · exact (hclose h hg).1
      rw [notAtEnd_at h]
      by_cases hne : gs = []
      · rw [if_neg (by simp [hne])]
        exact hclose'
      rw [if_pos (by simp [hne]), skip_at h hg]
      simp only [run_bind_ok]
      split
      · exact hclose'
      split
      · exact .failed (Went.refl h).recordEof (by simp) _
      obtain ⟨d, s1, a, rest, cs, es, e1, e2, e3⟩ := separator_at cfg b first h hg
      simp only [e1, run_bind_ok]
      have hg1 := e2.grouped hg
      have hw1 := e2.weight
      have hc1 := e2.count
      have hitem : Ends (if b then parseEntry cfg n s1 else parseValue cfg n s1) (pre ++ flat a) rest (sink ++ cs) (errs ++ es)
          (JD cfg (.item b)) := by
        cases b
        · exact (ih _ rest _ _ s1 e2.now hg1 (by omega)).1 (by omega)
        · exact (ih _ rest _ _ s1 e2.now hg1 (by omega)).2.2.2 (by omega)
      have go : (a = [] ∧ cs = [] ∧ first = true ∨ first = false ∧ ∃ g, a = [g] ∧ g.1.1 = comma ∧ cs = leavesG g) →
          Ends (do
            let (ok, s) ← if b then parseEntry cfg n s1 else parseValue cfg n s1
            if ok then do
              let s ← skip s
              seqLoop cfg n b false s
            else pure (false, s)) pre gs sink errs (SeqRest cfg b first) := by
        intro hcase
        obtain ⟨ok, s2, a2, rest2, cs2, es2, i1, i2, i3, i4, i5⟩ := hitem
        have hrun : ((do
            let (ok, s) ← if b then parseEntry cfg n s1 else parseValue cfg n s1
            if ok then do
              let s ← skip s
              seqLoop cfg n b false s
            else pure (false, s)) : Run (Bool × PState)) = (if ok then do
              let s ← skip s2
              seqLoop cfg n b false s
            else pure (false, s2)) := by
          cases b
          · simp only [Bool.false_eq_true, if_false] at i1 ⊢; rw [i1]; rfl
          · simp only [if_true] at i1 ⊢; rw [i1]; rfl
        rw [hrun]
        have i2' := e2.trans i2
        cases ok with
        | false =>
          rw [if_neg (by simp)]
          exact .failed i2' (fun he => i4 rfl (List.append_eq_nil_iff.mp he).2) _
        | true =>
          rw [if_pos rfl, skip_at i2'.now (i2'.grouped hg)]
          simp only [run_bind_ok]
          have hw2 := i2'.weight
          have hc2 := i2.count
          have ha2 := List.length_pos_iff.mpr (i3 rfl)
          refine .after i2' ((ih _ rest2 _ _ s2 i2'.now (i2'.grouped hg) (by omega)).2.2.1 (by omega) b false) ?_
          rintro he a' cs' ⟨gs', cs'', g', rfl, h2, h3, rfl⟩
          have hj := i5 rfl (List.append_eq_nil_iff.mp he).2
          rcases hcase with ⟨rfl, rfl, rfl⟩ | ⟨rfl, g, rfl, hgk, rfl⟩
          · exact ⟨a2 ++ gs', cs2 ++ cs'', g', by simp, h2, .some hj h3, by simp⟩
          · exact ⟨g :: (a2 ++ gs'), leavesG g ++ (cs2 ++ cs''), g', by simp, h2, .next hgk hj h3, by simp⟩
      rcases e3 with ⟨rfl, rfl, rfl, rfl, rfl⟩ | ⟨rfl, rfl, rfl, hgg⟩ | ⟨rfl, rfl, rfl, ht, g, rfl, hgk, rfl⟩ | ⟨rfl, he⟩ | ⟨rfl, he⟩
      · exact go (.inl ⟨rfl, rfl, rfl⟩)
      · exact go (.inr ⟨rfl, hgg⟩)
      · refine .after e2 (close_at b e2.now hg1) ?_
        rintro _ a' cs' ⟨g', rfl, hk', rfl⟩
        exact ⟨[g], leavesG g, g', rfl, hk', .trailing ht hgk, rfl⟩
      · exact .after e2 (close_at b e2.now hg1) (fun h => absurd h he)
      · exact .failed e2 he _
    · intro hn
      unfold parseEntry
      by_cases hk : atKey cfg s = true
      · have hkey : ∃ g gs', gs = g :: gs' ∧ (g.1.1 = stringLiteral ∨ cfg.bareKeys = true ∧ g.1.1 = bareKey) := by
          simp only [atKey, Bool.or_eq_true, Bool.and_eq_true, at_iff h] at hk
          rcases hk with hk | ⟨hb, hk⟩
          · obtain ⟨g, gs', rfl, e⟩ := headKind_some hk; exact ⟨g, gs', rfl, .inl e⟩
          · obtain ⟨g, gs', rfl, e⟩ := headKind_some hk; exact ⟨g, gs', rfl, .inr ⟨hb, e⟩⟩
        obtain ⟨g, gs, rfl, hgk⟩ := hkey
        obtain ⟨s1, b1, b2⟩ := Went.bump h hg
        obtain ⟨s2, a2, rest2, cs2, es2, c1, c2, c3⟩ := eatColon_at b2.now hg.tail
        have c2' := b2.trans c2
        have hw2 := c2'.weight
        have hc2 := c2.count
        obtain ⟨ok, s3, a3, rest3, cs3, es3, d1, d2, d3, d4, d5⟩ := (ih _ rest2 _ _ s2 c2'.now (c2'.grouped hg) (by omega)).1
          (by simp at hn; omega)
        have d2' := c2'.trans d2
        obtain ⟨s4, f1, f2⟩ := node_at (k := objectEntry) (ok := ok) (s' := s3) (f := fun s =>
          if atKey cfg s then do
            let s ← s.bump ign
            let s ← skip s
            let s ← eatColon s
            let s ← skip s
            parseValue cfg n s
          else pure (false, s.record 1)) h (by
            simp only [hk, if_true, b1, run_bind_ok, skip_at b2.now hg.tail, c1, skip_at c2'.now (c2'.grouped hg), d1]) d2' hl
        refine ⟨ok, s4, _, _, _, _, f1, f2, by simp, ?_, ?_⟩
        · intro hok he; exact d4 hok (List.append_eq_nil_iff.mp he).2
        · intro hok he
          obtain ⟨e1, e2⟩ := List.append_eq_nil_iff.mp he
          obtain ⟨g', rfl, hgk', rfl⟩ := c3 (List.append_eq_nil_iff.mp e1).2
          have := JD.entry hgk hgk' (d5 hok e2)
          simpa using this
      · obtain ⟨s4, f1, f2⟩ := node_at (k := objectEntry) (ok := false) (f := fun s =>
          if atKey cfg s then do
            let s ← s.bump ign
            let s ← skip s
            let s ← eatColon s
            let s ← skip s
            parseValue cfg n s
          else pure (false, s.record 1)) h (by simp only [hk]; rfl) ((Went.refl h).record 1) hl
        rw [f1]
        exact .failed f2 (by simp) _

/-! ### A value is taken as it stands -/

theorem close_yes {pre : List (Nat × Nat)} {gs : List Group} {sink : List Green} {errs : List PErr} {s : PState} {g : Group} (b : Bool)
    (hk : g.1.1 = closeKind b) (h : PAt pre (flat (g :: gs)) sink errs s) (hg : Grouped ign (g :: gs)) :
    ∃ s', close b s = .ok (true, s') ∧ Went pre (g :: gs) sink errs [g] gs (leavesG g) [] s' := by
  obtain ⟨s', h1, h2⟩ := eat_yes hk h hg
  refine ⟨s', ?_, h2⟩
  unfold close
  simp only [h1, run_bind_ok, if_true]
  rfl

theorem openKind_ne (b b' : Bool) : openKind b ≠ closeKind b' ∧ openKind b ≠ eof := by cases b <;> cases b' <;> decide

/-- What a value starts with. -/
theorem JD.starts {cfg : JsonCfg} {b : Bool} {a : List Group} {cs : List Green} (h : JD cfg (.item b) a cs) :
    ∃ g l, a = g :: l ∧ (∀ b', g.1.1 ≠ closeKind b') ∧ g.1.1 ≠ eof := by
  cases h with
  | @scalar g k h _ =>
    refine ⟨g, [], rfl, ?_, ?_⟩
    · intro b'; rcases h with h | h | h | h <;> rw [h] <;> cases b' <;> decide
    · rcases h with h | h | h | h <;> rw [h] <;> decide
  | @seq b g g' gs cs h h' _ => exact ⟨g, _, rfl, fun b' => by rw [h]; exact (openKind_ne b b').1, by rw [h]; exact (openKind_ne b b).2⟩
  | @entry g g' gs cs h h' _ =>
    refine ⟨g, _, rfl, ?_, ?_⟩
    · intro b'; rcases h with h | ⟨_, h⟩ <;> rw [h] <;> cases b' <;> decide
    · rcases h with h | ⟨_, h⟩ <;> rw [h] <;> decide

/-- The part is read to its end without a report, whatever follows. -/
def Reads (cfg : JsonCfg) : JsonPart → List Group → List Green → Prop
  | .item b, a, cs => ∀ n pre rest sink errs s, PAt pre (flat (a ++ rest)) sink errs s → Grouped ign (a ++ rest) →
      weight (a ++ rest) < 2 ^ 32 → 4 * (a ++ rest).length + 5 ≤ n + (if b then 0 else 1) →
      ∃ s', (if b then parseEntry cfg n s else parseValue cfg n s) = .ok (true, s') ∧ Went pre (a ++ rest) sink errs a rest cs [] s'
  | .items b, a, cs => ∀ n pre g rest sink errs s, g.1.1 = closeKind b → PAt pre (flat (a ++ g :: rest)) sink errs s →
      Grouped ign (a ++ g :: rest) → weight (a ++ g :: rest) < 2 ^ 32 → 4 * (a ++ g :: rest).length + 6 ≤ n →
      ∃ s', seqLoop cfg n b true s = .ok (true, s') ∧ Went pre (a ++ g :: rest) sink errs (a ++ [g]) rest (cs ++ leavesG g) [] s'
  | .more b, a, cs => ∀ n pre g rest sink errs s, g.1.1 = closeKind b → PAt pre (flat (a ++ g :: rest)) sink errs s →
      Grouped ign (a ++ g :: rest) → weight (a ++ g :: rest) < 2 ^ 32 → 4 * (a ++ g :: rest).length + 6 ≤ n →
      ∃ s', seqLoop cfg n b false s = .ok (true, s') ∧ Went pre (a ++ g :: rest) sink errs (a ++ [g]) rest (cs ++ leavesG g) [] s'

theorem seqLoop_close (cfg : JsonCfg) (n : Nat) {pre : List (Nat × Nat)} {gs : List Group} {sink : List Green} {errs : List PErr}
    {s : PState} {g : Group} (b first : Bool)
    (hk : g.1.1 = closeKind b) (h : PAt pre (flat (g :: gs)) sink errs s) (hg : Grouped ign (g :: gs)) :
    ∃ s', seqLoop cfg (n + 1) b first s = .ok (true, s') ∧ Went pre (g :: gs) sink errs [g] gs (leavesG g) [] s' := by
  obtain ⟨s', h1, h2⟩ := close_yes b hk h hg
  refine ⟨s', ?_, h2⟩
  unfold seqLoop
  rw [notAtEnd_at h, if_pos (by simp), skip_at h hg]
  simp only [run_bind_ok]
  rw [if_pos (by rw [at_iff h]; simp [headKind, hk]), h1]

/-- One turn of the loop that goes on. -/
theorem seqLoop_go {cfg : JsonCfg} {n : Nat} {pre : List (Nat × Nat)} {g : Group} {gs a rest : List Group} {sink cs : List Green}
    {errs : List PErr} {s s1 : PState} {b first : Bool} (h : PAt pre (flat (g :: gs)) sink errs s) (hg : Grouped ign (g :: gs))
    (h1 : g.1.1 ≠ closeKind b) (h2 : g.1.1 ≠ eof) (hsep : separator cfg b first s = .ok (.go, s1))
    (hw : Went pre (g :: gs) sink errs a rest cs [] s1) {a2 rest2 : List Group} {cs2 : List Green} {s2 : PState}
    (hi : (if b then parseEntry cfg n s1 else parseValue cfg n s1) = .ok (true, s2))
    (hw2 : Went (pre ++ flat a) rest (sink ++ cs) (errs ++ []) a2 rest2 cs2 [] s2) :
    seqLoop cfg (n + 1) b first s = seqLoop cfg n b false s2 := by
  have hw3 := hw.trans hw2
  conv => lhs; unfold seqLoop
  rw [notAtEnd_at h, if_pos (by simp), skip_at h hg]
  simp only [run_bind_ok]
  rw [if_neg (by rw [at_iff h]; simp [headKind, h1]), if_neg (by rw [at_iff h]; simp [headKind, h2]), hsep]
  simp only [run_bind_ok]
  have := skip_at hw3.now (hw3.grouped hg)
  cases b
  · simp only [Bool.false_eq_true, if_false] at hi ⊢
    rw [hi]
    simp only [run_bind_ok, if_true, this]
  · simp only [if_true] at hi ⊢
    rw [hi]
    simp only [run_bind_ok, if_true, this]

theorem JD.reads {cfg : JsonCfg} {p : JsonPart} {a : List Group} {cs : List Green} (h : JD cfg p a cs) : Reads cfg p a cs := by
  induction h with
  | @scalar g k hk hnk =>
    intro n pre rest sink errs s h hg hl hn
    obtain ⟨m, rfl⟩ : ∃ m, n = m + 1 := ⟨n - 1, by simp at hn; omega⟩
    simp only [Bool.false_eq_true, if_false]
    obtain ⟨t, ht, htk⟩ := current_at h
    unfold parseValue
    rw [skip_at h hg]
    simp only [run_bind_ok, ht, htk]
    rw [if_neg (by rcases hk with h | h | h | h <;> rw [h] <;> decide)]
    simp only [hnk]
    obtain ⟨s', e1, e2⟩ := Went.bump (gs := rest) h hg
    refine node_at (k := k) (ok := true) (s' := s') h ?_ e2 hl
    have hno : k ≠ object ∧ k ≠ array := by
      rcases hk with h | h | h | h <;> rw [h] at hnk <;> injection hnk with hnk <;> rw [← hnk] <;> decide
    rw [if_neg hno.1, if_neg hno.2, e1]; rfl
  | @seq b g g' gs cs hk hk' hj ih =>
    intro n pre rest sink errs s h hg hl hn
    obtain ⟨m, rfl⟩ : ∃ m, n = m + 2 := ⟨n - 2, by simp at hn; omega⟩
    simp only [Bool.false_eq_true, if_false]
    have e : (g :: (gs ++ [g'])) ++ rest = g :: (gs ++ g' :: rest) := by simp
    rw [e] at h hg hl hn ⊢
    obtain ⟨t, ht, htk⟩ := current_at h
    have hnk : nodeKind g.1.1 = Option.some (nodeOf b) := by rw [hk]; cases b <;> rfl
    obtain ⟨s1, e1, e2⟩ := eat_yes hk h hg
    have hw1 := e2.weight
    obtain ⟨s2, f1, f2⟩ := ih m (pre ++ flat [g]) g' rest (sink ++ leavesG g) (errs ++ []) s1 hk' e2.now hg.tail (by omega)
      (by simp at hn ⊢; omega)
    have f2' := e2.trans f2
    have hseq : parseSeq cfg (m + 1) b s = .ok (true, s2) := by
      unfold parseSeq
      simp only [e1, run_bind_ok, if_true, f1]
    unfold parseValue
    rw [skip_at h hg]
    simp only [run_bind_ok, ht, htk]
    rw [if_neg (by rw [hk]; exact (openKind_ne b b).2)]
    simp only [hnk]
    refine node_at (k := nodeOf b) (ok := true) (s' := s2) h ?_ f2' hl
    cases b <;> exact hseq
  | @entry g g' gs cs hk hk' hj ih =>
    intro n pre rest sink errs s h hg hl hn
    obtain ⟨m, rfl⟩ : ∃ m, n = m + 1 := ⟨n - 1, by simp at hn; omega⟩
    simp only [if_true] at hn ⊢
    have e : (g :: g' :: gs) ++ rest = g :: g' :: (gs ++ rest) := by simp
    rw [e] at h hg hl hn ⊢
    obtain ⟨s1, e1, e2⟩ := Went.bump h hg
    obtain ⟨s2, f1, f2⟩ := eat_yes hk' e2.now hg.tail
    have f2' := e2.trans f2
    have hw2 := f2'.weight
    obtain ⟨s3, d1, d2⟩ := ih m _ rest _ _ s2 f2'.now (f2'.grouped hg) (by omega) (by simp at hn ⊢; omega)
    have d2' := f2'.trans d2
    have hkey : atKey cfg s = true := by
      simp only [atKey, Bool.or_eq_true, Bool.and_eq_true, at_iff h]
      rcases hk with hk | ⟨hb, hk⟩
      · exact .inl (by simp [headKind, hk])
      · exact .inr ⟨hb, by simp [headKind, hk]⟩
    have hcol : eatColon s1 = .ok s2 := by
      unfold eatColon
      simp only [f1, run_bind_ok, if_true]; rfl
    simp only [Bool.false_eq_true, if_false] at d1
    unfold parseEntry
    have := node_at (k := objectEntry) (ok := true) (s' := s3) (f := fun s =>
          if atKey cfg s then do
            let s ← s.bump ign
            let s ← skip s
            let s ← eatColon s
            let s ← skip s
            parseValue cfg m s
          else pure (false, s.record 1)) h (by
            simp only [hkey, if_true, e1, run_bind_ok, skip_at e2.now hg.tail, hcol, skip_at f2'.now (f2'.grouped hg), d1]) d2' hl
    simpa using this
  | @none b =>
    intro n pre g rest sink errs s hk h hg hl hn
    obtain ⟨m, rfl⟩ : ∃ m, n = m + 1 := ⟨n - 1, by omega⟩
    exact seqLoop_close cfg m b true hk h hg
  | @last b =>
    intro n pre g rest sink errs s hk h hg hl hn
    obtain ⟨m, rfl⟩ : ∃ m, n = m + 1 := ⟨n - 1, by omega⟩
    exact seqLoop_close cfg m b false hk h hg
  | @some b gs cs gs' cs' hj hj' ih ih' =>
    intro n pre g rest sink errs s hk h hg hl hn
    obtain ⟨m, rfl⟩ : ∃ m, n = m + 1 := ⟨n - 1, by omega⟩
    obtain ⟨g0, l, hs, hne, hne'⟩ := hj.starts
    have e : gs ++ gs' ++ g :: rest = gs ++ (gs' ++ g :: rest) := by simp
    rw [e] at h hg hl hn ⊢
    have hpos : 0 < gs.length := by rw [hs]; simp
    obtain ⟨s2, i1, i2⟩ := ih m pre (gs' ++ g :: rest) sink errs s h hg hl (by simp at hn ⊢; split <;> omega)
    have hw2 := i2.weight
    obtain ⟨s3, j1, j2⟩ := ih' m (pre ++ flat gs) g rest (sink ++ cs) (errs ++ []) s2 hk i2.now (i2.grouped hg) (by omega)
      (by simp at hn ⊢; omega)
    refine ⟨s3, ?_, by simpa using i2.trans j2⟩
    rw [← j1]
    have e' : gs ++ (gs' ++ g :: rest) = g0 :: (l ++ (gs' ++ g :: rest)) := by rw [hs]; simp
    rw [e'] at h hg
    have hr : Went pre (g0 :: (l ++ (gs' ++ g :: rest))) sink errs [] (g0 :: (l ++ (gs' ++ g :: rest))) [] [] s := .refl h
    rw [e'] at i2
    exact seqLoop_go h hg (hne b) hne' (separator_first cfg b s) hr i1 (by simpa [flat] using i2)
  | @trailing b g0 ht hk0 =>
    intro n pre g rest sink errs s hk h hg hl hn
    obtain ⟨m, rfl⟩ : ∃ m, n = m + 1 := ⟨n - 1, by omega⟩
    change PAt pre (flat (g0 :: g :: rest)) sink errs s at h
    change Grouped ign (g0 :: g :: rest) at hg
    obtain ⟨s1, e1, e2⟩ := eat_yes hk0 h hg
    obtain ⟨s2, f1, f2⟩ := close_yes b hk e2.now hg.tail
    refine ⟨s2, ?_, by simpa using e2.trans f2⟩
    have hsep : separator cfg b false s = .ok (.stop, s1) := by
      unfold separator
      simp only [Bool.false_eq_true, if_false, e1, run_bind_ok, if_true]
      rw [skip_at e2.now hg.tail]
      simp only [run_bind_ok]
      rw [if_pos (by rw [at_iff e2.now]; simp [headKind, hk]), if_pos ht]
      rfl
    unfold seqLoop
    rw [notAtEnd_at h, if_pos (by simp), skip_at h hg]
    simp only [run_bind_ok]
    rw [if_neg (by rw [at_iff h]; simp only [headKind, List.head?_cons, Option.map_some, hk0]; cases b <;> decide),
      if_neg (by rw [at_iff h]; simp only [headKind, List.head?_cons, Option.map_some, hk0]; decide), hsep]
    simp only [run_bind_ok, f1]
  | @next b g0 gs cs gs' cs' hk0 hj hj' ih ih' =>
    intro n pre g rest sink errs s hk h hg hl hn
    obtain ⟨m, rfl⟩ : ∃ m, n = m + 1 := ⟨n - 1, by omega⟩
    obtain ⟨g1, l, hs, hne, hne'⟩ := hj.starts
    have e : g0 :: (gs ++ gs') ++ g :: rest = g0 :: (gs ++ (gs' ++ g :: rest)) := by simp
    rw [e] at h hg hl hn ⊢
    obtain ⟨s1, e1, e2⟩ := eat_yes hk0 h hg
    have hw1 := e2.weight
    have hsep : separator cfg b false s = .ok (.go, s1) := by
      unfold separator
      simp only [Bool.false_eq_true, if_false, e1, run_bind_ok, if_true]
      rw [skip_at e2.now hg.tail]
      simp only [run_bind_ok]
      rw [if_neg (by rw [at_iff e2.now, hs]; simp [headKind, hne b])]
      rfl
    obtain ⟨s2, i1, i2⟩ := ih m _ (gs' ++ g :: rest) _ _ s1 e2.now hg.tail (by omega) (by simp at hn ⊢; split <;> omega)
    have i2' := e2.trans i2
    have hw2 := i2'.weight
    obtain ⟨s3, j1, j2⟩ := ih' m _ g rest _ _ s2 hk i2'.now (i2'.grouped hg) (by omega) (by simp at hn ⊢; omega)
    refine ⟨s3, ?_, by simpa using i2'.trans j2⟩
    rw [← j1]
    exact seqLoop_go h hg (by rw [hk0]; cases b <;> decide) (by rw [hk0]; decide) hsep e2 i1 i2

/-! ### Documents -/

theorem parseRoot_ends (cfg : JsonCfg) {pre : List (Nat × Nat)} {gs : List Group} {sink : List Green} {s : PState}
    (h : PAt pre (flat gs) sink [] s) (hg : Grouped ign gs) (hl : weight gs < 2 ^ 32) :
    ∃ a rest cs es s', parseRoot cfg s = .ok (mkG root cs, s') ∧ s'.errors = es ∧ gs = a ++ rest ∧
      leavesOfList cs = leavesOfList (a.flatMap leavesG) ∧ (es = [] → JD cfg (.item false) a cs) ∧
      ∀ a' rest' cs', JD cfg (.item false) a' cs' → gs = a' ++ rest' → es = [] ∧ a = a' ∧ rest = rest' ∧ cs = cs' := by
  have hfuel : 4 * gs.length + 4 ≤ 4 * (s.tokens.length - s.index) + 4 := by
    have := length_le_flat gs
    rw [h.length, h.index]
    simp; omega
  have close : ∀ {ok s1 a rest cs es}, parseValue cfg (4 * (s.tokens.length - s.index) + 4) s = .ok (ok, s1) →
      Went pre gs sink [] a rest cs es s1 → ∃ s', parseRoot cfg s = .ok (mkG root cs, s') ∧ s'.errors = es := by
    intro ok s1 a rest cs es h1 h2
    have hw := h2.weight
    obtain ⟨e, s2, g1, g2, g3⟩ := h2.now.finish s.checkpoint (by simp [PState.checkpoint, h.sink_length]) root (by omega)
    refine ⟨s2, ?_, by simpa using g3.errors⟩
    unfold parseRoot
    simp only [h1, run_bind_ok, skip_at h2.now (h2.grouped hg), g1, g2]
    rfl
  obtain ⟨ok, s1, a, rest, cs, es, h1, h2, h3, h4, h5⟩ := (parse_ends cfg _ pre gs sink [] s h hg hl).1 hfuel
  obtain ⟨s', r1, r2⟩ := close h1 h2
  refine ⟨a, rest, cs, es, s', r1, r2, h2.split, h2.leaves, ?_, ?_⟩
  · intro he
    cases ok with
    | true => exact h5 rfl he
    | false => exact absurd he (h4 rfl)
  · intro a' rest' cs' hj hsp
    subst hsp
    obtain ⟨s1', k1, k2⟩ := hj.reads (4 * (s.tokens.length - s.index) + 4) pre rest' sink [] s h hg hl (by simp at hfuel ⊢; omega)
    simp only [Bool.false_eq_true, if_false] at k1
    rw [k1] at h1
    injection h1 with h1; injection h1 with h1 h1'
    subst h1'
    have e1 := h2.now.errors.symm.trans k2.now.errors
    have e2 := List.append_cancel_left (h2.now.sink.symm.trans k2.now.sink)
    have e3 : (flat rest).length = (flat rest').length := by
      have t1 := h2.now.length
      have t2 := k2.now.length
      have i1 := h2.now.index
      have i2 := k2.now.index
      simp at t1 t2
      rw [i1] at i2
      simp at i2
      omega
    have hlen : rest = rest' ∧ a = a' := by
      have hsp := h2.split
      rcases List.append_eq_append_iff.mp hsp with ⟨x, hx1, hx2⟩ | ⟨x, hx1, hx2⟩
      · rw [hx2, flat_append] at e3
        have : flat x = [] := List.eq_nil_of_length_eq_zero (by rw [List.length_append] at e3; omega)
        cases x with
        | nil => simp at hx1 hx2; exact ⟨hx2.symm, hx1⟩
        | cons g x => simp [flat] at this
      · rw [hx2, flat_append] at e3
        have : flat x = [] := List.eq_nil_of_length_eq_zero (by rw [List.length_append] at e3; omega)
        cases x with
        | nil => simp at hx1 hx2; exact ⟨hx2, hx1.symm⟩
        | cons g x => simp [flat] at this
    exact ⟨by simpa using e1, hlen.2, hlen.1, e2⟩

/-- The kinds of the tokens that are not trivia. -/
theorem kinds_flat {gs : List Group} (hg : Grouped ign gs) : ((flat gs).map (·.1)).filter (fun k => !ign k) = kindsG gs := by
  induction gs with
  | nil => rfl
  | cons g gs ih =>
    have h1 := hg g List.mem_cons_self
    have h2 : (g.2.map (·.1)).filter (fun k => !ign k) = [] := by
      rw [List.filter_eq_nil_iff]
      intro k hk
      obtain ⟨t, ht, rfl⟩ := List.mem_map.mp hk
      simp [h1.2 t ht]
    have e : flat (g :: gs) = g.1 :: (g.2 ++ flat gs) := by simp [flat]
    rw [e, List.map_cons, List.filter_cons_of_pos (by simp [h1.1]), List.map_append, List.filter_append, h2, ih hg.tail]
    rfl

theorem sum_filterMap_le (ps : List (Option Nat × Str)) :
    ((ps.filterMap (fun p => p.1.map (fun k => (k, blen p.2)))).map (·.2)).sum ≤ blen (ps.flatMap (·.2)) := by
  induction ps with
  | nil => simp
  | cons p ps ih =>
    obtain ⟨k, m⟩ := p
    cases k <;> simp at ih ⊢ <;> omega

theorem le_sum_mem {l : List Nat} {x : Nat} (h : x ∈ l) : x ≤ l.sum := by
  induction l with
  | nil => simp at h
  | cons y l ih =>
    rcases List.mem_cons.mp h with rfl | h
    · simp
    · have := ih h; simp; omega

/-- `parse` from the tokens. -/
theorem jsonParse_ends {src : Source} {t : Str} (hs : Supplied src t) (hl : blen t < 2 ^ 32) (cfg : JsonCfg) {cc : CharClass}
    (hcc : SoundClasses cc) :
    ∃ toks tri a rest cs es, Json.lex cfg cc src = .ok toks ∧ toks.map Tok.kl = tri ++ flat (a ++ rest) ∧
      (∀ t ∈ tri, ign t.1 = true) ∧ Grouped ign (a ++ rest) ∧ Json.parse cfg cc src = .ok (mkG root cs, es) ∧
      leavesOfList cs = (flat a) ∧ (es = [] → JD cfg (.item false) a cs) ∧
      ∀ a' rest' cs', JD cfg (.item false) a' cs' → a ++ rest = a' ++ rest' → es = [] ∧ a = a' ∧ rest = rest' ∧ cs = cs' := by
  obtain ⟨ps, hc, hlex⟩ := jsonLex_spec hs cfg hcc
  generalize htk : tokensOf 0 ps ++ [(⟨Json.eof, blen t, blen t⟩ : Tok)] = toks at hlex
  obtain ⟨tri, gs, h1, h2, h3⟩ := groups_exist ign (toks.map Tok.kl)
  have hsum : ((toks.map Tok.kl).map (·.2)).sum < 2 ^ 32 := by
    have := sum_filterMap_le ps
    rw [hc.text] at this
    rw [← htk, List.map_append, tokensOf_kl, List.map_append, List.sum_append]
    simp [Tok.kl, Tok.length] at this ⊢
    omega
  have hsum' : ((flat gs).map (·.2)).sum < 2 ^ 32 := by
    rw [h1, List.map_append, List.sum_append] at hsum; omega
  obtain ⟨s, g1, g2⟩ := PAt.new (ign := ign) h1 h2 h3.head src.length
  obtain ⟨a, rest, cs, es, s', r1, r2, r3, r4, r5, r6⟩ := parseRoot_ends cfg g2 h3 (by have := weight_le gs; omega)
  subst r3
  refine ⟨toks, tri, a, rest, cs, es, hlex, h1, h2, h3, ?_, ?_, r5, r6⟩
  · unfold Json.parse
    rw [hlex, run_bind_ok, g1, run_bind_ok, r1, run_bind_ok]
    simp only [r2]
    rfl
  · rw [r4, flatMap_leavesG, leavesOfList_leafOf]
    have : ∀ t ∈ flat a, (t.1, t.2 % 2 ^ 32) = t := by
      intro t ht
      have hm : t.2 ∈ (flat (a ++ rest)).map (·.2) := by
        rw [flat_append]; exact List.mem_map.mpr ⟨t, List.mem_append_left _ ht, rfl⟩
      have := le_sum_mem hm
      rw [Nat.mod_eq_of_lt (by omega)]
    exact (List.map_congr_left this).trans (List.map_id _)

end Oaks
