import Verif.Proofs.Prs
import Verif.Proofs.IniLex

/-! The INI parser goes over exactly the documents. -/
namespace Oaks

namespace Ini
open Spec Prs

section
variable {α : Type} {strict : Bool} {pre : List (Nat × Nat)} {gs : List Group} {R : Said α}

/-- Between tokens there is no trivia left. -/
theorem skip_run (hg : Grouped ign gs) {sink : List Green} {errs : List PErr} {s : PState} (hs : PAt pre (flat gs) sink errs s) :
    skipTrivia s = .ok (some (), s) := by
  have h0 : ∀ k, ign k = true → s.atKind k = false := by
    intro k hk
    rw [atKind_eq hs]
    cases gs with
    | nil => rfl
    | cons g gs =>
      have := (hg g List.mem_cons_self).1
      simp only [headKind, List.head?_cons, Option.map_some, beq_eq_false_iff_ne, ne_eq, Option.some.injEq]
      rintro rfl
      simp [hk] at this
  have e1 := h0 whitespace rfl
  have e2 := h0 comment rfl
  have e3 := h0 newline rfl
  unfold skipTrivia while_ loop_
  rw [turns]
  simp [Prs.sees, Bind.bind, Pure.pure, e1, e2, e3]

theorem runs_skip {R : Said Unit} (h : R (some ()) [] gs [] []) : Runs ign strict skipTrivia pre gs R :=
  fun hg _ _ _ s hs => ⟨_, s, [], gs, [], [], skip_run hg hs, .refl hs, h⟩

theorem runs_thenSkip {f : Unit → Prs α} (h : Runs ign strict (f ()) pre gs R) : Runs ign strict (skipTrivia >>= f) pre gs R := by
  intro hg hw sink errs s hs
  rw [bind_some (skip_run hg hs)]
  exact h hg hw sink errs s hs

theorem runs_expected {c : Nat} {R : Said Unit} (h : R none [] gs [] [⟨c, pre.length⟩]) : Runs ign strict (Ini.expected c) pre gs R := by
  refine .bind (R' := fun r a rest cs es => r = some () ∧ a = [] ∧ rest = gs ∧ cs = [] ∧ es = [⟨c, pre.length⟩]) (.report_index ⟨rfl, rfl, rfl, rfl, rfl⟩)
    (by rintro _ _ _ _ _ ⟨h, _⟩; cases h) ?_
  rintro _ _ _ _ _ _ ⟨_, rfl, rfl, rfl, rfl⟩
  exact .fail h

end

/-- Tokens are grouped in one way. -/
theorem groups_unique {ign : Nat → Bool} : ∀ {tri tri' : List (Nat × Nat)} {gs gs' : List Group}, tri ++ flat gs = tri' ++ flat gs' →
    (∀ t ∈ tri, ign t.1 = true) → (∀ t ∈ tri', ign t.1 = true) → Grouped ign gs → Grouped ign gs' → tri = tri' ∧ gs = gs' := by
  have lead : ∀ {tri tri' : List (Nat × Nat)} {gs gs' : List Group}, tri ++ flat gs = tri' ++ flat gs' →
      (∀ t ∈ tri, ign t.1 = true) → (∀ t ∈ tri', ign t.1 = true) → Grouped ign gs → Grouped ign gs' → tri = tri' := by
    intro tri
    induction tri with
    | nil =>
      intro tri' gs gs' he _ h2 h3 _
      cases tri' with
      | nil => rfl
      | cons t tri' =>
        have h4 := h3.head t (by rw [List.nil_append] at he; rw [he]; rfl)
        rw [h2 t (by simp)] at h4
        cases h4
    | cons t tri ih =>
      intro tri' gs gs' he h1 h2 h3 h4
      cases tri' with
      | nil =>
        have h5 := h4.head t (by rw [List.nil_append] at he; rw [← he]; rfl)
        rw [h1 t (by simp)] at h5
        cases h5
      | cons t' tri' =>
        obtain ⟨rfl, he2⟩ := List.cons.inj he
        rw [ih he2 (fun x hx => h1 x (by simp [hx])) (fun x hx => h2 x (by simp [hx])) h3 h4]
  intro tri tri' gs
  induction gs generalizing tri tri' with
  | nil =>
    intro gs' he h1 h2 h3 h4
    obtain rfl := lead he h1 h2 h3 h4
    have := List.append_cancel_left he
    cases gs' with
    | nil => exact ⟨rfl, rfl⟩
    | cons g gs' => cases this
  | cons g gs ih =>
    intro gs' he h1 h2 h3 h4
    obtain rfl := lead he h1 h2 h3 h4
    have := List.append_cancel_left he
    cases gs' with
    | nil => cases this
    | cons g' gs' =>
      have he : g.1 :: (g.2 ++ flat gs) = g'.1 :: (g'.2 ++ flat gs') := this
      obtain ⟨e1, e2⟩ := List.cons.inj he
      obtain ⟨e3, rfl⟩ := ih e2 (h3 g (by simp)).2 (h4 g' (by simp)).2 h3.tail h4.tail
      exact ⟨rfl, by rw [show g = g' from Prod.ext e1 e3]⟩

/-! ### What is gone over without an error -/

def Keyish (k : Nat) : Prop := k = identifier ∨ k = string

/-- Without an error, the kinds of the tokens gone over are as `P` says; otherwise there is one. -/
def Sound (P : List Nat → Prop) : Said Unit := fun r a _ _ es => (r = some () → es = [] ∧ P (kinds a)) ∧ (r = none → es.length = 1)

/-- Items with or without commas after them. -/
inductive ItemsOf (Item : List Nat → Prop) : List Nat → Prop where
  | nil : ItemsOf Item []
  | one {v vs} : Item v → ItemsOf Item vs → ItemsOf Item (v ++ vs)
  | comma {v vs} : Item v → ItemsOf Item vs → ItemsOf Item (v ++ Ini.comma :: vs)

theorem values_iff (ks : List Nat) : IniSyntax .values ks ↔ ItemsOf (IniSyntax .value) ks := by
  constructor
  · intro h
    generalize hs : IniSort.values = s at h
    induction h with
    | noValue => exact .nil
    | value h1 _ _ ih => exact .one h1 (ih rfl)
    | valueComma h1 _ _ ih => exact .comma h1 (ih rfl)
    | _ => cases hs
  · intro h
    induction h with
    | nil => exact .noValue
    | one h1 _ ih => exact .value h1 ih
    | comma h1 _ ih => exact .valueComma h1 ih

theorem pairs_iff (ks : List Nat) : IniSyntax .pairs ks ↔ ItemsOf (IniSyntax .pair) ks := by
  constructor
  · intro h
    generalize hs : IniSort.pairs = s at h
    induction h with
    | noPair => exact .nil
    | onePair h1 _ _ ih => exact .one h1 (ih rfl)
    | pairComma h1 _ _ ih => exact .comma h1 (ih rfl)
    | _ => cases hs
  · intro h
    induction h with
    | nil => exact .noPair
    | one h1 _ ih => exact .onePair h1 ih
    | comma h1 _ ih => exact .pairComma h1 ih

section
variable {pre : List (Nat × Nat)} {gs : List Group} {α : Type}

theorem keyPart_sound : Runs ign true keyPart pre gs (Sound fun ks => ∃ k, Keyish k ∧ ks = [k]) := by
  unfold keyPart
  refine .seesIf ?_ fun _ => .seesIf ?_ fun _ => (runs_expected ⟨by simp, by simp⟩)
  · rintro g rest rfl hk
    exact .bumped ⟨fun _ => ⟨rfl, _, .inl hk, rfl⟩, by simp⟩
  · rintro g rest rfl hk
    exact .bumped ⟨fun _ => ⟨rfl, _, .inr hk, rfl⟩, by simp⟩

theorem parseKey_sound : Runs ign true parseKey pre gs (Sound (IniSyntax .key)) := by
  unfold parseKey
  refine .node (.mono (R' := Sound (IniSyntax .key)) ?_ ?_)
  · refine .loop (fun a _ _ es => es = [] ∧ ∀ ks, IniSyntax .key ks → IniSyntax .key (kinds a ++ ks)) ⟨rfl, fun ks h => h⟩ ?_
    rintro a rest cs es _ ⟨rfl, hJ⟩
    unfold keyTurn
    refine .bind keyPart_sound ?_ ?_
    · intro a' rest' cs' es' _ h
      exact ⟨by simp, fun _ => h.2 rfl⟩
    · intro _ a' rest' cs' es' _ h
      obtain ⟨rfl, k, hk, ha⟩ := h.1 rfl
      refine runs_thenSkip (.seesIf ?_ fun _ => .pure ?_)
      · rintro g rest'' rfl hg
        refine .bumpThen (runs_thenSkip (.pure ?_))
        refine ⟨by simp, rfl, fun ks hks => ?_⟩
        have := hJ _ (.dotted hk hks)
        simpa [kinds_append, ha, kinds_cons, kinds_nil, hg] using this
      · refine ⟨fun _ => ⟨rfl, ?_⟩, by simp⟩
        have := hJ _ (.key hk)
        simpa [kinds_append, ha] using this
  · intro r a rest cs es _ h
    refine ⟨fun hr => ⟨by simp, fun _ => h.2 hr⟩, fun x hr => ?_⟩
    cases x
    exact ⟨fun _ => h.1 hr, by simp⟩

theorem sound_node {k : Nat} {p : Prs Unit} {P : List Nat → Prop} (h : Runs ign true p pre gs (Sound P)) : Runs ign true (node k p) pre gs (Sound P) := by
  refine .node (.mono h ?_)
  intro r a rest cs es _ h
  refine ⟨fun hr => ⟨by simp, fun _ => h.2 hr⟩, fun x hr => ?_⟩
  cases x
  exact ⟨fun _ => h.1 hr, by simp⟩

/-- The tokens gone over before, put in front. -/
theorem sound_after {p : Prs Unit} {P Q : List Nat → Prop} {a : List Group} {cs : List Green} (h : Runs ign true p pre gs (Sound P))
    (hQ : ∀ ks, P ks → Q (kinds a ++ ks)) :
    Runs ign true p pre gs (fun r a' rest' cs' es' => Sound Q r (a ++ a') rest' (cs ++ cs') ([] ++ es')) := by
  refine .mono h ?_
  intro r a' rest cs' es _ h
  exact ⟨fun hr => ⟨(h.1 hr).1, by rw [kinds_append]; exact hQ _ (h.1 hr).2⟩, h.2⟩

theorem sound_bind {p : Prs Unit} {f : Unit → Prs Unit} {P Q : List Nat → Prop} (h : Runs ign true p pre gs (Sound P))
    (hf : ∀ a rest cs, gs = a ++ rest → P (kinds a) → Runs ign true (f ()) (pre ++ flat a) rest
      (fun r a' rest' cs' es' => Sound Q r (a ++ a') rest' (cs ++ cs') ([] ++ es'))) : Runs ign true (p >>= f) pre gs (Sound Q) := by
  refine .bind h (fun a rest cs es _ h => ⟨by simp, h.2⟩) ?_
  rintro ⟨⟩ a rest cs es he h
  obtain ⟨rfl, hp⟩ := h.1 rfl
  exact hf a rest cs he hp

theorem parseKeyValue_sound {value : Prs Unit} (hv : ∀ pre' gs', gs'.length < gs.length → Runs ign true value pre' gs' (Sound (IniSyntax .value))) :
    Runs ign true (parseKeyValue value) pre gs (Sound (IniSyntax .pair)) := by
  unfold parseKeyValue
  refine sound_node (sound_bind parseKey_sound fun a rest cs he ha => runs_thenSkip (.needThen ?_ fun _ o => ⟨by simp, by simp⟩))
  rintro g rest' rfl hg
  refine runs_thenSkip (.mono (hv _ rest' (by rw [he]; simp; omega)) ?_)
  intro r a' rest'' cs' es' _ h
  refine ⟨fun hr => ⟨(h.1 hr).1, ?_⟩, h.2⟩
  have := IniSyntax.pair ha (h.1 hr).2
  simpa [kinds_append, kinds_cons, kinds_nil, hg] using this

theorem bracketed_sound {open_ close kind : Nat} {item : Prs Unit} {Item : List Nat → Prop}
    (hi : ∀ pre' gs', gs'.length < gs.length → Runs ign true item pre' gs' (Sound Item)) (h0 : ¬ Item []) :
    Runs ign true (bracketed open_ close kind item) pre gs (Sound fun ks => ∃ vs, ItemsOf Item vs ∧ ks = open_ :: (vs ++ [close])) := by
  unfold bracketed
  refine sound_node (.needThen ?_ fun _ o => ⟨by simp, by simp⟩)
  rintro g rest rfl hg
  refine runs_thenSkip ?_
  refine .bind (R' := Sound (ItemsOf Item)) ?_ (fun a rest cs es _ h => ⟨by simp, h.2⟩) ?_
  · unfold items while_
    refine .loop (fun a _ _ es => es = [] ∧ ∀ ks, ItemsOf Item ks → ItemsOf Item (kinds a ++ ks)) ⟨rfl, fun ks h => h⟩ ?_
    rintro a rest' cs es he ⟨rfl, hJ⟩
    refine .bind (R' := fun r a rest cs es => ∃ b, r = some b ∧ a = [] ∧ rest = rest' ∧ es = []) (.more (.sees (.pure ⟨_, rfl, rfl, rfl, rfl⟩)))
      (by rintro _ _ _ _ _ ⟨_, h, _⟩; cases h) ?_
    rintro x _ _ cs' _ _ ⟨_, _, rfl, rfl, rfl⟩
    cases x with
    | false => exact .pure ⟨fun _ => ⟨rfl, by simpa using hJ [] .nil⟩, by simp⟩
    | true =>
      refine .bind (R' := Sound fun ks => ks ≠ [] ∧ ∀ ks', ItemsOf Item ks' → ItemsOf Item (ks ++ ks')) ?_ (fun a rest cs es _ h => ⟨by simp, h.2⟩) ?_
      · refine sound_bind (hi _ _ (by have := congrArg List.length he; simp at this ⊢; omega)) ?_
        intro a1 rest1 cs1 _ h1
        have h2 : kinds a1 ≠ [] := fun h => h0 (h ▸ h1)
        refine runs_thenSkip ?_
        unfold optComma
        refine .seesIf ?_ fun _ => .pure ⟨fun _ => ⟨rfl, by simpa using h2, fun ks' h' => ?_⟩, by simp⟩
        · rintro g' rest2 rfl hg'
          refine .bumpThen (runs_skip ⟨fun _ => ⟨rfl, by simp [kinds_append, kinds], fun ks' h' => ?_⟩, by simp⟩)
          have := ItemsOf.comma h1 h'
          simpa [kinds_append, kinds_cons, kinds_nil, hg'] using this
        · simpa using ItemsOf.one h1 h'
      · rintro ⟨⟩ a2 rest2 cs2 es2 _ h
        obtain ⟨rfl, h2, h3⟩ := h.1 rfl
        refine .pure ⟨?_, rfl, fun ks h => ?_⟩
        · rintro h; apply h2; simp at h; rw [h]; rfl
        · have := hJ _ (h3 _ h)
          simpa [kinds_append] using this
  · rintro ⟨⟩ a rest' cs es _ h
    obtain ⟨rfl, hv⟩ := h.1 rfl
    refine .need ?_ (fun _ o => ⟨by simp, by simp⟩)
    rintro g' rest'' rfl hg'
    refine ⟨fun _ => ⟨rfl, _, hv, ?_⟩, by simp⟩
    simp [kinds, hg, hg']

theorem key_first {ks : List Nat} (h : IniSyntax .key ks) : ∃ k ks', ks = k :: ks' ∧ Keyish k := by
  cases h with
  | key h => exact ⟨_, _, rfl, h⟩
  | dotted h _ => exact ⟨_, _, rfl, h⟩

theorem pair_first {ks : List Nat} (h : IniSyntax .pair ks) : ∃ k ks', ks = k :: ks' ∧ Keyish k := by
  cases h with
  | pair h _ =>
    obtain ⟨k, ks', rfl, hk⟩ := key_first h
    exact ⟨k, _, rfl, hk⟩

theorem value_first {ks : List Nat} (h : IniSyntax .value ks) :
    ∃ k ks', ks = k :: ks' ∧ k ∈ [string, integer, float, boolean, dateTime, leftBracket, leftBrace] := by
  cases h with
  | scalar h => refine ⟨_, _, rfl, ?_⟩; simp at h ⊢; tauto
  | array => exact ⟨_, _, rfl, by simp⟩
  | inline => exact ⟨_, _, rfl, by simp⟩

theorem parseValue_sound : ∀ (fuel : Nat) (pre : List (Nat × Nat)) (gs : List Group), gs.length < fuel →
    Runs ign true (parseValue fuel) pre gs (Sound (IniSyntax .value)) := by
  intro fuel
  induction fuel with
  | zero => intro _ _ h; omega
  | succ fuel ih =>
    intro pre gs hf
    unfold parseValue
    refine sound_node (.kind ?_)
    cases hh : headKind gs with
    | none => exact (runs_expected ⟨by simp, by simp⟩)
    | some k =>
      obtain ⟨g, rest, rfl, hk⟩ := headKind_cons hh
      simp only
      split
      · next h =>
        refine .bumped ⟨fun _ => ⟨rfl, ?_⟩, by simp⟩
        have := IniSyntax.scalar (k := k) (by simpa using h)
        simpa [kinds, hk] using this
      split
      · refine .mono (bracketed_sound (Item := IniSyntax .value) (fun pre' gs' h => ih pre' gs' (by simp at hf h ⊢; omega)) ?_) ?_
        · intro h; obtain ⟨_, _, h, _⟩ := value_first h; cases h
        · intro r a rest' cs es _ h
          refine ⟨fun hr => ⟨(h.1 hr).1, ?_⟩, h.2⟩
          obtain ⟨_, vs, hv, he⟩ := h.1 hr
          rw [he]; exact .array ((values_iff _).mpr hv)
      split
      · refine .mono (bracketed_sound (Item := IniSyntax .pair)
          (fun pre' gs' h => parseKeyValue_sound fun pre'' gs'' h' => ih pre'' gs'' (by simp at hf h ⊢; omega)) ?_) ?_
        · intro h; obtain ⟨_, _, h, _⟩ := pair_first h; cases h
        · intro r a rest' cs es _ h
          refine ⟨fun hr => ⟨(h.1 hr).1, ?_⟩, h.2⟩
          obtain ⟨_, vs, hv, he⟩ := h.1 hr
          rw [he]; exact .inline ((pairs_iff _).mpr hv)
      · exact (runs_expected ⟨by simp, by simp⟩)

theorem lines_append {a b : List Nat} (ha : IniSyntax .lines a) (hb : IniSyntax .lines b) : IniSyntax .lines (a ++ b) := by
  generalize hs : IniSort.lines = s at ha
  induction ha with
  | noLine => exact hb
  | line h1 _ _ ih => rw [List.append_assoc]; exact .line h1 (ih rfl)
  | _ => cases hs

theorem inTable_sound {R : Said Bool} {f : Bool → Prs Bool} (h : ∀ x, Runs ign true (f x) pre gs R) : Runs ign true (inTable >>= f) pre gs R := by
  refine .bind (R' := fun r a rest cs es => ∃ b, r = some b ∧ a = [] ∧ rest = gs ∧ cs = [] ∧ es = [])
    (.more (.sees (.sees (.pure ⟨_, rfl, rfl, rfl, rfl, rfl⟩)))) (by rintro _ _ _ _ _ ⟨_, h, _⟩; cases h) ?_
  rintro x _ _ _ _ _ ⟨_, _, rfl, rfl, rfl, rfl⟩
  simpa [flat] using h x

theorem tableTurns_sound {value : Prs Unit} (hv : ∀ pre' gs', gs'.length < gs.length → Runs ign true value pre' gs' (Sound (IniSyntax .value))) :
    Runs ign true (loop_ (tableTurn value)) pre gs (Sound (IniSyntax .lines)) := by
  refine .loop (fun a _ _ es => es = [] ∧ IniSyntax .lines (kinds a)) ⟨rfl, .noLine⟩ ?_
  rintro a rest cs es he ⟨rfl, hJ⟩
  unfold tableTurn
  refine inTable_sound fun x => ?_
  cases x with
  | false => exact .pure ⟨fun _ => ⟨rfl, by simpa using hJ⟩, by simp⟩
  | true =>
    refine runs_thenSkip (inTable_sound fun y => ?_)
    cases y with
    | false => exact .pure ⟨fun _ => ⟨rfl, by simpa using hJ⟩, by simp⟩
    | true =>
      refine .bind (parseKeyValue_sound fun pre' gs' h => hv pre' gs' (by rw [he]; simp; omega)) (fun a rest cs es _ h => ⟨by simp, h.2⟩) ?_
      rintro ⟨⟩ a1 rest1 cs1 es1 _ h
      obtain ⟨rfl, hp⟩ := h.1 rfl
      refine .pure ⟨?_, rfl, ?_⟩
      · rintro h
        obtain rfl : a1 = [] := by simpa using h
        obtain ⟨_, _, h, _⟩ := pair_first hp
        cases h
      · have := lines_append hJ (.line hp .noLine)
        simpa [kinds_append] using this

/-- A table: its brackets, its key, its lines. -/
def TableOf (ks : List Nat) : Prop := ∃ k ls, IniSyntax .key k ∧ IniSyntax .lines ls ∧
  (ks = leftBracket :: (k ++ rightBracket :: ls) ∨ ks = doubleLeftBracket :: (k ++ doubleRightBracket :: ls))

theorem tableBody_sound {value : Prs Unit} {o c kind : Nat} (hv : ∀ pre' gs', gs'.length < gs.length → Runs ign true value pre' gs' (Sound (IniSyntax .value))) :
    Runs ign true (node kind do need ign o; parseKey; need ign c; loop_ (tableTurn value)) pre gs
      (Sound fun ks => ∃ k ls, IniSyntax .key k ∧ IniSyntax .lines ls ∧ ks = o :: (k ++ c :: ls)) := by
  refine sound_node (.needThen ?_ fun _ o => ⟨by simp, by simp⟩)
  rintro g rest rfl hg
  refine .bind parseKey_sound (fun a rest cs es _ h => ⟨by simp, h.2⟩) ?_
  rintro ⟨⟩ a rest' cs es he h
  obtain ⟨rfl, hk⟩ := h.1 rfl
  refine .needThen ?_ fun _ o => ⟨by simp, by simp⟩
  rintro g' rest'' rfl hg'
  refine .mono (tableTurns_sound fun pre' gs' h => hv pre' gs' (by rw [he]; simp; omega)) ?_
  intro r a' rest3 cs' es' _ h
  refine ⟨fun hr => ⟨(h.1 hr).1, _, _, hk, (h.1 hr).2, ?_⟩, h.2⟩
  simp [kinds_cons, kinds_append, hg, hg']

theorem parseTable_sound {value : Prs Unit} (hv : ∀ pre' gs', gs'.length < gs.length → Runs ign true value pre' gs' (Sound (IniSyntax .value))) :
    Runs ign true (parseTable value) pre gs (Sound TableOf) := by
  unfold parseTable
  refine .seesIf ?_ fun _ => ?_
  · rintro g rest rfl _
    refine .mono (tableBody_sound hv) ?_
    intro r a rest' cs es _ h
    exact ⟨fun hr => ⟨(h.1 hr).1, let ⟨_, k, ls, h1, h2, h3⟩ := h.1 hr; ⟨k, ls, h1, h2, .inr h3⟩⟩, h.2⟩
  · refine .mono (tableBody_sound hv) ?_
    intro r a rest' cs es _ h
    exact ⟨fun hr => ⟨(h.1 hr).1, let ⟨_, k, ls, h1, h2, h3⟩ := h.1 hr; ⟨k, ls, h1, h2, .inl h3⟩⟩, h.2⟩

theorem rootItem_sound {value : Prs Unit} (hv : ∀ pre' gs', gs'.length < gs.length → Runs ign true value pre' gs' (Sound (IniSyntax .value))) :
    Runs ign true (rootItem value) pre gs (Sound fun ks => TableOf ks ∨ IniSyntax .pair ks) := by
  unfold rootItem
  refine .sees (.sees ?_)
  split
  · refine .mono (parseTable_sound hv) ?_
    intro r a rest' cs es _ h
    exact ⟨fun hr => ⟨(h.1 hr).1, .inl (h.1 hr).2⟩, h.2⟩
  · refine .mono (parseKeyValue_sound hv) ?_
    intro r a rest' cs es _ h
    exact ⟨fun hr => ⟨(h.1 hr).1, .inr (h.1 hr).2⟩, h.2⟩

theorem document_item {a ks : List Nat} (h : TableOf a ∨ IniSyntax .pair a) (hd : IniDocument ks) : IniDocument (a ++ ks) := by
  obtain ⟨ls, ts, rfl, hl, ht⟩ := hd
  rcases h with ⟨k, l, hk, hl', rfl | rfl⟩ | h
  · refine ⟨[], _, ?_, .noLine, .table hk (lines_append hl' hl) ht⟩
    simp
  · refine ⟨[], _, ?_, .noLine, .tableOf hk (lines_append hl' hl) ht⟩
    simp
  · exact ⟨a ++ ls, ts, by simp, .line h hl, ht⟩

/-- The whole document. -/
theorem root_sound {value : Prs Unit} (hv : ∀ pre' gs', gs'.length ≤ gs.length → Runs ign true value pre' gs' (Sound (IniSyntax .value))) :
    Runs ign true (loop_ (rootTurn value)) pre gs
      (fun r a rest _ es => (r = some () → es = [] ∧ rest = [] ∧ IniDocument (kinds a)) ∧ (r = none → es.length = 1)) := by
  refine .loop (fun a _ _ es => es = [] ∧ ∀ ks, IniDocument ks → IniDocument (kinds a ++ ks)) ⟨rfl, fun _ h => h⟩ ?_
  rintro a rest cs es he ⟨rfl, hJ⟩
  have h0 : IniDocument [] := ⟨[], [], rfl, .noLine, .noTable⟩
  unfold rootTurn
  refine .more ?_
  by_cases hr : rest = []
  · subst hr
    exact .pure ⟨fun _ => ⟨rfl, rfl, by simpa using hJ [] h0⟩, by simp⟩
  · rw [if_pos (by simpa using hr)]
    refine runs_thenSkip (.more ?_)
    rw [if_pos (by simpa using hr)]
    refine .bind (rootItem_sound fun pre' gs' h => hv pre' gs' (by rw [he]; simp; omega)) (fun a rest cs es _ h => ⟨by simp, h.2⟩) ?_
    rintro ⟨⟩ a1 rest1 cs1 es1 _ h
    obtain ⟨rfl, hp⟩ := h.1 rfl
    refine .pure ⟨?_, rfl, fun ks hks => ?_⟩
    · rintro h
      obtain rfl : a1 = [] := by simpa using h
      rcases hp with ⟨_, _, _, _, h | h⟩ | h
      · cases h
      · cases h
      · obtain ⟨_, _, h, _⟩ := pair_first h
        cases h
    · have := hJ _ (document_item hp hks)
      simpa [kinds_append] using this

/-! ### Every document is gone over -/

def Exactly (a0 rest0 : List Group) : Said Unit := fun r a rest _ es => r = some () ∧ a = a0 ∧ rest = rest0 ∧ es = []

theorem exact_node {k : Nat} {p : Prs Unit} {a0 rest0 : List Group} (h : Runs ign true p pre gs (Exactly a0 rest0)) :
    Runs ign true (node k p) pre gs (Exactly a0 rest0) := by
  refine .node (.mono h ?_)
  rintro r a rest cs es _ ⟨rfl, rfl, rfl, rfl⟩
  exact ⟨by simp, fun _ _ => ⟨rfl, rfl, rfl, rfl⟩⟩

theorem exact_bind {β : Type} {p : Prs Unit} {f : Unit → Prs β} {a0 rest0 : List Group} {R : Said β} (h : Runs ign true p pre gs (Exactly a0 rest0))
    (hf : ∀ cs, Runs ign true (f ()) (pre ++ flat a0) rest0 (fun r a' rest' cs' es' => R r (a0 ++ a') rest' (cs ++ cs') es')) :
    Runs ign true (p >>= f) pre gs R := by
  refine .bind h (by rintro _ _ _ _ _ ⟨h, _⟩; cases h) ?_
  rintro ⟨⟩ a rest cs es _ ⟨_, rfl, rfl, rfl⟩
  exact hf cs

theorem need_exact {β : Type} {k : Nat} {f : Unit → Prs β} {g : Group} {rest : List Group} {R : Said β} (hk : g.1.1 = k)
    (h : Runs ign true (f ()) (pre ++ flat [g]) rest (fun r a' rest' cs' es' => R r (g :: a') rest' (leavesG g ++ cs') es')) :
    Runs ign true (need ign k >>= f) pre (g :: rest) R := by
  refine .needThen ?_ fun h => absurd (by simp [headKind, hk]) h
  intro g' rest' he _
  cases he
  exact h

theorem keyPart_exact {g : Group} {rest : List Group} (hk : Keyish g.1.1) : Runs ign true keyPart pre (g :: rest) (Exactly [g] rest) := by
  unfold keyPart
  refine .seesIf ?_ fun h1 => .seesIf ?_ fun h2 => ?_
  · intro _ _ _ _
    exact .bumped ⟨rfl, rfl, rfl, rfl⟩
  · intro _ _ _ _
    exact .bumped ⟨rfl, rfl, rfl, rfl⟩
  · rcases hk with h | h
    · exact absurd (by simp [headKind, h]) h1
    · exact absurd (by simp [headKind, h]) h2

theorem parseKey_exact {a0 rest0 : List Group} (h : IniSyntax .key (kinds a0)) (hr : headKind rest0 ≠ some dot) :
    Runs ign true parseKey pre (a0 ++ rest0) (Exactly a0 rest0) := by
  unfold parseKey
  refine exact_node (.loop (fun a rest _ es => es = [] ∧ ∃ todo, a0 = a ++ todo ∧ rest = todo ++ rest0 ∧ IniSyntax .key (kinds todo))
    ⟨rfl, a0, rfl, rfl, h⟩ ?_)
  rintro a _ cs es _ ⟨rfl, todo, ha, rfl, ht⟩
  unfold keyTurn
  generalize hks : kinds todo = ks at ht
  cases ht with
  | key hk =>
    obtain ⟨g, a1, rfl, rfl, h1⟩ := kinds_cons_eq hks
    obtain rfl := kinds_nil_eq h1
    refine exact_bind (keyPart_exact hk) fun cs' => runs_thenSkip (.seesIf ?_ fun _ => .pure ?_)
    · rintro g' rest' rfl hg'
      exact absurd (by simp [headKind, hg']) hr
    · exact ⟨rfl, by simp [ha], rfl, rfl⟩
  | dotted hk hks' =>
    obtain ⟨g, a1, rfl, rfl, h1⟩ := kinds_cons_eq hks
    obtain ⟨gd, a2, rfl, hd, rfl⟩ := kinds_cons_eq h1
    refine exact_bind (keyPart_exact hk) fun cs' => runs_thenSkip (.seesIf ?_ fun h => absurd (by simp [headKind, hd]) h)
    intro g' rest' he _
    cases he
    refine .bumpThen (runs_thenSkip (.pure ?_))
    exact ⟨by simp, rfl, a2, by simp [ha], rfl, hks'⟩

theorem parseKeyValue_exact {value : Prs Unit} {a0 rest0 : List Group} (h : IniSyntax .pair (kinds a0))
    (hv : ∀ pre' a', a'.length < a0.length → IniSyntax .value (kinds a') → Runs ign true value pre' (a' ++ rest0) (Exactly a' rest0)) :
    Runs ign true (parseKeyValue value) pre (a0 ++ rest0) (Exactly a0 rest0) := by
  generalize hks : kinds a0 = ks at h
  cases h with
  | pair hk hv' =>
    obtain ⟨ak, a1, rfl, rfl, h1⟩ := kinds_append_eq hks
    obtain ⟨g, av, rfl, hg, rfl⟩ := kinds_cons_eq h1
    unfold parseKeyValue
    rw [List.append_assoc]
    refine exact_node (exact_bind (parseKey_exact hk (by simp [headKind, hg, equal, dot])) fun cs => runs_thenSkip (need_exact hg (runs_thenSkip ?_)))
    refine .mono (hv _ av (by simp; omega) hv') ?_
    rintro r a rest cs es _ ⟨rfl, rfl, rfl, rfl⟩
    exact ⟨rfl, by simp, rfl, rfl⟩

theorem bracketed_exact {open_ close kind : Nat} {item : Prs Unit} {Item : List Nat → Prop} {go gc : Group} {a0 rest0 : List Group}
    (ho : go.1.1 = open_) (hc : gc.1.1 = close) (h : ItemsOf Item (kinds a0))
    (hi : ∀ pre' a' rest', a'.length ≤ a0.length → Item (kinds a') → Runs ign true item pre' (a' ++ rest') (Exactly a' rest'))
    (hf : ∀ ks, Item ks → ∃ k ks', ks = k :: ks' ∧ k ≠ close ∧ k ≠ comma) (hcc : close ≠ comma) :
    Runs ign true (bracketed open_ close kind item) pre (go :: (a0 ++ gc :: rest0)) (Exactly (go :: (a0 ++ [gc])) rest0) := by
  unfold bracketed
  refine exact_node (need_exact ho (runs_thenSkip (exact_bind (a0 := a0) (rest0 := gc :: rest0) ?_ fun cs => .need ?_ fun h => absurd (by simp [headKind, hc]) h)))
  · unfold items while_
    refine .loop (fun a rest _ es => es = [] ∧ ∃ todo, a0 = a ++ todo ∧ rest = todo ++ gc :: rest0 ∧ ItemsOf Item (kinds todo)) ⟨rfl, a0, rfl, rfl, h⟩ ?_
    rintro a _ cs es _ ⟨rfl, todo, ha, rfl, ht⟩
    have hcomma : ∀ {t : List Group}, ItemsOf Item (kinds t) → headKind (t ++ gc :: rest0) ≠ some comma := by
      intro t ht
      generalize hks : kinds t = ks at ht
      have : ∀ v vs, Item v → kinds t = v ++ vs → headKind (t ++ gc :: rest0) ≠ some comma := by
        intro v vs hv he
        obtain ⟨k, ks', rfl, _, hk⟩ := hf v hv
        obtain ⟨g, t', rfl, rfl, _⟩ := kinds_cons_eq he
        simpa [headKind] using hk
      cases ht with
      | nil => rw [kinds_nil_eq hks]; simpa [headKind, hc] using hcc
      | one hv _ => exact this _ _ hv hks
      | comma hv _ => exact this _ _ hv hks
    have turn : ∀ (b t : List Group), todo = b ++ t → Item (kinds b) → (ItemsOf Item (kinds t) ∨ ∃ g t', t = g :: t' ∧ g.1.1 = comma ∧ ItemsOf Item (kinds t')) →
        Runs ign true (do
          if ← (do return (← more) && !(← sees close)) then (do (do item; skipTrivia; optComma); return true) else return false)
          (pre ++ flat [go] ++ flat a) (todo ++ gc :: rest0) (fun r a' rest' cs' es' => r = some true ∧ a' ≠ [] ∧ [] ++ es' = [] ∧
            ∃ todo, a0 = a ++ a' ++ todo ∧ rest' = todo ++ gc :: rest0 ∧ ItemsOf Item (kinds todo)) := by
      rintro b t rfl hb ht2
      obtain ⟨k, ks', hks, h1, h2⟩ := hf _ hb
      obtain ⟨g, b', rfl, rfl, _⟩ := kinds_cons_eq hks
      refine .bind (R' := fun r a rest cs es => r = some true ∧ a = [] ∧ rest = g :: b' ++ t ++ gc :: rest0 ∧ es = [])
        (.more (.sees (.pure ⟨by simp [headKind, h1], rfl, rfl, rfl⟩))) (by rintro _ _ _ _ _ ⟨h, _⟩; cases h) ?_
      rintro x _ _ cs' _ _ ⟨hx, rfl, rfl, rfl⟩
      cases hx
      rw [if_pos rfl, show g :: b' ++ t ++ gc :: rest0 = (g :: b') ++ (t ++ gc :: rest0) from List.append_assoc _ _ _]
      refine .bind (R' := fun r a' rest' _ es' => r = some () ∧ a' ≠ [] ∧ es' = [] ∧ ∃ todo, (g :: b') ++ t = a' ++ todo ∧ rest' = todo ++ gc :: rest0 ∧ ItemsOf Item (kinds todo)) ?_
        (by rintro _ _ _ _ _ ⟨h, _⟩; cases h) ?_
      · refine exact_bind (hi _ (g :: b') _ (by rw [ha]; simp; omega) hb) fun cs1 => runs_thenSkip ?_
        unfold optComma
        refine .seesIf ?_ fun h => .pure ?_
        · intro g' rest' he hg'
          rcases ht2 with ht | ⟨gm, t', rfl, hgm, ht3⟩
          · exact absurd (by rw [he]; simp [headKind, hg']) (hcomma ht)
          · rw [List.cons_append] at he ⊢
            cases he
            refine .bumpThen (runs_skip ?_)
            exact ⟨rfl, by simp, rfl, t', by simp, rfl, ht3⟩
        · rcases ht2 with ht | ⟨gm, t', rfl, hgm, ht3⟩
          · exact ⟨rfl, by simp, rfl, t, by simp, rfl, ht⟩
          · exact absurd (by simp [headKind, hgm]) h
      · rintro ⟨⟩ a' rest' cs1 es1 _ ⟨_, h1, rfl, td, h3, rfl, h5⟩
        exact .pure ⟨rfl, by simpa using h1, rfl, td, by rw [ha, h3]; simp, rfl, h5⟩
    generalize hks : kinds todo = ks at ht
    have fin : ∀ (b t : List Group), todo = b ++ t → Item (kinds b) → (ItemsOf Item (kinds t) ∨ ∃ g t', t = g :: t' ∧ g.1.1 = comma ∧ ItemsOf Item (kinds t')) →
        Runs ign true _ (pre ++ flat [go] ++ flat a) (todo ++ gc :: rest0) _ := fun b t h1 h2 h3 => .mono (turn b t h1 h2 h3)
          (R := fun r a' rest' cs' es' => match r with
            | some true => a' ≠ [] ∧ [] ++ es' = [] ∧ ∃ todo, a0 = a ++ a' ++ todo ∧ rest' = todo ++ gc :: rest0 ∧ ItemsOf Item (kinds todo)
            | some false => Exactly a0 (gc :: rest0) (some ()) (a ++ a') rest' (cs ++ cs') ([] ++ es')
            | none => Exactly a0 (gc :: rest0) none (a ++ a') rest' (cs ++ cs') ([] ++ es'))
          (by rintro r a' rest' cs' es' _ ⟨rfl, h⟩; exact h)
    cases ht with
    | nil =>
      obtain rfl := kinds_nil_eq hks
      refine .bind (R' := fun r a rest cs es => r = some false ∧ a = [] ∧ rest = gc :: rest0 ∧ es = [])
        (.more (.sees (.pure ⟨by simp [headKind, hc], rfl, rfl, rfl⟩))) (by rintro _ _ _ _ _ ⟨h, _⟩; cases h) ?_
      rintro x _ _ cs' _ _ ⟨hx, rfl, rfl, rfl⟩
      cases hx
      exact .pure ⟨rfl, by simp [ha], rfl, rfl⟩
    | one hv hvs =>
      obtain ⟨b, t, rfl, rfl, rfl⟩ := kinds_append_eq hks
      exact fin b t rfl hv (.inl hvs)
    | comma hv hvs =>
      obtain ⟨b, t, rfl, rfl, h1⟩ := kinds_append_eq hks
      obtain ⟨gm, t', rfl, hgm, rfl⟩ := kinds_cons_eq h1
      exact fin b _ rfl hv (.inr ⟨gm, t', rfl, hgm, hvs⟩)
  · intro g' rest' he _
    cases he
    exact ⟨rfl, by simp, rfl, rfl⟩

theorem parseValue_exact : ∀ (fuel : Nat) (pre : List (Nat × Nat)) (a0 rest0 : List Group), a0.length < fuel → IniSyntax .value (kinds a0) →
    Runs ign true (parseValue fuel) pre (a0 ++ rest0) (Exactly a0 rest0) := by
  intro fuel
  induction fuel with
  | zero => intro _ _ _ h; omega
  | succ fuel ih =>
    intro pre a0 rest0 hf h
    generalize hks : kinds a0 = ks at h
    unfold parseValue
    refine exact_node (.kind ?_)
    cases h with
    | scalar h =>
      obtain ⟨g, a1, rfl, rfl, h1⟩ := kinds_cons_eq hks
      obtain rfl := kinds_nil_eq h1
      simp only [List.cons_append, List.nil_append, headKind, List.head?_cons, Option.map_some]
      rw [if_pos (by simpa using h)]
      exact .bumped ⟨rfl, rfl, rfl, rfl⟩
    | array h =>
      obtain ⟨go, a1, rfl, ho, h1⟩ := kinds_cons_eq hks
      obtain ⟨av, a2, rfl, rfl, h2⟩ := kinds_append_eq h1
      obtain ⟨gc, a3, rfl, hc, h3⟩ := kinds_cons_eq h2
      obtain rfl := kinds_nil_eq h3
      simp only [List.cons_append, List.append_assoc, List.nil_append, headKind, List.head?_cons, Option.map_some, ho]
      rw [if_neg (by decide), if_pos (by trivial)]
      refine bracketed_exact ho hc ((values_iff _).mp h) (fun pre' a' rest' hl hv => ih _ _ _ (by simp at hf; omega) hv) ?_ (by decide)
      intro ks h
      obtain ⟨k, ks', rfl, hm⟩ := value_first h
      refine ⟨k, ks', rfl, ?_, ?_⟩ <;> (rintro rfl; revert hm; decide)
    | inline h =>
      obtain ⟨go, a1, rfl, ho, h1⟩ := kinds_cons_eq hks
      obtain ⟨av, a2, rfl, rfl, h2⟩ := kinds_append_eq h1
      obtain ⟨gc, a3, rfl, hc, h3⟩ := kinds_cons_eq h2
      obtain rfl := kinds_nil_eq h3
      simp only [List.cons_append, List.append_assoc, List.nil_append, headKind, List.head?_cons, Option.map_some, ho]
      rw [if_neg (by decide), if_neg (by decide), if_pos (by trivial)]
      refine bracketed_exact ho hc ((pairs_iff _).mp h)
        (fun pre' a' rest' hl hv => parseKeyValue_exact hv fun pre'' a'' hl' hv' => ih _ _ _ (by simp at hf; omega) hv') ?_ (by decide)
      intro ks h
      obtain ⟨k, ks', rfl, hm⟩ := pair_first h
      refine ⟨k, ks', rfl, ?_, ?_⟩ <;> (rintro rfl; revert hm; unfold Keyish; decide)

/-- What may follow the lines of a table. -/
def Follow (rest : List Group) : Prop := ∀ k, headKind rest = some k → k = eof ∨ k = leftBracket ∨ k = doubleLeftBracket

/-- All of `a0` is gone over; an end mark after it is an error, at its number. -/
def Stops (pre : List (Nat × Nat)) (a0 rest0 : List Group) : Said Unit := fun r a rest _ es => a = a0 ∧ rest = rest0 ∧
  (headKind rest0 = some eof → r = none ∧ es = [⟨2, (pre ++ flat a0).length⟩]) ∧ (headKind rest0 ≠ some eof → r = some () ∧ es = [])

theorem parseKeyValue_eof {value : Prs Unit} (h : headKind gs = some eof) :
    Runs ign true (parseKeyValue value) pre gs (fun r a rest _ es => r = none ∧ a = [] ∧ rest = gs ∧ es = [⟨2, pre.length⟩]) := by
  have : Runs ign true keyPart pre gs (fun r a rest _ es => r = none ∧ a = [] ∧ rest = gs ∧ es = [⟨2, pre.length⟩]) := by
    unfold keyPart
    refine .seesIf ?_ fun _ => .seesIf ?_ fun _ => runs_expected ⟨rfl, rfl, rfl, rfl⟩
    · rintro g rest rfl hg
      simp [headKind, hg, identifier, eof] at h
    · rintro g rest rfl hg
      simp [headKind, hg, string, eof] at h
  have hk : Runs ign true parseKey pre gs (fun r a rest _ es => r = none ∧ a = [] ∧ rest = gs ∧ es = [⟨2, pre.length⟩]) := by
    unfold parseKey
    refine .node (.mono (R' := fun r a rest _ es => r = none ∧ a = [] ∧ rest = gs ∧ es = [⟨2, pre.length⟩]) ?_ ?_)
    · refine .loop (fun a rest _ es => a = [] ∧ rest = gs ∧ es = []) ⟨rfl, rfl, rfl⟩ ?_
      rintro a rest cs es _ ⟨rfl, rfl, rfl⟩
      unfold keyTurn
      rw [show pre ++ flat [] = pre by simp [flat]]
      refine .bind this ?_ (by rintro _ _ _ _ _ _ ⟨h, _⟩; cases h)
      rintro a rest' cs' es' _ ⟨_, rfl, rfl, rfl⟩
      exact ⟨rfl, rfl, rfl, rfl⟩
    · rintro r a rest cs es _ ⟨rfl, h⟩
      exact ⟨fun _ => ⟨rfl, h⟩, by simp⟩
  unfold parseKeyValue
  refine .node (.bind hk ?_ (by rintro _ _ _ _ _ _ ⟨h, _⟩; cases h))
  rintro a rest cs es _ ⟨_, h⟩
  exact ⟨fun _ => ⟨rfl, h⟩, by simp⟩

theorem inTable_exact {R : Said Bool} {f : Bool → Prs Bool} {b : Bool}
    (hb : (decide (gs ≠ []) && !(headKind gs == some leftBracket) && !(headKind gs == some doubleLeftBracket)) = b)
    (h : Runs ign true (f b) pre gs R) : Runs ign true (inTable >>= f) pre gs R := by
  refine .bind (R' := fun r a rest cs es => r = some b ∧ a = [] ∧ rest = gs ∧ cs = [] ∧ es = [])
    (.more (.sees (.sees (.pure ⟨by rw [← hb], rfl, rfl, rfl, rfl⟩)))) (by rintro _ _ _ _ _ ⟨h, _⟩; cases h) ?_
  rintro x _ _ _ _ _ ⟨hx, rfl, rfl, rfl, rfl⟩
  cases hx
  simpa [flat] using h

theorem tableTurns_exact {value : Prs Unit} {a0 rest0 : List Group} (h : IniSyntax .lines (kinds a0)) (hr : Follow rest0)
    (hv : ∀ pre' a' rest', a'.length ≤ a0.length → IniSyntax .value (kinds a') → Runs ign true value pre' (a' ++ rest') (Exactly a' rest')) :
    Runs ign true (loop_ (tableTurn value)) pre (a0 ++ rest0) (Stops pre a0 rest0) := by
  refine .loop (fun a rest _ es => es = [] ∧ ∃ todo, a0 = a ++ todo ∧ rest = todo ++ rest0 ∧ IniSyntax .lines (kinds todo))
    ⟨rfl, a0, rfl, rfl, h⟩ ?_
  rintro a _ cs es _ ⟨rfl, todo, ha, rfl, ht⟩
  unfold tableTurn
  generalize hks : kinds todo = ks at ht
  cases ht with
  | noLine =>
    obtain rfl := kinds_nil_eq hks
    obtain rfl : a0 = a := by simpa using ha
    rw [List.nil_append]
    by_cases he : headKind rest0 = some eof
    · obtain ⟨g, rest, rfl, hg⟩ := headKind_cons he
      have hb : (decide (g :: rest ≠ []) && !(headKind (g :: rest) == some leftBracket) && !(headKind (g :: rest) == some doubleLeftBracket)) = true := by
        rw [he]; rfl
      refine inTable_exact hb (runs_thenSkip (inTable_exact hb ?_))
      rw [if_pos rfl]
      refine .bind (parseKeyValue_eof he) ?_ (by rintro _ _ _ _ _ _ ⟨h, _⟩; cases h)
      rintro a' rest' cs' es' _ ⟨_, rfl, rfl, rfl⟩
      exact ⟨by simp, rfl, fun _ => ⟨rfl, rfl⟩, fun h => absurd he h⟩
    · refine inTable_exact (b := false) ?_ (.pure ⟨by simp, rfl, fun h => absurd h he, fun _ => ⟨rfl, rfl⟩⟩)
      cases rest0 with
      | nil => rfl
      | cons g rest =>
        rcases hr g.1.1 rfl with h | h | h
        · exact absurd (by simp [headKind, h]) he
        · simp [headKind, h]
        · simp [headKind, h]
  | line hp hps =>
    obtain ⟨b, t, rfl, rfl, rfl⟩ := kinds_append_eq hks
    obtain ⟨k, ks', h1, h2⟩ := pair_first hp
    have hk : headKind (b ++ t ++ rest0) = some k := by
      obtain ⟨g, b', rfl, rfl, _⟩ := kinds_cons_eq h1
      rfl
    have hb : (decide (b ++ t ++ rest0 ≠ []) && !(headKind (b ++ t ++ rest0) == some leftBracket) && !(headKind (b ++ t ++ rest0) == some doubleLeftBracket)) = true := by
      have : b ++ t ++ rest0 ≠ [] := by rintro h; rw [h] at hk; cases hk
      rw [hk]
      rw [decide_eq_true this]
      rcases h2 with rfl | rfl <;> rfl
    refine inTable_exact hb (runs_thenSkip (inTable_exact hb ?_))
    rw [if_pos rfl, List.append_assoc]
    refine exact_bind (parseKeyValue_exact hp fun pre' a' hl hv' => hv pre' a' _ (by rw [ha]; simp; omega) hv') fun cs' => .pure ?_
    refine ⟨?_, rfl, t, by simp [ha], rfl, hps⟩
    rintro h
    obtain rfl : b = [] := by simpa using h
    cases h1

theorem stops_node {k : Nat} {p : Prs Unit} {a0 rest0 : List Group} (h : Runs ign true p pre gs (Stops pre a0 rest0)) :
    Runs ign true (node k p) pre gs (Stops pre a0 rest0) := by
  refine .node (.mono h ?_)
  rintro r a rest cs es _ ⟨rfl, rfl, h1, h2⟩
  by_cases he : headKind rest = some eof
  · obtain ⟨rfl, rfl⟩ := h1 he
    exact ⟨fun _ => ⟨rfl, rfl, fun _ => ⟨rfl, rfl⟩, fun h => absurd he h⟩, by simp⟩
  · obtain ⟨rfl, rfl⟩ := h2 he
    exact ⟨by simp, fun _ _ => ⟨rfl, rfl, fun h => absurd h he, fun _ => ⟨rfl, rfl⟩⟩⟩

theorem tableBody_exact {value : Prs Unit} {o c kind : Nat} {go gc : Group} {ak al rest0 : List Group} (ho : go.1.1 = o) (hc : gc.1.1 = c) (hcd : c ≠ dot)
    (hk : IniSyntax .key (kinds ak)) (hl : IniSyntax .lines (kinds al)) (hr : Follow rest0)
    (hv : ∀ pre' a' rest', a'.length ≤ al.length → IniSyntax .value (kinds a') → Runs ign true value pre' (a' ++ rest') (Exactly a' rest')) :
    Runs ign true (node kind do need ign o; parseKey; need ign c; loop_ (tableTurn value)) pre (go :: (ak ++ gc :: (al ++ rest0)))
      (Stops pre (go :: (ak ++ gc :: al)) rest0) := by
  refine stops_node (need_exact ho (exact_bind (parseKey_exact hk (by simpa [headKind, hc] using hcd)) fun cs => need_exact hc ?_))
  refine .mono (tableTurns_exact hl hr hv) ?_
  rintro r a rest cs' es _ ⟨rfl, rfl, h1, h2⟩
  refine ⟨by simp, rfl, fun he => ⟨(h1 he).1, ?_⟩, h2⟩
  rw [(h1 he).2]
  simp [flat]

theorem root_exact {value : Prs Unit} {a0 rest0 : List Group} (h : IniDocument (kinds a0)) (hr : ∀ k, headKind rest0 = some k → k = eof)
    (hv : ∀ pre' a' rest', a'.length ≤ a0.length → IniSyntax .value (kinds a') → Runs ign true value pre' (a' ++ rest') (Exactly a' rest')) :
    Runs ign true (loop_ (rootTurn value)) pre (a0 ++ rest0) (Stops pre a0 rest0) := by
  refine .loop (fun a rest _ es => es = [] ∧ ∃ todo, a0 = a ++ todo ∧ rest = todo ++ rest0 ∧ IniDocument (kinds todo))
    ⟨rfl, a0, rfl, rfl, h⟩ ?_
  rintro a _ cs es _ ⟨rfl, todo, ha, rfl, ls, ts, hd, hl, ht⟩
  unfold rootTurn
  by_cases hn : todo ++ rest0 = []
  · obtain ⟨rfl, rfl⟩ := List.append_eq_nil_iff.mp hn
    exact .more (.pure ⟨by simp [ha], rfl, by simp [headKind], fun _ => ⟨rfl, rfl⟩⟩)
  refine .more ?_
  rw [if_pos (decide_eq_true hn)]
  refine runs_thenSkip (.more ?_)
  rw [if_pos (decide_eq_true hn)]
  have hne : ∀ {k : Nat}, headKind rest0 = some k → k = eof := fun h => hr _ h
  have table : ∀ {o c kind : Nat} {go gc : Group} {ak al at_ : List Group}, todo = go :: (ak ++ gc :: (al ++ at_)) → go.1.1 = o → gc.1.1 = c → c ≠ dot →
      (headKind todo = some leftBracket ∧ o = leftBracket ∧ c = rightBracket ∧ kind = Ini.table ∨
        headKind todo = some doubleLeftBracket ∧ o = doubleLeftBracket ∧ c = doubleRightBracket ∧ kind = arrayOfTables) →
      IniSyntax .key (kinds ak) → IniSyntax .lines (kinds al) → IniSyntax .tables (kinds at_) →
      Runs ign true (do rootItem value; return true) (pre ++ flat a) (todo ++ rest0) (fun r a' rest' cs' es' =>
        match r with
        | some true => a' ≠ [] ∧ [] ++ es' = [] ∧ ∃ todo, a0 = a ++ a' ++ todo ∧ rest' = todo ++ rest0 ∧ IniDocument (kinds todo)
        | some false => Stops pre a0 rest0 (some ()) (a ++ a') rest' (cs ++ cs') ([] ++ es')
        | none => Stops pre a0 rest0 none (a ++ a') rest' (cs ++ cs') ([] ++ es')) := by
    rintro o c kind go gc ak al at_ rfl ho hc hcd hkind hk hl hts
    have hF : Follow (at_ ++ rest0) := by
      intro k hk
      generalize hks : kinds at_ = ks at hts
      cases hts with
      | noTable => rw [kinds_nil_eq hks] at hk; exact .inl (hr k hk)
      | table =>
        obtain ⟨g, b', rfl, hg, _⟩ := kinds_cons_eq hks
        simp [headKind, hg] at hk; exact .inr (.inl hk.symm)
      | tableOf =>
        obtain ⟨g, b', rfl, hg, _⟩ := kinds_cons_eq hks
        simp [headKind, hg] at hk; exact .inr (.inr hk.symm)
    have run : Runs ign true (rootItem value) (pre ++ flat a) (go :: (ak ++ gc :: (al ++ at_)) ++ rest0)
        (Stops (pre ++ flat a) (go :: (ak ++ gc :: al)) (at_ ++ rest0)) := by
      have h1 := tableBody_exact (pre := pre ++ flat a) (kind := kind) ho hc hcd hk hl hF
        (fun pre' a' rest' hlen => hv pre' a' rest' (by rw [ha]; simp; omega))
      have e1 : headKind (go :: (ak ++ gc :: (al ++ at_)) ++ rest0) = some o := by simp [headKind, ho]
      have e2 : go :: (ak ++ gc :: (al ++ at_)) ++ rest0 = go :: (ak ++ gc :: (al ++ (at_ ++ rest0))) := by simp
      unfold rootItem
      refine .sees (.sees ?_)
      rw [e1]
      rcases hkind with ⟨_, rfl, rfl, rfl⟩ | ⟨_, rfl, rfl, rfl⟩
      · rw [if_pos (by rfl)]
        unfold parseTable
        refine .sees ?_
        rw [e1, if_neg (by decide), e2]
        exact h1
      · rw [if_pos (by rfl)]
        unfold parseTable
        refine .sees ?_
        rw [e1, if_pos (by rfl), e2]
        exact h1
    refine .bind run ?_ ?_
    · rintro a' rest' cs' es' _ ⟨rfl, rfl, h1, h2⟩
      by_cases he : headKind (at_ ++ rest0) = some eof
      · obtain ⟨_, rfl⟩ := h1 he
        obtain rfl : at_ = [] := by
          generalize hks : kinds at_ = ks at hts
          cases hts with
          | noTable => exact kinds_nil_eq hks
          | table => obtain ⟨g, b', rfl, hg, _⟩ := kinds_cons_eq hks; simp [headKind, hg, eof, leftBracket] at he
          | tableOf => obtain ⟨g, b', rfl, hg, _⟩ := kinds_cons_eq hks; simp [headKind, hg, eof, doubleLeftBracket] at he
        refine ⟨by simp [ha], rfl, fun _ => ⟨rfl, ?_⟩, fun h => absurd he h⟩
        simp [ha, flat_append]
      · cases (h2 he).1
    · rintro ⟨⟩ a' rest' cs' es' _ ⟨rfl, rfl, h1, h2⟩
      by_cases he : headKind (at_ ++ rest0) = some eof
      · cases (h1 he).1
      · obtain ⟨_, rfl⟩ := h2 he
        exact .pure ⟨by simp, rfl, at_, by simp [ha], rfl, [], _, rfl, .noLine, hts⟩
  cases hl with
  | noLine =>
    rw [List.nil_append] at hd
    cases ht with
    | noTable =>
      obtain rfl := kinds_nil_eq hd
      obtain rfl : a0 = a := by simpa using ha
      rw [List.nil_append] at hn ⊢
      obtain ⟨g, rest, rfl⟩ := List.exists_cons_of_ne_nil hn
      have he : headKind (g :: rest) = some eof := by rw [← hr g.1.1 rfl]; rfl
      refine .bind (R' := fun r a rest' _ es => r = none ∧ a = [] ∧ rest' = g :: rest ∧ es = [⟨2, (pre ++ flat a0).length⟩]) ?_ ?_ (by rintro _ _ _ _ _ _ ⟨h, _⟩; cases h)
      · unfold rootItem
        refine .sees (.sees ?_)
        rw [he, if_neg (by decide)]
        exact parseKeyValue_eof he
      · rintro a' rest' cs' es' _ ⟨_, rfl, rfl, rfl⟩
        exact ⟨by simp, rfl, fun _ => ⟨rfl, rfl⟩, fun h => absurd he h⟩
    | table hk hl ht =>
      obtain ⟨go, a1, rfl, ho, h1⟩ := kinds_cons_eq hd
      obtain ⟨ak, a2, rfl, rfl, h2⟩ := kinds_append_eq h1
      obtain ⟨gc, a3, rfl, hc, h3⟩ := kinds_cons_eq h2
      obtain ⟨al, at_, rfl, rfl, rfl⟩ := kinds_append_eq h3
      exact table rfl ho hc (by decide) (.inl ⟨by simp [headKind, ho], rfl, rfl, rfl⟩) hk hl ht
    | tableOf hk hl ht =>
      obtain ⟨go, a1, rfl, ho, h1⟩ := kinds_cons_eq hd
      obtain ⟨ak, a2, rfl, rfl, h2⟩ := kinds_append_eq h1
      obtain ⟨gc, a3, rfl, hc, h3⟩ := kinds_cons_eq h2
      obtain ⟨al, at_, rfl, rfl, rfl⟩ := kinds_append_eq h3
      exact table rfl ho hc (by decide) (.inr ⟨by simp [headKind, ho], rfl, rfl, rfl⟩) hk hl ht
  | line hp hps =>
    rw [List.append_assoc] at hd
    obtain ⟨b, t, rfl, rfl, h1⟩ := kinds_append_eq hd
    obtain ⟨k, ks', h2, h3⟩ := pair_first hp
    have hk : headKind (b ++ (t ++ rest0)) = some k := by
      obtain ⟨g, b', rfl, rfl, _⟩ := kinds_cons_eq h2
      rfl
    rw [List.append_assoc]
    refine exact_bind (a0 := b) (rest0 := t ++ rest0) ?_ fun cs' => .pure ?_
    · unfold rootItem
      refine .sees (.sees ?_)
      rw [hk, if_neg (by rcases h3 with rfl | rfl <;> decide)]
      exact parseKeyValue_exact hp fun pre' a' hl hv' => hv pre' a' _ (by rw [ha]; simp; omega) hv'
    · refine ⟨?_, rfl, t, by simp [ha], rfl, _, _, h1, hps, ht⟩
      rintro h
      obtain rfl : b = [] := by simpa using h
      cases h2

end
end Ini
end Oaks
