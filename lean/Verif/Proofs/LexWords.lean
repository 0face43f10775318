import Verif.Proofs.LexTrace
import Verif.Props.Cursor
import Mathlib.Data.List.Dedup

/-! Lexers on texts made of known words: one turn of the loop of `run` after the other. -/
namespace Oaks.Lc
open Spec

/-- What `run` is made of: a beginning, the loop with its register, condition and body, an end. -/
structure Parts where
  pre : Code
  g : Nat
  c : Code
  p : Code
  post : Code

def partsOf : Code → Option Parts
  | .scope _ (.loop g _ c p) => some ⟨.val true, g, c, p, .val true⟩
  | .scope _ (.seq (.loop g _ c p) q) => some ⟨.val true, g, c, p, q⟩
  | .scope _ (.seq a (.loop g _ c p)) => some ⟨a, g, c, p, .val true⟩
  | _ => none

/-- One turn of the loop, from any state, that goes on to the next. -/
def Parts.turn (m : Parts) (k : Str) (stop whole : Bool) : Option Tr :=
  match follow k stop whole m.c ⟨0, [(m.g, some (.pos 0))], []⟩ with
  | some (a, .val true) =>
    match follow k stop whole m.p a with
    | some (a, .val _) => some a
    | some (a, .cont) => some a
    | _ => none
  | _ => none

def shiftBy (i : Nat) (ks : List (Nat × Nat)) : List (Nat × Nat) := ks.map fun x => (x.1 + i, x.2 + i)

/-- The tokens of the turns up to `upto`. -/
def Parts.cutTo (m : Parts) (whole : Bool) : Nat → Str → Bool → Nat → Option (List (Nat × Nat))
  | 0, _, _, _ => none
  | n + 1, k, stop, upto =>
    match m.turn k stop whole with
    | none => none
    | some a =>
      if a.i = 0 then none
      else if a.i = upto then some a.toks
      else if a.i < upto then (m.cutTo whole n (k.drop a.i) stop (upto - a.i)).map fun r => a.toks ++ shiftBy a.i r
      else none

/-- The tokens added at the end of the text. -/
def Parts.ending (m : Parts) (whole : Bool) : Option (List (Nat × Nat)) :=
  match follow [] true whole m.c ⟨0, [(m.g, some (.pos 0))], []⟩ with
  | some (a, .val false) =>
    match follow [] true whole m.post ⟨0, [], a.toks⟩ with
    | some (a, .val _) => some a.toks
    | _ => none
  | _ => none

/-- Before the loop nothing happens to the text. -/
def Parts.quiet (m : Parts) (whole : Bool) : Bool :=
  match follow [] false whole m.pre ⟨0, [], []⟩ with
  | some (a, .val _) => a.toks.isEmpty
  | _ => false

theorem abs_shift (b i : Nat) (ks : List (Nat × Nat)) : abs b (shiftBy i ks) = abs (b + i) ks := by
  simp only [abs, shiftBy, List.map_map]
  congr 1
  funext x
  simp only [Function.comp]
  congr 1 <;> omega

theorem abs_append (b : Nat) (x y : List (Nat × Nat)) : abs b (x ++ y) = abs b x ++ abs b y := by simp [abs]

/-- The lexer stands between `l` and `r`. -/
def Here (src : Source) (t : Str) (whole : Bool) (l r : Str) (toks : List Tok) (lex : Lex) : Prop :=
  LexAt src t l r toks lex ∧ (whole = true → Full t lex.cur)

section
variable {u : Uni} {src : Source} {t : Str} {ω : Nat → Nat} {whole : Bool}

theorem on_start {l k s : Str} {toks : List Tok} {st : LSt} (h : Here src t whole l (k ++ s) toks st.lex) (ks : List (Nat × Nat)) {toks0 : List Tok}
    (ht : toks = toks0 ++ abs (blen l) ks) : On src t l k s whole toks0 ⟨0, [], ks⟩ st := by
  refine ⟨Nat.zero_le _, ?_, fun q => trivial, h.2⟩
  subst ht
  simpa using h.1

theorem turn_sound (hs : Supplied src t) {m : Parts} {l k s : Str} {toks : List Tok} {stop : Bool} (hk : Known src t l k s stop whole) {a : Tr}
    (h : m.turn k stop whole = some a) {st : LSt} (hl : Here src t whole l (k ++ s) toks st.lex) :
    ∃ st', (∀ n, turns (exec src u ω m.c) (exec src u ω m.p) m.g (n + 1) st = turns (exec src u ω m.c) (exec src u ω m.p) m.g n st') ∧
      On src t l k s whole toks a st' := by
  unfold Parts.turn at h
  have h0 : On src t l k s whole toks ⟨0, [(m.g, some (.pos 0))], []⟩ (st.set m.g st.lex.pos) := by
    have h1 : On src t l k s whole toks ⟨0, [], []⟩ st := on_start hl [] (by simp [abs])
    exact h1.set m.g _ (some (.pos 0)) (h1.pos hk)
  split at h
  · rename_i a1 h1
    obtain ⟨st1, e1, o1⟩ := follow_right (u := u) (ω := ω) hs hk m.c _ _ _ _ h1 h0
    split at h
    · rename_i a2 b h2
      cases h
      obtain ⟨st2, e2, o2⟩ := follow_right (u := u) (ω := ω) hs hk m.p _ _ _ _ h2 o1
      exact ⟨st2, fun n => by rw [turns]; simp only [e1, run_bind_ok, e2], o2⟩
    · rename_i a2 h2
      cases h
      obtain ⟨st2, e2, o2⟩ := follow_right (u := u) (ω := ω) hs hk m.p _ _ _ _ h2 o1
      exact ⟨st2, fun n => by rw [turns]; simp only [e1, run_bind_ok, e2], o2⟩
    · cases h
  · cases h

theorem cutTo_sound (hs : Supplied src t) {m : Parts} (n : Nat) : ∀ {l k s : Str} {toks : List Tok} {stop : Bool} {upto : Nat} {ks : List (Nat × Nat)},
    Known src t l k s stop whole → m.cutTo whole n k stop upto = some ks → ∀ {st : LSt}, Here src t whole l (k ++ s) toks st.lex →
    ∃ st' j, j ≤ upto ∧ upto ≤ k.length ∧
      (∀ n, turns (exec src u ω m.c) (exec src u ω m.p) m.g (n + j) st = turns (exec src u ω m.c) (exec src u ω m.p) m.g n st') ∧
      Here src t whole (l ++ k.take upto) (k.drop upto ++ s) (toks ++ abs (blen l) ks) st'.lex := by
  induction n with
  | zero => intro l k s toks stop upto ks hk h; cases h
  | succ n ih =>
    intro l k s toks stop upto ks hk h st hl
    simp only [Parts.cutTo] at h
    split at h
    · cases h
    rename_i a ha
    obtain ⟨st1, e1, o1⟩ := turn_sound (u := u) (ω := ω) hs hk ha hl
    split at h
    · cases h
    rename_i hne
    split at h
    · rename_i he
      cases h
      subst he
      exact ⟨st1, 1, by omega, o1.le, e1, o1.lex, o1.full⟩
    · split at h
      · rename_i hlt
        obtain ⟨r, hr, h⟩ := Option.map_eq_some_iff.mp h
        cases h
        have hk' : Known src t (l ++ k.take a.i) (k.drop a.i) s stop whole :=
          ⟨by rw [hk.text, List.append_assoc l (k.take a.i), List.take_append_drop], fun c hc => hk.ascii c (List.mem_of_mem_drop hc), hk.last, hk.piece⟩
        obtain ⟨st2, j, h1, h2, h3, h4⟩ := ih hk' hr ⟨o1.lex, o1.full⟩
        have hb : blen (l ++ k.take a.i) = blen l + a.i := by rw [blen_append, hk.asciiTake, Nat.min_eq_left o1.le]
        rw [List.length_drop] at h2
        refine ⟨st2, j + 1, by omega, by omega, fun n => by rw [← Nat.add_assoc, e1, h3], ?_⟩
        rw [List.drop_drop, List.append_assoc, hb, ← (split_at k (Nat.le_of_lt hlt)).1, show a.i + (upto - a.i) = upto by omega] at h4
        rw [abs_append, abs_shift, ← List.append_assoc]
        exact h4
      · cases h

/-- A stretch of the text with the tokens it gets, whatever follows it among `after`. -/
def Cuts (m : Parts) (whole : Bool) (x after : Str) (stop : Bool) (ks : List (Nat × Nat)) : Prop :=
  m.cutTo whole x.length (x ++ after) stop x.length = some ks ∧ (∀ c ∈ x ++ after, c.toNat < 128)

theorem cuts_sound (hs : Supplied src t) (hw : whole = true → Piece src t) {m : Parts} {l x after s : Str} {stop : Bool} {toks : List Tok} {ks : List (Nat × Nat)}
    (h : Cuts m whole x after stop ks) (hlast : stop = true → s = []) {st : LSt} (hl : Here src t whole l (x ++ (after ++ s)) toks st.lex) :
    ∃ st' j, j ≤ x.length ∧
      (∀ n, turns (exec src u ω m.c) (exec src u ω m.p) m.g (n + j) st = turns (exec src u ω m.c) (exec src u ω m.p) m.g n st') ∧
      Here src t whole (l ++ x) (after ++ s) (toks ++ abs (blen l) ks) st'.lex := by
  obtain ⟨h1, h2⟩ := h
  have ht := hl.1.cur.text
  have hk : Known src t l (x ++ after) s stop whole := ⟨by rw [ht]; simp, h2, hlast, hw⟩
  rw [← List.append_assoc] at hl
  obtain ⟨st', j, g1, g2, g3, g4⟩ := cutTo_sound (u := u) (ω := ω) hs _ hk h1 hl
  refine ⟨st', j, g1, g3, ?_⟩
  simpa using g4

/-! ### Sequences -/

/-- What a vocabulary says: the tokens of each word, relative to where it begins. -/
structure Vocab where
  /-- the words with their tokens -/
  words : List (Str × List (Nat × Nat))
  /-- the blanks with their tokens -/
  blanks : List (Char × List (Nat × Nat))
  /-- the tokens at the end of the text -/
  ending : List (Nat × Nat)

/-- The lexer treats the words and blanks so, whatever follows among them. -/
def Vocab.right (v : Vocab) (whole : Bool) (p : Code) : Bool :=
  match partsOf p with
  | none => false
  | some m =>
    m.quiet whole && (m.ending whole == some v.ending) &&
    v.words.all (fun w => !w.1.isEmpty && w.1.all (fun c => decide (c.toNat < 128)) &&
      v.blanks.all fun d => m.cutTo whole w.1.length (w.1 ++ [d.1]) false w.1.length == some w.2) &&
    v.blanks.all (fun d => decide (d.1.toNat < 128) && (m.cutTo whole 1 [d.1] true 1 == some d.2) &&
      (v.words.map fun w => w.1.take 1).dedup.all fun x => m.cutTo whole 1 (d.1 :: x) false 1 == some d.2)

/-- Words, each with a blank after it. -/
abbrev Line := List ((Str × List (Nat × Nat)) × (Char × List (Nat × Nat)))

def Line.text : Line → Str
  | [] => []
  | (w, d) :: x => w.1 ++ d.1 :: Line.text x

def Line.toks (o : Nat) : Line → List Tok
  | [] => []
  | (w, d) :: x => abs o w.2 ++ abs (o + w.1.length) d.2 ++ Line.toks (o + w.1.length + 1) x

/-- The lexer treats the words and blanks of the line so. -/
structure LineRight (m : Parts) (whole : Bool) (x : Line) : Prop where
  words : ∀ e ∈ x, e.1.1 ≠ [] ∧ (∀ c ∈ e.1.1, c.toNat < 128) ∧ m.cutTo whole e.1.1.length (e.1.1 ++ [e.2.1]) false e.1.1.length = some e.1.2
  blanks : ∀ e ∈ x, e.2.1.toNat < 128 ∧ m.cutTo whole 1 [e.2.1] true 1 = some e.2.2 ∧
    ∀ e' ∈ x, m.cutTo whole 1 (e.2.1 :: e'.1.1.take 1) false 1 = some e.2.2

theorem LineRight.of_vocab {p : Code} {m : Parts} {v : Vocab} {whole : Bool} (hp : partsOf p = some m) (hv : v.right whole p = true) {x : Line}
    (hx : ∀ e ∈ x, e.1 ∈ v.words ∧ e.2 ∈ v.blanks) : LineRight m whole x := by
  simp only [Vocab.right, hp, Bool.and_eq_true, List.all_eq_true, beq_iff_eq, decide_eq_true_eq] at hv
  obtain ⟨⟨⟨_, _⟩, hwords⟩, hblanks⟩ := hv
  refine ⟨fun e he => ?_, fun e he => ?_⟩
  · obtain ⟨hw1, hd1⟩ := hx e he
    obtain ⟨⟨hwne, hwa⟩, hwc⟩ := hwords e.1 hw1
    exact ⟨by simpa using hwne, hwa, hwc _ hd1⟩
  · obtain ⟨_, hd1⟩ := hx e he
    obtain ⟨⟨hda, hde⟩, hdc⟩ := hblanks e.2 hd1
    exact ⟨hda, hde, fun e' he' => hdc _ (List.mem_dedup.mpr (List.mem_map_of_mem (f := fun w : Str × List (Nat × Nat) => w.1.take 1) (hx e' he').1))⟩

theorem line_sound (hs : Supplied src t) (hw : whole = true → Piece src t) {m : Parts}
    (x : Line) : LineRight m whole x → ∀ {l : Str} {toks : List Tok} {st : LSt}, Here src t whole l (Line.text x) toks st.lex →
    ∃ st' j, j ≤ (Line.text x).length ∧
      (∀ n, turns (exec src u ω m.c) (exec src u ω m.p) m.g (n + j) st = turns (exec src u ω m.c) (exec src u ω m.p) m.g n st') ∧
      Here src t whole (l ++ Line.text x) [] (toks ++ Line.toks (blen l) x) st'.lex := by
  induction x with
  | nil =>
    intro _ l toks st hl
    exact ⟨st, 0, Nat.le_refl _, fun n => rfl, by simpa [Line.text, Line.toks] using hl⟩
  | cons e x ih =>
    intro hx l toks st hl
    obtain ⟨w, d⟩ := e
    obtain ⟨hwne, hwa, hwc⟩ := hx.words (w, d) (by simp)
    obtain ⟨hda, hde, hdc⟩ := hx.blanks (w, d) (by simp)
    simp only at hwne hwa hwc hda hde
    simp only [Line.text] at hl ⊢
    have c1 : Cuts m whole w.1 [d.1] false w.2 := ⟨hwc, by
      intro c hc
      rcases List.mem_append.mp hc with hc | hc
      · exact hwa c hc
      · simp at hc; subst hc; exact hda⟩
    obtain ⟨st1, j1, a1, a2, a3⟩ := cuts_sound (u := u) (ω := ω) hs hw c1 (by simp) (s := Line.text x) hl
    have hbw : blen w.1 = w.1.length := ascii_len hwa
    -- the blank
    have blank : ∃ st2 j2, j2 ≤ 1 ∧
        (∀ n, turns (exec src u ω m.c) (exec src u ω m.p) m.g (n + j2) st1 = turns (exec src u ω m.c) (exec src u ω m.p) m.g n st2) ∧
        Here src t whole (l ++ w.1 ++ [d.1]) (Line.text x) (toks ++ abs (blen l) w.2 ++ abs (blen (l ++ w.1)) d.2) st2.lex := by
      cases x with
      | nil =>
        have c2 : Cuts m whole [d.1] [] true d.2 := ⟨hde, by intro c hc; simp at hc; subst hc; exact hda⟩
        obtain ⟨st2, j2, b1, b2, b3⟩ := cuts_sound (u := u) (ω := ω) hs hw c2 (s := []) (fun _ => rfl) a3
        exact ⟨st2, j2, b1, b2, by simpa [Line.text] using b3⟩
      | cons e x =>
        obtain ⟨w', d'⟩ := e
        obtain ⟨hne', hwa', _⟩ := hx.words (w', d') (by simp)
        simp only at hne' hwa'
        obtain ⟨c, cs, hcs⟩ : ∃ c cs, w'.1 = c :: cs := by
          cases hq : w'.1 with
          | nil => exact absurd hq hne'
          | cons c cs => exact ⟨c, cs, rfl⟩
        have c2 : Cuts m whole [d.1] [c] false d.2 := ⟨by
          have := hdc (w', d') (by simp)
          simp only [hcs] at this
          exact this, by
            intro y hy
            simp at hy
            rcases hy with rfl | rfl
            · exact hda
            · exact hwa' _ (by rw [hcs]; simp)⟩
        obtain ⟨st2, j2, b1, b2, b3⟩ := cuts_sound (u := u) (ω := ω) hs hw c2 (s := cs ++ d'.1 :: Line.text x) (by simp) (by
          simpa [Line.text, hcs] using a3)
        exact ⟨st2, j2, b1, b2, by simpa [Line.text, hcs] using b3⟩
    obtain ⟨st2, j2, b1, b2, b3⟩ := blank
    obtain ⟨st3, j3, d1, d2, d3⟩ := ih ⟨fun e he => hx.words e (by simp [he]), fun e he =>
      ⟨(hx.blanks e (by simp [he])).1, (hx.blanks e (by simp [he])).2.1, fun e' he' => (hx.blanks e (by simp [he])).2.2 e' (by simp [he'])⟩⟩ b3
    refine ⟨st3, j3 + j2 + j1, ?_, fun n => ?_, ?_⟩
    · simp; omega
    · rw [show n + (j3 + j2 + j1) = n + j3 + j2 + j1 by omega, a2, b2, d2]
    · have hd8 : blen [d.1] = 1 := ascii_len (k := [d.1]) (by intro c hc; simp at hc; subst hc; exact hda)
      simp only [blen_append, hbw, hd8] at d3
      simpa [Line.toks, List.append_assoc] using d3

theorem lines_sound (hs : Supplied src t) (hw : whole = true → Piece src t) {p : Code} {m : Parts} (hm : partsOf p = some m) (hq : m.quiet whole = true)
    {ending : List (Nat × Nat)} (hend : m.ending whole = some ending) {x : Line} (hx : LineRight m whole x) (ht : t = Line.text x) (ω : Nat → Nat) :
    scanAll src u ω p = .ok (Line.toks 0 x ++ abs (blen t) ending) := by
  obtain ⟨lex, e0, h0⟩ := lex_new hs
  have hf0 : whole = true → Full t lex.cur := by
    intro hw'
    simp only [Lex.new, Cur.newAt] at e0
    cases hc : src.chunkAt (min 0 src.length) with
    | error x => rw [hc] at e0; cases e0
    | ok c => rw [hc] at e0; cases e0; exact hw hw' _ _ hc
  have hlen : src.length = blen t := hs.length_eq
  -- before the loop
  have hpre : ∃ st b, exec src u ω m.pre ⟨lex, fun _ => 0, 0⟩ = .ok (st, .val b) ∧ Here src t whole [] t [] st.lex := by
    unfold Parts.quiet at hq
    split at hq
    · rename_i a b ha
      obtain ⟨st, f1, f2⟩ := follow_right (u := u) (ω := ω) (toks := []) hs (l := []) (k := []) (s := t) (stop := false) ⟨rfl, by simp, by simp, hw⟩ m.pre _ _ _ ⟨lex, fun _ => 0, 0⟩ ha
        (on_start (k := []) (s := t) ⟨h0, hf0⟩ [] (by simp [abs]))
      have f3 : Here src t whole _ _ _ _ := ⟨f2.lex, f2.full⟩
      simp only [List.isEmpty_iff] at hq
      rw [hq] at f3
      exact ⟨st, b, f1, by simpa [abs] using f3⟩
    · cases hq
  obtain ⟨st1, b1, e1, h1⟩ := hpre
  -- the loop
  rw [ht] at h1
  rw [← ht] at h1
  obtain ⟨st2, j, g1, g2, g3⟩ := line_sound (u := u) (ω := ω) hs hw x hx (l := []) (toks := []) (st := st1) (by rw [← ht]; exact h1)
  have hle : (Line.text x).length ≤ blen t := by
    rw [ht]
    clear * -
    induction Line.text x with
    | nil => simp
    | cons c s ih =>
      have : 0 < c.utf8Size := Char.utf8Size_pos c
      simp only [List.length_cons, blen_cons]; omega
  -- the end
  unfold Parts.ending at hend
  split at hend
  · rename_i a ha
    split at hend
    · rename_i a' b' ha'
      rw [Option.some.injEq] at hend
      rw [← hend]
      rw [List.nil_append, ← ht, List.nil_append] at g3
      have hk : Known src t t [] [] true whole := ⟨by simp, by simp, by simp, hw⟩
      have o2 : On src t t [] [] whole (Line.toks 0 x) ⟨0, [(m.g, some (.pos 0))], []⟩ (st2.set m.g st2.lex.pos) := by
        have h1 : On src t t [] [] whole (Line.toks 0 x) ⟨0, [], []⟩ st2 := on_start (k := []) (s := []) g3 [] (by simp [abs])
        exact h1.set m.g _ (some (.pos 0)) (h1.pos hk)
      obtain ⟨st3, k1, k2⟩ := follow_right (u := u) (ω := ω) hs hk m.c _ _ _ _ ha o2
      have hloop : turns (exec src u ω m.c) (exec src u ω m.p) m.g (src.length + 1) st1 = .ok (st3, .val true) := by
        obtain ⟨n, hn⟩ : ∃ n, src.length + 1 = (n + 1) + j := ⟨src.length - j, by omega⟩
        rw [hn, g2, turns]
        simp only [k1, run_bind_ok]
        rfl
      have o3 : On src t t [] [] whole (Line.toks 0 x) ⟨0, [], a.toks⟩ st3 := by
        refine on_start (k := []) (s := []) ?_ a.toks rfl
        have : Here src t whole _ _ _ _ := ⟨k2.lex, k2.full⟩
        simpa using this
      obtain ⟨st4, k3, k4⟩ := follow_right (u := u) (ω := ω) hs hk m.post _ _ _ _ ha' o3
      have hfin : ∃ b, exec src u ω p ⟨lex, fun _ => 0, 0⟩ = .ok (st4, .val b) := by
        unfold partsOf at hm
        split at hm
        · cases hm
          simp only [exec, run_pure, Except.ok.injEq, Prod.mk.injEq] at e1 k3
          obtain ⟨rfl, _⟩ := e1
          obtain ⟨rfl, _⟩ := k3
          exact ⟨true, by simp only [exec, hloop, run_bind_ok]; rfl⟩
        · cases hm
          simp only [exec, run_pure, Except.ok.injEq, Prod.mk.injEq] at e1
          obtain ⟨rfl, _⟩ := e1
          exact ⟨b', by simp only [exec, hloop, run_bind_ok]; simp only [] at k3; rw [k3]; rfl⟩
        · cases hm
          simp only [exec, run_pure, Except.ok.injEq, Prod.mk.injEq] at k3
          obtain ⟨rfl, _⟩ := k3
          exact ⟨true, by simp only [exec]; simp only [] at e1; rw [e1]; simp only [run_bind_ok, hloop]; rfl⟩
        · cases hm
      obtain ⟨b, hfin⟩ := hfin
      simp only [scanAll, e0, run_bind_ok, hfin]
      have := k4.lex.toks
      rw [this]
      rfl
    · cases hend
  · cases hend

theorem vocab_sound (hs : Supplied src t) (hw : whole = true → Piece src t) {p : Code} {v : Vocab} (hv : v.right whole p = true) (x : Line)
    (hx : ∀ e ∈ x, e.1 ∈ v.words ∧ e.2 ∈ v.blanks) (ht : t = Line.text x) (ω : Nat → Nat) :
    scanAll src u ω p = .ok (Line.toks 0 x ++ abs (blen t) v.ending) := by
  obtain ⟨m, hm⟩ : ∃ m, partsOf p = some m := by
    unfold Vocab.right at hv
    split at hv
    · cases hv
    · rename_i m hm; exact ⟨m, hm⟩
  have hv' := hv
  simp only [Vocab.right, hm, Bool.and_eq_true, beq_iff_eq] at hv'
  obtain ⟨⟨⟨hq, hend⟩, _⟩, _⟩ := hv'
  exact lines_sound hs hw hm hq hend (.of_vocab hm hv hx) ht ω

end

end Oaks.Lc
