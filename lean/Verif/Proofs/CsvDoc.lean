import Verif.Proofs.CsvParse

/-! The tree of a CSV text: lossless for every text, the rows of a document for every document. -/
namespace Oaks
open Spec CsvParser

theorem leavesOfList_leafOf (ts : List (Nat × Nat)) :
    leavesOfList (ts.map leafOf) = ts.map (fun t => (t.1, t.2 % 2 ^ 32)) := by
  induction ts with
  | nil => rfl
  | cons t ts ih => simp [leavesOfList, leavesOf, leafOf] at ih ⊢; exact ih

theorem flatMap_leavesG (gs : List Group) : gs.flatMap leavesG = (flat gs).map leafOf := by
  induction gs with
  | nil => rfl
  | cons g gs ih => simp [flat, leavesG] at ih ⊢; exact ih

theorem lenSum_leaves (ts : List (Nat × Nat)) : lenSum (ts.map leafOf) ≤ (ts.map (·.2)).sum := by
  induction ts with
  | nil => simp
  | cons t ts ih =>
    have := Nat.mod_le t.2 (2 ^ 32)
    simp only [List.map_cons, lenSum_cons, List.sum_cons, leafOf, Green.len] at ih ⊢
    omega

theorem weight_le (gs : List Group) : weight gs ≤ ((flat gs).map (·.2)).sum := by
  rw [weight, flatMap_leavesG]; exact lenSum_leaves _

theorem flat_append (a b : List Group) : flat (a ++ b) = flat a ++ flat b := by simp [flat]

/-- Splitting at the first element that is not `p`. -/
theorem split_first {α} {p : α → Prop} {a b a' b' : List α} {x x' : α} (he : a ++ x :: b = a' ++ x' :: b')
    (ha : ∀ y ∈ a, p y) (hx : ¬ p x) (ha' : ∀ y ∈ a', p y) (hx' : ¬ p x') : a = a' ∧ x = x' ∧ b = b' := by
  induction a generalizing a' with
  | nil =>
    cases a' with
    | nil => simpa using he
    | cons y a' => simp at he; rw [he.1] at hx; exact absurd (ha' y List.mem_cons_self) hx
  | cons y a ih =>
    cases a' with
    | nil => simp at he; rw [← he.1] at hx'; exact absurd (ha y List.mem_cons_self) hx'
    | cons z a' =>
      simp at he
      obtain ⟨rfl, he⟩ := he
      obtain ⟨rfl, h⟩ := ih he (fun z hz => ha z (List.mem_cons_of_mem _ hz)) (fun z hz => ha' z (List.mem_cons_of_mem _ hz))
      exact ⟨rfl, h⟩

theorem Spec.CsvToken.kinds {sep q : Char} {k : Option Nat} {m r : Str} (h : CsvToken sep q k m r) :
    k = some CsvLexer.whitespace ∨ k = some CsvLexer.newline ∨ k = some CsvLexer.field ∨ k = some CsvLexer.comma := by
  cases h <;> simp

theorem Spec.Cut.each {P : Option Nat → Str → Str → Prop} {t : Str} {ps : List (Option Nat × Str)} (h : Cut P t ps) :
    ∀ p ∈ ps, p.2 ≠ [] ∧ ∃ r, P p.1 p.2 r := by
  induction h with
  | nil => simp
  | cons hm hp _ ih =>
    intro p hp'
    rcases List.mem_cons.mp hp' with rfl | h
    · exact ⟨hm, _, hp⟩
    · exact ih p h

/-- Kind and length of a piece. -/
def pieceKl (p : Option Nat × Str) : Nat × Nat := (p.1.getD 0, blen p.2)

theorem kl_pieces {ps : List (Option Nat × Str)} (hs : ∀ p ∈ ps, p.1.isSome) (pos : Nat) :
    (tokensOf pos ps).map Tok.kl = ps.map pieceKl := by
  rw [tokensOf_kl]
  induction ps with
  | nil => rfl
  | cons p ps ih =>
    obtain ⟨k, m⟩ := p
    cases k with
    | none => exact absurd (hs _ List.mem_cons_self) (by simp)
    | some k =>
      have := ih (fun p hp => hs p (List.mem_cons_of_mem _ hp))
      simpa [pieceKl] using this

theorem sum_pieceKl (ps : List (Option Nat × Str)) : ((ps.map pieceKl).map (·.2)).sum = blen (ps.flatMap (·.2)) := by
  induction ps with
  | nil => rfl
  | cons p ps ih => simp [pieceKl] at ih ⊢; omega

/-- Every text is parsed; the leaves of the tree are its tokens after the blanks it begins with. -/
theorem csvParse_lossless {src : Source} {t : Str} (hs : Supplied src t) (hl : blen t < 2 ^ 32) :
    ∃ lead ps root, Cut (CsvToken ',' '"') t (lead ++ ps) ∧ (∀ p ∈ lead, p.1 = some CsvLexer.whitespace) ∧
      (∀ p, ps.head? = some p → p.1 ≠ some CsvLexer.whitespace) ∧
      CsvParser.parse src = .ok (root, []) ∧ leavesOf root = ps.map pieceKl := by
  obtain ⟨all, hc, hsome, hlex⟩ := csvLex_spec hs CsvLexer.default
  have hall := hc.text
  obtain ⟨tri, gs, h1, h2, h3⟩ := groups_exist ign (all.map pieceKl ++ [(CsvLexer.eof, 0)])
  have hkl : (tokensOf 0 all ++ [(⟨CsvLexer.eof, blen t, blen t⟩ : Tok)]).map Tok.kl = tri ++ flat gs := by
    rw [List.map_append, kl_pieces hsome, ← h1]
    simp [Tok.kl, Tok.length]
  have hsum : ((flat gs).map (·.2)).sum < 2 ^ 32 := by
    have := congrArg (fun l => (l.map (·.2)).sum) h1
    simp only [List.map_append, List.sum_append, sum_pieceKl, hall] at this
    simp at this
    omega
  have hkind : ∀ p ∈ all, p.1 = some CsvLexer.whitespace ∨ p.1 = some CsvLexer.newline ∨ p.1 = some CsvLexer.field ∨
      p.1 = some CsvLexer.comma := fun p hp => (hc.each p hp).2.elim (fun _ h => h.kinds)
  have hgk : ∀ g ∈ gs, CsvKind g.1.1 := by
    intro g hg
    have hmem : g.1 ∈ all.map pieceKl ++ [(CsvLexer.eof, 0)] := by
      rw [h1]
      exact List.mem_append_right _ (List.mem_flatMap.mpr ⟨g, hg, List.mem_cons_self⟩)
    have hi := (h3 g hg).1
    rcases List.mem_append.mp hmem with hm | hm
    · obtain ⟨p, hp, he⟩ := List.mem_map.mp hm
      rw [← he] at hi ⊢
      rcases hkind p hp with h | h | h | h
      · simp [pieceKl, h, ign] at hi
      · simp [pieceKl, h, CsvKind]
      · simp [pieceKl, h, CsvKind]
      · simp [pieceKl, h, CsvKind]
    · simp at hm; rw [hm]; simp [CsvKind]
  obtain ⟨cs, rest, hd⟩ := RootD.exists gs.length gs (Nat.le_refl _) hgk
  obtain ⟨s, g1, g2⟩ := PAt.new (ign := ign) hkl h2 h3.head src.length
  obtain ⟨s', g3, g4⟩ := parseRoot_at hd g2 h3 (by have := weight_le gs; omega)
  have hp : CsvParser.parse src = .ok (mkG sourceFile cs, []) := by
    unfold CsvParser.parse
    rw [hlex, run_bind_ok, g1, run_bind_ok, g3, run_bind_ok]
    simp only [g4]
    rfl
  obtain ⟨_, ⟨a, ha, hleaves⟩, hend⟩ := hd.facts
  obtain ⟨a', ha', hno⟩ := hd.noEof
  have haa : a' = a := List.append_cancel_right (ha'.symm.trans ha)
  subst haa
  -- nothing consumed is the end
  have hno' : ∀ y ∈ tri ++ flat a', y.1 ≠ CsvLexer.eof := by
    intro y hy
    rcases List.mem_append.mp hy with hy | hy
    · have := h2 y hy
      intro h; rw [h] at this; exact absurd this (by decide)
    · obtain ⟨g, hg, hy⟩ := List.mem_flatMap.mp hy
      have hg' : g ∈ gs := by rw [ha]; exact List.mem_append_left _ hg
      rcases List.mem_cons.mp hy with rfl | hy
      · exact hno g hg
      · have := (h3 g hg').2 y hy
        intro h; rw [h] at this; exact absurd this (by decide)
  have hall8 : ∀ y ∈ all.map pieceKl, y.1 ≠ CsvLexer.eof := by
    intro y hy
    obtain ⟨p, hp, rfl⟩ := List.mem_map.mp hy
    rcases hkind p hp with h | h | h | h <;> simp [pieceKl, h] <;> decide
  have hsplit : all.map pieceKl = tri ++ flat a' := by
    rcases hend with rfl | hend
    · rw [List.append_nil] at ha
      rw [ha] at h1
      have : ((CsvLexer.eof, 0) : Nat × Nat) ∈ tri ++ flat a' := by rw [← h1]; simp
      exact absurd rfl (hno' _ this)
    · cases rest with
      | nil => simp [headKind] at hend
      | cons g rest =>
        simp [headKind] at hend
        rw [ha, flat_append, ← List.append_assoc] at h1
        have h1' : all.map pieceKl ++ (CsvLexer.eof, 0) :: [] = (tri ++ flat a') ++ g.1 :: (g.2 ++ flat rest) := by
          rw [h1]; simp [flat]
        exact (split_first (p := fun y : Nat × Nat => y.1 ≠ CsvLexer.eof) h1' hall8 (by simp) hno' (by simp [hend])).1
  obtain ⟨lead, ps, rfl, hlead, hps⟩ := List.map_eq_append_iff.mp hsplit
  refine ⟨lead, ps, mkG sourceFile cs, hc, ?_, ?_, hp, ?_⟩
  · intro p hp'
    have : pieceKl p ∈ tri := by rw [← hlead]; exact List.mem_map_of_mem hp'
    have := h2 _ this
    rcases hkind p (List.mem_append_left _ hp') with h | h | h | h
    · exact h
    all_goals simp [pieceKl, h, ign] at this; exact absurd this (by decide)
  · intro p hp' hw
    have h3' := h3.head (pieceKl p) (by
      rw [ha, flat_append]
      rw [← hps]
      cases ps with
      | nil => simp at hp'
      | cons q ps => simp at hp'; simp [hp'])
    simp [pieceKl, hw, ign] at h3'
  · rw [show leavesOf (mkG sourceFile cs) = leavesOfList cs by simp [mkG, leavesOf], hleaves, flatMap_leavesG,
      leavesOfList_leafOf, ← hps, List.map_map]
    apply List.map_congr_left
    intro p hp'
    have h1 : blen p.2 ≤ blen t := by
      rw [← hall]
      obtain ⟨x, y, hxy⟩ := List.append_of_mem hp'
      rw [hxy]; simp; omega
    simp only [pieceKl, Function.comp_apply]
    rw [Nat.mod_eq_of_lt (by omega)]

/-! ### Documents -/

def wsOf (b : Str) : List (Nat × Nat) := if b = [] then [] else [(CsvLexer.whitespace, blen b)]

def cellG (c : CsvCell) : List Group := if c.field.text = [] then [] else [((CsvLexer.field, blen c.field.text), [])]

def moreG (cs : List CsvCell) : List Group := cs.flatMap fun c => ((CsvLexer.comma, 1), wsOf c.blanks) :: cellG c

def lineG (ending next : Str) : List Group := if ending = [] then [] else [((CsvLexer.newline, blen ending), wsOf next)]

def firstBlanks : List CsvRow → Str
  | [] => []
  | r :: _ => r.first.blanks

def docG : List CsvRow → List Group
  | [] => [((CsvLexer.eof, 0), [])]
  | r :: rs => cellG r.first ++ (moreG r.more ++ (lineG r.ending (firstBlanks rs) ++ docG rs))

/-! The pieces of a document. -/

def wsP (b : Str) : List (Option Nat × Str) := if b = [] then [] else [(some CsvLexer.whitespace, b)]
def fieldP (f : CsvField) : List (Option Nat × Str) := if f.text = [] then [] else [(some CsvLexer.field, f.text)]
def moreP (cs : List CsvCell) : List (Option Nat × Str) :=
  cs.flatMap fun c => (some CsvLexer.comma, [',']) :: (wsP c.blanks ++ fieldP c.field)
def lineP (e : Str) : List (Option Nat × Str) := if e = [] then [] else [(some CsvLexer.newline, e)]
def docP : List CsvRow → List (Option Nat × Str)
  | [] => []
  | r :: rs => wsP r.first.blanks ++ (fieldP r.first.field ++ (moreP r.more ++ (lineP r.ending ++ docP rs)))

theorem wsP_kl (b : Str) : (wsP b).map pieceKl = wsOf b := by
  unfold wsP wsOf; split <;> simp [pieceKl]

theorem fieldP_kl (c : CsvCell) : (fieldP c.field).map pieceKl = flat (cellG c) := by
  unfold fieldP cellG; split <;> simp [pieceKl, flat]

theorem moreP_kl (cs : List CsvCell) : (moreP cs).map pieceKl = flat (moreG cs) := by
  induction cs with
  | nil => rfl
  | cons c cs ih =>
    have : moreP (c :: cs) = (some CsvLexer.comma, [',']) :: (wsP c.blanks ++ fieldP c.field) ++ moreP cs := by simp [moreP]
    rw [this]
    have : moreG (c :: cs) = ((CsvLexer.comma, 1), wsOf c.blanks) :: cellG c ++ moreG cs := by simp [moreG]
    rw [this, flat_append, List.map_append, ih, List.append_cancel_right_eq, List.map_cons, List.map_append, wsP_kl, fieldP_kl]
    simp [flat, pieceKl, show blen [','] = 1 from rfl]

theorem docP_kl {rows : List CsvRow} (h : CsvRows rows) :
    (docP rows).map pieceKl ++ [(CsvLexer.eof, 0)] = wsOf (firstBlanks rows) ++ flat (docG rows) := by
  induction h with
  | nil => rfl
  | @last r _ he _ =>
    simp only [docP, docG, firstBlanks, List.map_append, flat_append, wsP_kl, fieldP_kl, moreP_kl, he, lineP, lineG]
    simp [flat]
  | @cons r rs _ he _ ih =>
    have hne : r.ending ≠ [] := by rcases he with h | h | h <;> simp [h]
    simp only [docP, docG, List.map_append, flat_append, wsP_kl, fieldP_kl, moreP_kl, lineP, lineG, if_neg hne,
      List.append_assoc]
    rw [ih]
    simp only [List.map_cons, List.map_nil, flat, pieceKl, List.flatMap_cons, List.flatMap_nil, Option.getD_some,
      List.cons_append, List.nil_append, List.append_nil]
    rfl

/-! The pieces are the tokens. -/

instance (c : Char) : Decidable (isCsvBlank c) := inferInstanceAs (Decidable (_ ∨ _))
instance (c : Char) : Decidable (isCsvEol c) := inferInstanceAs (Decidable (_ ∨ _))

/-- The next character is a separator or a line end, or there is none. -/
def CsvStops (r : Str) : Prop := ∀ d, r.head? = some d → d = ',' ∨ isCsvEol d

theorem quotedBody_of (s : Str) : QuotedBody '"' (s.flatMap fun c => if c = '"' then ['"', '"'] else [c]) := by
  induction s with
  | nil => exact .nil
  | cons c s ih =>
    by_cases h : c = '"'
    · subst h; exact .doubled ih
    · simp only [List.flatMap_cons, if_neg h]; exact .plain h ih

theorem cut_field {f : CsvField} (hf : f.Valid) {r : Str} (hr : CsvStops r) {ps : List (Option Nat × Str)}
    (h : Cut (CsvToken ',' '"') r ps) : Cut (CsvToken ',' '"') (f.text ++ r) (fieldP f ++ ps) := by
  unfold fieldP
  by_cases he : f.text = []
  · simpa [he] using h
  · rw [if_neg he]
    refine .cons he ?_ h
    cases f with
    | plain s =>
      cases s with
      | nil => simp [CsvField.text] at he
      | cons c s =>
        have h2 := hf.2 c rfl
        exact .unquoted h2.2 h2.1 hf.1 hr
    | quoted s =>
      refine .quoted (by decide) (by decide) (by decide) (quotedBody_of s) ?_
      intro hq
      have := hr '"' hq
      exact absurd this (by decide)

theorem cut_cell {c : CsvCell} (hc : c.Valid) {r : Str} (hr : CsvStops r) {ps : List (Option Nat × Str)}
    (h : Cut (CsvToken ',' '"') r ps) : Cut (CsvToken ',' '"') (c.text ++ r) (wsP c.blanks ++ (fieldP c.field ++ ps)) := by
  have hf := cut_field hc.2 hr h
  rw [CsvCell.text, List.append_assoc]
  unfold wsP
  split
  · rename_i hb; simpa [hb] using hf
  · rename_i hb
    refine .cons hb (.blank hc.1 ?_) hf
    intro x hx
    cases hft : c.field with
    | plain s =>
      rw [hft] at hx
      cases s with
      | nil =>
        simp [CsvField.text] at hx
        intro hbl
        rcases hbl with rfl | rfl <;> exact absurd (hr _ hx) (by decide)
      | cons y s =>
        simp [CsvField.text] at hx
        have := hc.2
        rw [hft] at this
        exact hx ▸ (this.2 y rfl).2
    | quoted s =>
      rw [hft] at hx
      simp [CsvField.text] at hx
      rw [← hx]; decide

theorem stops_more (cs : List CsvCell) {r : Str} (hr : CsvStops r) : CsvStops (cs.flatMap (fun c => ',' :: c.text) ++ r) := by
  cases cs with
  | nil => simpa using hr
  | cons c cs => intro d hd; simp at hd; exact .inl hd.symm

theorem cut_more {cs : List CsvCell} (hc : ∀ c ∈ cs, c.Valid) {r : Str} (hr : CsvStops r) {ps : List (Option Nat × Str)}
    (h : Cut (CsvToken ',' '"') r ps) :
    Cut (CsvToken ',' '"') (cs.flatMap (fun c => ',' :: c.text) ++ r) (moreP cs ++ ps) := by
  induction cs with
  | nil => simpa [moreP] using h
  | cons c cs ih =>
    have h1 := cut_cell (hc c List.mem_cons_self) (stops_more cs hr) (ih (fun x hx => hc x (List.mem_cons_of_mem _ hx)))
    have h2 : Cut (CsvToken ',' '"') ([','] ++ _) _ := .cons (k := some CsvLexer.comma) (by simp) (.separator (by decide) (by decide)) h1
    simpa [moreP] using h2

theorem cut_doc {rows : List CsvRow} (h : CsvRows rows) : Cut (CsvToken ',' '"') (csvText rows) (docP rows) := by
  induction h with
  | nil => exact .nil
  | @last r hv he _ =>
    have hs : CsvStops [] := by intro d hd; simp at hd
    have h1 := cut_more (fun c hc => hv c (List.mem_cons_of_mem _ hc)) hs (Cut.nil (P := CsvToken ',' '"'))
    have h2 := cut_cell (hv r.first List.mem_cons_self) (stops_more r.more hs) h1
    simpa [csvText, CsvRow.text, CsvRow.line, he, docP, lineP] using h2
  | @cons r rs hv he _ ih =>
    have hne : r.ending ≠ [] := by rcases he with h | h | h <;> simp [h]
    have hs : CsvStops (r.ending ++ csvText rs) := by
      intro d hd
      rcases he with h | h | ⟨h, _⟩ <;> rw [h] at hd <;> simp at hd <;> subst hd <;> decide
    have h0 : Cut (CsvToken ',' '"') (r.ending ++ csvText rs) (lineP r.ending ++ docP rs) := by
      unfold lineP
      rw [if_neg hne]
      refine .cons hne ?_ ih
      rcases he with h | h | ⟨h, h'⟩ <;> rw [h]
      · exact .lf
      · exact .crlf
      · exact .cr h'
    have h1 := cut_more (fun c hc => hv c (List.mem_cons_of_mem _ hc)) hs h0
    have h2 := cut_cell (hv r.first List.mem_cons_self) (stops_more r.more hs) h1
    simpa [csvText, CsvRow.text, CsvRow.line, docP] using h2

/-! The tree. -/

def fieldT (c : CsvCell) : Green := mkG fieldNode ((cellG c).flatMap leavesG)
def tailT (cs : List CsvCell) : List Green :=
  cs.flatMap fun c => leavesG ((CsvLexer.comma, 1), wsOf c.blanks) ++ [fieldT c]
def rowT (r : CsvRow) : Green := mkG record (fieldT r.first :: tailT r.more)
def docT : List CsvRow → List Green
  | [] => []
  | r :: rs => rowT r :: ((lineG r.ending (firstBlanks rs)).flatMap leavesG ++ docT rs)

theorem fieldD_cell (c : CsvCell) {gs : List Group} (h : headKind gs ≠ some CsvLexer.field) :
    FieldD (cellG c ++ gs) (fieldT c) gs := by
  unfold fieldT cellG
  split
  · exact .none h
  · simpa using FieldD.some (g := ((CsvLexer.field, blen c.field.text), [])) (gs := gs) rfl

theorem headKind_more (cs : List CsvCell) {gs : List Group} (h : headKind gs ≠ some CsvLexer.field) :
    headKind (moreG cs ++ gs) ≠ some CsvLexer.field := by
  cases cs with
  | nil => simpa [moreG] using h
  | cons c cs => simp [moreG, headKind]; decide

theorem tailD_more (cs : List CsvCell) {gs : List Group} (h : headKind gs ≠ some CsvLexer.field)
    (h' : headKind gs ≠ some CsvLexer.comma) : TailD (moreG cs ++ gs) (tailT cs) gs := by
  induction cs with
  | nil => exact .stop h'
  | cons c cs ih =>
    have := TailD.more (g := ((CsvLexer.comma, 1), wsOf c.blanks)) rfl (fieldD_cell c (headKind_more cs h)) ih
    simpa [moreG, tailT] using this

theorem headKind_doc {rows : List CsvRow} : headKind (docG rows) = headKind (docG rows) := rfl

theorem rootD_doc {rows : List CsvRow} (h : CsvRows rows) :
    RootD (docG rows) (docT rows) [((CsvLexer.eof, 0), [])] := by
  induction h with
  | nil => exact .stop (.inr rfl)
  | @last r hv he hne =>
    have hl : lineG r.ending (firstBlanks []) = [] := by simp [lineG, he]
    have hd : docG [r] = cellG r.first ++ (moreG r.more ++ [((CsvLexer.eof, 0), [])]) := by simp [docG, hl]
    have ht : docT [r] = rowT r :: ([] ++ []) := by simp [docT, hl]
    rw [hd, ht]
    have h1 : headKind [(((CsvLexer.eof, 0), []) : Group)] ≠ some CsvLexer.field := by simp [headKind]; decide
    have h2 : headKind [(((CsvLexer.eof, 0), []) : Group)] ≠ some CsvLexer.comma := by simp [headKind]; decide
    have h3 : headKind [(((CsvLexer.eof, 0), []) : Group)] ≠ some CsvLexer.newline := by simp [headKind]; decide
    refine .row ?_ ?_ (fieldD_cell _ (headKind_more _ h1)) (tailD_more _ h1 h2) (.none h3) ?_ (.stop (.inr rfl))
    · simp
    · by_cases hf : r.first.field.text = []
      · have hm : r.more ≠ [] := fun h => hne ⟨h, hf⟩
        obtain ⟨c, cs, hcs⟩ := List.exists_cons_of_ne_nil hm
        simp [cellG, hf, hcs, moreG, headKind]; decide
      · simp [cellG, hf, headKind]; decide
    · by_cases hf : r.first.field.text = []
      · have hm : r.more ≠ [] := fun h => hne ⟨h, hf⟩
        obtain ⟨c, cs, hcs⟩ := List.exists_cons_of_ne_nil hm
        simp [hcs, moreG]; omega
      · simp [cellG, hf]
  | @cons r rs hv he hrs ih =>
    have hne : r.ending ≠ [] := by rcases he with h | h | h <;> simp [h]
    have hl : lineG r.ending (firstBlanks rs) = [((CsvLexer.newline, blen r.ending), wsOf (firstBlanks rs))] := by
      simp [lineG, hne]
    have hh : ∀ k, k ≠ CsvLexer.newline → headKind (lineG r.ending (firstBlanks rs) ++ docG rs) ≠ some k := by
      intro k hk; rw [hl]; simp [headKind]; exact fun h => hk h.symm
    have hln : LineD (lineG r.ending (firstBlanks rs) ++ docG rs) ((lineG r.ending (firstBlanks rs)).flatMap leavesG) (docG rs) := by
      rw [hl]
      simpa using LineD.some (g := ((CsvLexer.newline, blen r.ending), wsOf (firstBlanks rs))) (gs := docG rs) rfl
    have hdoc : docG (r :: rs) = cellG r.first ++ (moreG r.more ++ (lineG r.ending (firstBlanks rs) ++ docG rs)) := rfl
    refine .row (gs := docG (r :: rs)) ?_ ?_ (fieldD_cell _ (headKind_more _ (hh _ (by decide))))
      (tailD_more _ (hh _ (by decide)) (hh _ (by decide))) hln ?_ ih
    · rw [hdoc, hl]; simp
    · rw [hdoc]
      by_cases hf : r.first.field.text = []
      · simp only [cellG, hf, if_true, List.nil_append]
        cases hm : r.more with
        | nil => simpa [moreG] using hh CsvLexer.eof (by decide)
        | cons c cs => simp [moreG, headKind]; decide
      · simp [cellG, hf, headKind]; decide
    · rw [hdoc, hl]; simp; omega

theorem grouped_doc (rows : List CsvRow) : Grouped ign (docG rows) := by
  have hw : ∀ b, ∀ t ∈ wsOf b, ign t.1 = true := by
    intro b t ht
    unfold wsOf at ht
    split at ht
    · simp at ht
    · simp at ht; rw [ht]; rfl
  have hc : ∀ c, Grouped ign (cellG c) := by
    intro c g hg
    unfold cellG at hg
    split at hg
    · simp at hg
    · simp at hg; rw [hg]; exact ⟨rfl, by simp⟩
  induction rows with
  | nil => intro g hg; simp [docG] at hg; rw [hg]; exact ⟨rfl, by simp⟩
  | cons r rs ih =>
    intro g hg
    simp only [docG, List.mem_append] at hg
    rcases hg with hg | hg | hg | hg
    · exact hc _ g hg
    · obtain ⟨c, _, hg⟩ := List.mem_flatMap.mp hg
      rcases List.mem_cons.mp hg with rfl | hg
      · exact ⟨rfl, hw _⟩
      · exact hc _ g hg
    · unfold lineG at hg
      split at hg
      · simp at hg
      · simp at hg; rw [hg]; exact ⟨rfl, hw _⟩
    · exact ih g hg

/-- What a document is parsed to. -/
theorem csvParse_doc {src : Source} {rows : List CsvRow} (hs : Supplied src (csvText rows)) (h : CsvRows rows)
    (hl : blen (csvText rows) < 2 ^ 32) : CsvParser.parse src = .ok (mkG sourceFile (docT rows), []) := by
  obtain ⟨all, hc, hsome, hlex⟩ := csvLex_spec hs CsvLexer.default
  obtain rfl := hc.unique (fun hm hm' h h' he => csvToken_unique hm hm' h h' he) (cut_doc h)
  have hkl : (tokensOf 0 (docP rows) ++ [(⟨CsvLexer.eof, blen (csvText rows), blen (csvText rows)⟩ : Tok)]).map Tok.kl =
      wsOf (firstBlanks rows) ++ flat (docG rows) := by
    rw [List.map_append, kl_pieces hsome, ← docP_kl h]
    simp [Tok.kl, Tok.length]
  have hg := grouped_doc rows
  have hsum : ((flat (docG rows)).map (·.2)).sum < 2 ^ 32 := by
    have := congrArg (fun l => (l.map (·.2)).sum) (docP_kl h)
    simp only [List.map_append, List.sum_append, sum_pieceKl, hc.text] at this
    simp at this
    omega
  obtain ⟨s, g1, g2⟩ := PAt.new (ign := ign) hkl (by
    intro t ht
    unfold wsOf at ht
    split at ht
    · simp at ht
    · simp at ht; rw [ht]; rfl) hg.head src.length
  obtain ⟨s', g3, g4⟩ := parseRoot_at (rootD_doc h) g2 hg (by have := weight_le (docG rows); omega)
  unfold CsvParser.parse
  rw [hlex, run_bind_ok, g1, run_bind_ok, g3, run_bind_ok]
  simp only [g4]
  rfl

/-! The rows the tree shows. -/

theorem bytesAt_mid {t l m r : Str} (h : t = l ++ (m ++ r)) {o n : Nat} (ho : o = blen l) (hn : n = blen m) :
    bytesAt t o n = bytes m := by
  subst h ho hn
  simp [bytesAt, bytes_append, ← length_bytes]

theorem nodesAt_append (k o : Nat) (a b : List Green) :
    nodesAt k o (a ++ b) = nodesAt k o a ++ nodesAt k (o + bytesBelowList a) b := by
  induction a generalizing o with
  | nil => simp [nodesAt]
  | cons g a ih => cases g <;> simp only [List.cons_append, nodesAt, ih, bytesBelowList_cons, List.append_assoc, Nat.add_assoc]

theorem nodesAt_leaves (k o : Nat) (ts : List (Nat × Nat)) : nodesAt k o (ts.map leafOf) = [] := by
  induction ts generalizing o with
  | nil => rfl
  | cons t ts ih => simp only [List.map_cons, leafOf, nodesAt]; exact ih _

theorem below_leaves {ts : List (Nat × Nat)} (h : (ts.map (·.2)).sum < 2 ^ 32) :
    bytesBelowList (ts.map leafOf) = (ts.map (·.2)).sum := by
  induction ts with
  | nil => rfl
  | cons t ts ih =>
    simp only [List.map_cons, List.sum_cons] at h ⊢
    rw [bytesBelowList_cons, ih (by omega), leafOf, bytesBelow_leaf, Nat.mod_eq_of_lt (by omega)]

theorem sum_wsOf (b : Str) : ((wsOf b).map (·.2)).sum = blen b := by
  unfold wsOf; split <;> simp [*]

theorem below_field {c : CsvCell} (h : blen c.field.text < 2 ^ 32) : bytesBelow (fieldT c) = blen c.field.text := by
  unfold fieldT mkG cellG
  split
  · rename_i h'; simp [h']
  · simp [leavesG, leafOf, Nat.mod_eq_of_lt h]

theorem nodesAt_tail {t : Str} (cs : List CsvCell) (l r : Str) (he : t = l ++ (cs.flatMap (fun c => ',' :: c.text) ++ r))
    (hl : blen t < 2 ^ 32) :
    ((nodesAt fieldNode (blen l) (tailT cs)).map fun (f, o') => bytesAt t o' (bytesBelow f)) =
      cs.map (fun c => bytes c.field.text) ∧ bytesBelowList (tailT cs) = blen (cs.flatMap (fun c => ',' :: c.text)) := by
  induction cs generalizing l with
  | nil => simp [tailT, nodesAt]
  | cons c cs ih =>
    have ht : tailT (c :: cs) = ((CsvLexer.comma, 1) :: wsOf c.blanks).map leafOf ++ (fieldT c :: tailT cs) := by
      simp [tailT, leavesG]
    have hlen := congrArg blen he
    simp only [List.flatMap_cons, blen_append, blen_cons, CsvCell.text, show Char.utf8Size ',' = 1 from rfl] at hlen
    have hb : bytesBelowList (((CsvLexer.comma, 1) :: wsOf c.blanks).map leafOf) = 1 + blen c.blanks := by
      rw [below_leaves] <;> simp [sum_wsOf] <;> omega
    have hf := below_field (c := c) (by omega)
    have he' : t = (l ++ ',' :: c.text) ++ (cs.flatMap (fun c => ',' :: c.text) ++ r) := by rw [he]; simp
    obtain ⟨i1, i2⟩ := ih (l ++ ',' :: c.text) he'
    rw [ht, nodesAt_append, nodesAt_leaves, List.nil_append, hb, bytesBelowList_append, bytesBelowList_cons, hb, hf, i2]
    have hn : nodesAt fieldNode (blen l + (1 + blen c.blanks)) (fieldT c :: tailT cs) =
        (fieldT c, blen l + (1 + blen c.blanks)) :: nodesAt fieldNode (blen (l ++ ',' :: c.text)) (tailT cs) := by
      have : nodesAt fieldNode (blen l + (1 + blen c.blanks)) (fieldT c :: tailT cs) =
        (fieldT c, blen l + (1 + blen c.blanks)) ::
          nodesAt fieldNode (blen l + (1 + blen c.blanks) + bytesBelow (fieldT c)) (tailT cs) := by
        simp [fieldT, mkG, nodesAt]
      rw [this, hf]
      simp [CsvCell.text, show Char.utf8Size ',' = 1 from rfl, Nat.add_assoc]
    rw [hn, List.map_cons, List.map_cons, i1]
    refine ⟨?_, by simp [CsvCell.text, show Char.utf8Size ',' = 1 from rfl]; omega⟩
    congr 1
    refine bytesAt_mid (l := l ++ ',' :: c.blanks) (r := cs.flatMap (fun c => ',' :: c.text) ++ r) ?_ ?_ hf
    · rw [he]; simp [CsvCell.text]
    · simp [show Char.utf8Size ',' = 1 from rfl]

theorem nodesAt_rows {t : Str} (rows : List CsvRow) (hr : CsvRows rows) (l : Str) (he : t = l ++ csvText rows) (hl : blen t < 2 ^ 32) :
    ((nodesAt record (blen l + blen (firstBlanks rows)) (docT rows)).map fun (r, o) =>
      (nodesAt fieldNode o (childrenOf r)).map fun (f, o') => bytesAt t o' (bytesBelow f)) =
      rows.map (fun r => r.cells.map (fun c => bytes c.field.text)) := by
  induction rows generalizing l with
  | nil => simp [docT, nodesAt]
  | cons r rs ih =>
    have hlen := congrArg blen he
    simp only [csvText, List.flatMap_cons, CsvRow.text, CsvRow.line, blen_append, CsvCell.text] at hlen
    have hf := below_field (c := r.first) (by omega)
    have he1 : t = (l ++ r.first.text) ++ (r.more.flatMap (fun c => ',' :: c.text) ++ (r.ending ++ csvText rs)) := by
      rw [he]; simp [csvText, CsvRow.text, CsvRow.line]
    obtain ⟨i1, i2⟩ := nodesAt_tail r.more _ _ he1 hl
    have hrow : bytesBelow (rowT r) = blen r.first.field.text + blen (r.more.flatMap (fun c => ',' :: c.text)) := by
      simp [rowT, mkG, hf, i2]
    have hrs : CsvRows rs := by cases hr with | last => exact .nil | cons _ _ h => exact h
    have hfb : blen (firstBlanks rs) ≤ blen (csvText rs) := by
      cases rs with
      | nil => simp [firstBlanks]
      | cons x xs => simp [firstBlanks, csvText, CsvRow.text, CsvRow.line, CsvCell.text]
    have hlb : nodesAt record (blen l + blen r.first.blanks + bytesBelow (rowT r))
        ((lineG r.ending (firstBlanks rs)).flatMap leavesG ++ docT rs) =
        nodesAt record (blen (l ++ r.text) + blen (firstBlanks rs)) (docT rs) := by
      rw [flatMap_leavesG, nodesAt_append, nodesAt_leaves, List.nil_append, hrow]
      cases hr with
      | last _ he _ => simp [docT, nodesAt]
      | cons _ hne _ =>
        have hne : r.ending ≠ [] := by rcases hne with h | h | h <;> simp [h]
        have : flat (lineG r.ending (firstBlanks rs)) = (CsvLexer.newline, blen r.ending) :: wsOf (firstBlanks rs) := by
          simp [lineG, hne, flat]
        simp only [csvText] at hfb
        rw [this, below_leaves (by simp [sum_wsOf]; omega)]
        simp only [List.map_cons, List.sum_cons, sum_wsOf, CsvRow.text, CsvRow.line, CsvCell.text, blen_append]
        congr 1
        omega
    have hn : nodesAt record (blen l + blen (firstBlanks (r :: rs))) (docT (r :: rs)) =
        (rowT r, blen l + blen r.first.blanks) :: nodesAt record (blen (l ++ r.text) + blen (firstBlanks rs)) (docT rs) := by
      rw [← hlb]
      simp [docT, rowT, mkG, nodesAt, firstBlanks]
    rw [hn, List.map_cons, List.map_cons, ih hrs (l ++ r.text) (by rw [he]; simp [csvText])]
    congr 1
    have hc : nodesAt fieldNode (blen l + blen r.first.blanks) (childrenOf (rowT r)) =
        (fieldT r.first, blen l + blen r.first.blanks) :: nodesAt fieldNode (blen (l ++ r.first.text)) (tailT r.more) := by
      have : nodesAt fieldNode (blen l + blen r.first.blanks) (childrenOf (rowT r)) = (fieldT r.first, blen l + blen r.first.blanks) ::
          nodesAt fieldNode (blen l + blen r.first.blanks + bytesBelow (fieldT r.first)) (tailT r.more) := by
        simp [rowT, mkG, childrenOf, fieldT, nodesAt]
      rw [this, hf]
      simp [CsvCell.text, Nat.add_assoc]
    simp only []
    rw [hc, List.map_cons, i1, CsvRow.cells, List.map_cons]
    congr 1
    refine bytesAt_mid (l := l ++ r.first.blanks) (m := r.first.field.text)
      (r := r.more.flatMap (fun c => ',' :: c.text) ++ (r.ending ++ csvText rs)) ?_ (by simp) hf
    rw [he1]; simp [CsvCell.text]

end Oaks
