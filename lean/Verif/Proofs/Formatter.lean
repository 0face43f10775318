import Verif.Spec.Formatter
import Verif.Proofs.Tree
import Verif.Proofs.Rules
import Verif.Proofs.Printer
import Verif.Proofs.TextIn

/-! Formatting a tree. -/

namespace Oaks
open Spec

theorem Spec.LeavesWrite.nil : LeavesWrite [] [] := ⟨[], rfl, rfl⟩

theorem Spec.LeavesWrite.split {a b : List (Nat × Nat)} {t : Str} (h : LeavesWrite (a ++ b) t) :
    ∃ t1 t2, t = t1 ++ t2 ∧ LeavesWrite a t1 ∧ LeavesWrite b t2 := by
  obtain ⟨ps, h1, h2⟩ := h
  rw [List.map_append] at h2
  obtain ⟨p1, p2, rfl, e1, e2⟩ := List.map_eq_append_iff.1 h2
  exact ⟨p1.flatten, p2.flatten, by rw [← h1]; simp, ⟨p1, rfl, e1⟩, ⟨p2, rfl, e2⟩⟩

theorem Spec.LeavesWrite.blen {a : List (Nat × Nat)} {t : Str} (h : LeavesWrite a t) : blen t = (a.map (·.2)).sum := by
  obtain ⟨ps, h1, h2⟩ := h
  rw [← h2, ← h1]
  clear h1 h2
  induction ps with
  | nil => rfl
  | cons p ps ih => simp [ih]

/-- The closure over the children of a node, with the children placed. -/
theorem formatChildren_row {E : Type} (node : RedNode → Except (FmtStop E) Doc)
    (token : Nat × Nat × Nat → Except (FmtStop E) Doc) (n : RedNode) :
    formatChildren node token n =
      (((placeRow n.offset n.children).map fun x => Red.ofGreen x.1 x.2).mapM (formatChild node token) >>=
        fun docs => .ok (.concat docs)) := by
  unfold formatChildren
  rw [childIter_ok]
  rfl

theorem docText_concat_cons (d : Doc) (ds : List Doc) : docText (.concat (d :: ds)) = docText d ++ docText (.concat ds) := by
  rw [docText]

theorem docText_concat_nil : docText (.concat []) = [] := by rw [docText]

theorem row_content {E : Type} (src : Str) (node : RedNode → Except (FmtStop E) Doc)
    (token : Nat × Nat × Nat → Except (FmtStop E) Doc)
    (hn : ∀ m u e, StandsOn src m u → node m = .ok e → solid (docText e) = solid u)
    (ht : ∀ k a b u e, strGet src a b = some u → token (k, a, b) = .ok e → solid (docText e) = solid u)
    (cs : List Green) (hb : ∀ c ∈ cs, Built c) (pre t post : Str) (hs : src = pre ++ t ++ post)
    (hw : LeavesWrite (leavesOfList cs) t) (ds : List Doc)
    (h : ((placeRow (blen pre) cs).map fun x => Red.ofGreen x.1 x.2).mapM (formatChild node token) = .ok ds) :
    solid (docText (.concat ds)) = solid t := by
  induction cs generalizing pre t ds with
  | nil =>
    have : t = [] := by
      obtain ⟨ps, h1, h2⟩ := hw
      simp [leavesOfList] at h2
      subst h2; exact h1.symm
    subst this
    have : ds = [] := by simpa [placeRow, pure, Except.pure] using h.symm
    subst this
    rw [docText_concat_nil]
  | cons c cs ih =>
    simp only [leavesOfList] at hw
    obtain ⟨t1, t2, rfl, w1, w2⟩ := hw.split
    have hl : blen t1 = c.len := by rw [w1.blen, (hb c (List.mem_cons_self ..)).len_eq.1]; rfl
    simp only [placeRow, List.map_cons, List.mapM_cons] at h
    cases h1 : formatChild node token (Red.ofGreen c (blen pre)) with
    | error e => rw [h1] at h; exact absurd h (by intro h; cases h)
    | ok d =>
      rw [h1] at h
      cases h2 : ((placeRow (blen pre + c.len) cs).map fun x => Red.ofGreen x.1 x.2).mapM (formatChild node token) with
      | error e =>
        simp only [bind, Except.bind, h2] at h
        cases h
      | ok ds' =>
        simp only [bind, Except.bind, h2, pure, Except.pure] at h
        cases h
        rw [docText_concat_cons, solid_append, solid_append]
        have e2 : solid (docText (.concat ds')) = solid t2 := by
          refine ih (fun c hc => hb c (List.mem_cons_of_mem _ hc)) (pre ++ t1) t2 ?_ w2 ds' ?_
          · rw [hs]; simp
          · rw [blen_append, hl]; exact h2
        rw [e2]
        congr 1
        cases c with
        | leaf k n m =>
          refine ht k _ _ t1 d ?_ h1
          exact strGet_ok' (l := pre) (r := t2 ++ post) (by rw [hs]; simp) rfl (by rw [hl]; rfl)
        | node k n ks =>
          refine hn ⟨k, n, ks, blen pre⟩ t1 d ⟨hb _ (List.mem_cons_self ..), w1, pre, t2 ++ post, by rw [hs]; simp, rfl⟩ h1

theorem applyRules_some {R D E : Type} {applies : R → Bool} {apply : R → Except E (Option D)} {rules : List R} {d : D}
    (h : applyRules applies apply rules = .ok (some d)) : ∃ r ∈ rules, applies r = true ∧ apply r = .ok (some d) := by
  unfold applyRules applicableRules at h
  induction rules with
  | nil => cases h
  | cons r rs ih =>
    rw [List.filter_cons] at h
    by_cases ha : applies r = true
    · rw [if_pos ha, applyLoop] at h
      cases hr : apply r with
      | error e => rw [hr] at h; cases h
      | ok o =>
        rw [hr] at h
        cases o with
        | none =>
          obtain ⟨q, h1, h2⟩ := ih h
          exact ⟨q, List.mem_cons_of_mem _ h1, h2⟩
        | some x => cases h; exact ⟨r, List.mem_cons_self .., ha, hr⟩
    · rw [if_neg ha] at h
      obtain ⟨q, h1, h2⟩ := ih h
      exact ⟨q, List.mem_cons_of_mem _ h1, h2⟩

theorem formatToken_content {E : Type} {rules : List (FmtRule E)} {src : Str} (hk : ∀ r ∈ rules, Keeps src r)
    (ctx : FmtCtx) (k a b : Nat) (u : Str) (e : Doc) (hu : strGet src a b = some u)
    (h : formatToken rules src (k, a, b) ctx = .ok e) : solid (docText e) = solid u := by
  unfold formatToken at h
  split at h
  · cases h
  · next d hd =>
    cases h
    obtain ⟨r, hr, h1, h2⟩ := applyRules_some hd
    exact (hk r hr).token k a b ctx u e h1 hu h2
  · simp only [sliceOf, hu, liftRun] at h
    cases h
    rw [docText]

theorem formatNode_content {E : Type} {rules : List (FmtRule E)} {src : Str} (hk : ∀ r ∈ rules, Keeps src r)
    (fuel : Nat) : ∀ (n : RedNode) (ctx : FmtCtx) (t : Str) (d : Doc), StandsOn src n t →
    formatNode rules src fuel n ctx = .ok d → solid (docText d) = solid t := by
  induction fuel with
  | zero => intro n ctx t d _ h; cases h
  | succ fuel ih =>
    intro n ctx t d hs h
    have hc : ∀ m u e, StandsOn src m u →
        formatChildren (fun c => formatNode rules src fuel c (ctx.enter n.kind))
          (fun t => formatToken rules src t (ctx.enter n.kind)) m = .ok e → solid (docText e) = solid u := by
      intro m u e ⟨hb, hw, pre, post, hsrc, hp⟩ he
      rw [formatChildren_row] at he
      cases hm : ((placeRow m.offset m.children).map fun x => Red.ofGreen x.1 x.2).mapM
          (formatChild (fun c => formatNode rules src fuel c (ctx.enter n.kind))
            (fun t => formatToken rules src t (ctx.enter n.kind))) with
      | error x => rw [hm] at he; cases he
      | ok ds =>
        rw [hm] at he
        cases he
        rw [← hp] at hm
        exact row_content src _ _ (fun m u e hm he => ih m _ u e hm he)
          (fun k a b u e hu he => formatToken_content hk _ k a b u e hu he) m.children hb.inv.1 pre u post hsrc hw ds hm
    simp only [formatNode] at h
    split at h
    · cases h
    · next d' hd =>
      cases h
      obtain ⟨r, hr, h1, h2⟩ := applyRules_some hd
      exact (hk r hr).node n _ _ t d h1 hs hc h2
    · exact hc n t d hs h

/-- A row of documents for a row of elements. -/
def rowDocs (D : Nat → Green → List Str → Doc) : Nat → List Green → List Str → List Doc
  | _, [], _ => []
  | o, c :: cs, ps => D o c (ps.take (leavesOf c).length) :: rowDocs D (o + bytesBelow c) cs (ps.drop (leavesOf c).length)

/-- The pieces `ps` are the texts of the leaves below `g`, which begins after `pre` in the source. -/
def Pieces (src : Str) (pre : Str) (ls : List (Nat × Nat)) (ps : List Str) : Prop :=
  ps.map blen = ls.map (·.2) ∧ ∃ post, src = pre ++ ps.flatten ++ post

theorem Pieces.split {src pre : Str} {a b : List (Nat × Nat)} {ps : List Str} (h : Pieces src pre (a ++ b) ps) :
    Pieces src pre a (ps.take a.length) ∧ Pieces src (pre ++ (ps.take a.length).flatten) b (ps.drop a.length) ∧
      blen (ps.take a.length).flatten = (a.map (·.2)).sum := by
  obtain ⟨h1, post, h2⟩ := h
  have e1 : (ps.take a.length).map blen = a.map (·.2) := by
    rw [List.map_take, h1, List.map_append, List.take_left' (by simp)]
  have e2 : (ps.drop a.length).map blen = b.map (·.2) := by
    rw [List.map_drop, h1, List.map_append, List.drop_left' (by simp)]
  have e3 : ps.flatten = (ps.take a.length).flatten ++ (ps.drop a.length).flatten := by
    rw [← List.flatten_append, List.take_append_drop]
  refine ⟨⟨e1, (ps.drop a.length).flatten ++ post, ?_⟩, ⟨e2, post, ?_⟩, (Spec.LeavesWrite.blen ⟨_, rfl, e1⟩)⟩
  · rw [h2, e3]; simp
  · rw [h2, e3]; simp

theorem row_exact {E : Type} {src : Str} {node : RedNode → Except (FmtStop E) Doc}
    {token : Nat × Nat × Nat → Except (FmtStop E) Doc} (D : Nat → Green → List Str → Doc) (cs : List Green)
    (hb : ∀ c ∈ cs, Built c)
    (h : ∀ c ∈ cs, ∀ pre ps, Pieces src pre (leavesOf c) ps →
      formatChild node token (Red.ofGreen c (blen pre)) = .ok (D (blen pre) c ps))
    (pre : Str) (ps : List Str) (hp : Pieces src pre (leavesOfList cs) ps) :
    ((placeRow (blen pre) cs).map fun x => Red.ofGreen x.1 x.2).mapM (formatChild node token) =
      .ok (rowDocs D (blen pre) cs ps) := by
  induction cs generalizing pre ps with
  | nil => rfl
  | cons c cs ih =>
    simp only [leavesOfList] at hp
    obtain ⟨p1, p2, p3⟩ := hp.split
    have hl : c.len = bytesBelow c := (hb c (List.mem_cons_self ..)).len_eq.1
    simp only [placeRow, List.map_cons, List.mapM_cons, rowDocs]
    rw [h c (List.mem_cons_self ..) pre _ p1]
    have := ih (fun c hc => hb c (List.mem_cons_of_mem _ hc)) (fun c hc => h c (List.mem_cons_of_mem _ hc)) _ _ p2
    rw [blen_append, p3] at this
    rw [hl]
    simp only [bind, Except.bind]
    have h2 : ((placeRow (blen pre + bytesBelow c) cs).map fun x => Red.ofGreen x.1 x.2).mapM (formatChild node token) =
      .ok (rowDocs D (blen pre + bytesBelow c) cs (ps.drop (leavesOf c).length)) := this
    rw [h2]
    rfl

theorem children_exact {E : Type} {src : Str} {node : RedNode → Except (FmtStop E) Doc}
    {token : Nat × Nat × Nat → Except (FmtStop E) Doc} (D : Nat → Green → List Str → Doc) (k n : Nat) (cs : List Green)
    (hb : ∀ c ∈ cs, Built c)
    (h : ∀ c ∈ cs, ∀ pre ps, Pieces src pre (leavesOf c) ps →
      formatChild node token (Red.ofGreen c (blen pre)) = .ok (D (blen pre) c ps))
    (pre : Str) (ps : List Str) (hp : Pieces src pre (leavesOfList cs) ps) :
    formatChildren node token ⟨k, n, cs, blen pre⟩ = .ok (.concat (rowDocs D (blen pre) cs ps)) := by
  rw [formatChildren_row]
  show (List.mapM _ ((placeRow (blen pre) cs).map fun x => Red.ofGreen x.1 x.2) >>= _) = _
  rw [row_exact D cs hb h pre ps hp]
  rfl

theorem formatterRules_nil {E : Type} (R : FmtRoles) (conf : FmtRule E → FmtRule E → Bool) :
    formatterRules R conf [] = [indentRule R, commaRule R, statementRule R] := rfl

theorem standardDocs_row (R : FmtRoles) (cs : List Green) (o : Nat) (ps : List Str) :
    standardDocs R cs ps = rowDocs (fun _ => standardDoc R) o cs ps := by
  induction cs generalizing o ps with
  | nil => rw [standardDocs, rowDocs]
  | cons c cs ih => rw [standardDocs, rowDocs, ih (o + bytesBelow c)]

theorem replacedRow_row (f : RedNode → FmtCtx → Option Doc) (g : Nat × Nat × Nat → FmtCtx → Option Doc) (anc : List Nat)
    (cs : List Green) (o : Nat) (ps : List Str) :
    replacedRow f g anc o cs ps = rowDocs (replaced f g anc) o cs ps := by
  induction cs generalizing o ps with
  | nil => rw [replacedRow, rowDocs]
  | cons c cs ih => rw [replacedRow, rowDocs, ih (o + bytesBelow c)]

theorem leaf_piece {src pre : Str} {k n : Nat} {m : Option Nat} {ps : List Str}
    (h : Pieces src pre (leavesOf (.leaf k n m)) ps) :
    ∃ p, ps = [p] ∧ strGet src (blen pre) (blen pre + n) = some p := by
  obtain ⟨h1, post, h2⟩ := h
  simp only [leavesOf, List.map_cons, List.map_nil] at h1
  obtain ⟨p, q, rfl, rfl, hq⟩ := List.map_eq_cons_iff.1 h1
  rw [List.map_eq_nil_iff] at hq
  subst hq
  exact ⟨p, rfl, strGet_ok' (l := pre) (r := post) (by simpa using h2) rfl rfl⟩

theorem standard_exact {E : Type} (R : FmtRoles) (src : Str) {g : Green} (hg : Built g) :
    ∀ (pre : Str) (ps : List Str) (fuel : Nat) (ctx : FmtCtx), Pieces src pre (leavesOf g) ps → sizeOf' g ≤ fuel →
      formatChild (fun c => formatNode (E := E) [indentRule R, commaRule R, statementRule R] src fuel c ctx)
        (fun t => formatToken [indentRule R, commaRule R, statementRule R] src t ctx) (Red.ofGreen g (blen pre)) =
        .ok (standardDoc R g ps) := by
  refine Built.rec' (P := fun g => ∀ (pre : Str) (ps : List Str) (fuel : Nat) (ctx : FmtCtx),
    Pieces src pre (leavesOf g) ps → sizeOf' g ≤ fuel →
      formatChild (fun c => formatNode (E := E) [indentRule R, commaRule R, statementRule R] src fuel c ctx)
        (fun t => formatToken [indentRule R, commaRule R, statementRule R] src t ctx) (Red.ofGreen g (blen pre)) =
        .ok (standardDoc R g ps)) ?_ ?_ hg
  · intro k n m _ pre ps fuel ctx hp _
    obtain ⟨p, rfl, hs⟩ := leaf_piece hp
    simp only [Red.ofGreen, formatChild, formatToken, applyRules, applicableRules, List.filter_cons, List.filter_nil,
      indentRule, commaRule, statementRule, standardDoc, Bool.false_eq_true, if_false]
    by_cases hpk : R.punctuation k = true
    · rw [if_pos hpk]
      simp only [applyLoop, sliceOf, hs, liftRun, bind, Except.bind, pure, Except.pure]
      by_cases hc : p = [',']
      · subst hc
        simp [hpk]
      · simp [hc]
    · rw [if_neg hpk]
      simp [applyLoop, sliceOf, hs, liftRun, hpk]
  · intro k cs hb ih hlt pre ps fuel ctx hp hf
    simp only [sizeOf'] at hf
    obtain ⟨fuel, rfl⟩ : ∃ f, fuel = f + 1 := ⟨fuel - 1, by omega⟩
    have hch : formatChildren (fun c => formatNode (E := E) [indentRule R, commaRule R, statementRule R] src fuel c (ctx.enter k))
        (fun t => formatToken [indentRule R, commaRule R, statementRule R] src t (ctx.enter k)) ⟨k, lenSum cs, cs, blen pre⟩ =
        .ok (.concat (standardDocs R cs ps)) := by
      rw [standardDocs_row R cs (blen pre)]
      refine children_exact (fun _ => standardDoc R) k _ cs hb ?_ pre ps hp
      intro c hc pre' ps' hp'
      exact ih c hc pre' ps' fuel _ hp' (by have := sizeOf'_le_list hc; omega)
    simp only [Red.ofGreen, formatChild, formatNode, standardDoc]
    generalize formatChildren _ _ = ch at hch ⊢
    simp only [applyRules, applicableRules, List.filter_cons, List.filter_nil, indentRule, commaRule, statementRule,
      Bool.false_eq_true, if_false]
    by_cases h1 : R.container k = true
    · simp only [h1, if_true, applyLoop, hch]
      rfl
    · by_cases h2 : R.statement k = true
      · simp only [h1, h2, if_true, Bool.false_eq_true, if_false, applyLoop, hch]
        rfl
      · simp only [h1, h2, Bool.false_eq_true, if_false, applyLoop, hch]

/-- The rule that answers with the functions `f` and `g`, without looking at children. -/
def replacing {E : Type} (f : RedNode → FmtCtx → Option Doc) (g : Nat × Nat × Nat → FmtCtx → Option Doc) : FmtRule E where
  priority := 0
  appliesNode _ := true
  appliesToken _ := true
  applyNode n ctx _ _ := .ok (f n ctx)
  applyToken t ctx _ := .ok (g t ctx)

theorem replaced_exact {E : Type} (f : RedNode → FmtCtx → Option Doc) (g : Nat × Nat × Nat → FmtCtx → Option Doc)
    (src : Str) {e : Green} (he : Built e) :
    ∀ (pre : Str) (ps : List Str) (fuel : Nat) (anc : List Nat), Pieces src pre (leavesOf e) ps → sizeOf' e ≤ fuel →
      formatChild (fun c => formatNode (E := E) [replacing f g] src fuel c ⟨anc.length, anc⟩)
        (fun t => formatToken [replacing f g] src t ⟨anc.length, anc⟩) (Red.ofGreen e (blen pre)) =
        .ok (replaced f g anc (blen pre) e ps) := by
  refine Built.rec' (P := fun e => ∀ (pre : Str) (ps : List Str) (fuel : Nat) (anc : List Nat),
    Pieces src pre (leavesOf e) ps → sizeOf' e ≤ fuel →
      formatChild (fun c => formatNode (E := E) [replacing f g] src fuel c ⟨anc.length, anc⟩)
        (fun t => formatToken [replacing f g] src t ⟨anc.length, anc⟩) (Red.ofGreen e (blen pre)) =
        .ok (replaced f g anc (blen pre) e ps)) ?_ ?_ he
  · intro k n m _ pre ps fuel anc hp _
    obtain ⟨p, rfl, hs⟩ := leaf_piece hp
    simp only [Red.ofGreen, formatChild, formatToken, applyRules, applicableRules, List.filter_cons, List.filter_nil,
      replacing, if_true, applyLoop, replaced]
    cases g (k, blen pre, blen pre + n) ⟨anc.length, anc⟩ with
    | none => simp [sliceOf, hs, liftRun]
    | some d => rfl
  · intro k cs hb ih hlt pre ps fuel anc hp hf
    simp only [sizeOf'] at hf
    obtain ⟨fuel, rfl⟩ : ∃ f, fuel = f + 1 := ⟨fuel - 1, by omega⟩
    have hch : formatChildren (fun c => formatNode (E := E) [replacing f g] src fuel c ⟨anc.length + 1, k :: anc⟩)
        (fun t => formatToken [replacing f g] src t ⟨anc.length + 1, k :: anc⟩) ⟨k, lenSum cs, cs, blen pre⟩ =
        .ok (.concat (replacedRow f g (k :: anc) (blen pre) cs ps)) := by
      rw [replacedRow_row]
      refine children_exact (replaced f g (k :: anc)) k _ cs hb ?_ pre ps hp
      intro c hc pre' ps' hp'
      exact ih c hc pre' ps' fuel (k :: anc) hp' (by have := sizeOf'_le_list hc; omega)
    simp only [replacing] at hch
    simp only [Red.ofGreen, formatChild, formatNode, replaced, applyRules, applicableRules, List.filter_cons,
      List.filter_nil, replacing, if_true, applyLoop, FmtCtx.enter]
    cases f ⟨k, lenSum cs, cs, blen pre⟩ ⟨anc.length + 1, k :: anc⟩ with
    | none => exact hch
    | some d => rfl

theorem finalize_closed (cfg : FormatConfig) (t : Str) : EndClosed cfg t (finalize cfg t) := by
  refine ⟨if cfg.trimTrailing then trimEnd t else t, ?_, ?_⟩
  · split
    · exact trimEnd_spec t
    · rfl
  · unfold Finished finalize
    generalize (if cfg.trimTrailing then trimEnd t else t) = u
    by_cases h : cfg.insertFinalNewline = true ∧ u ≠ [] ∧ u.getLast? ≠ some '\n'
    · rw [if_pos h]
      obtain ⟨h1, h2, h3⟩ := h
      simp [h1, h2, h3]
    · rw [if_neg h]
      simp only []
      rw [if_neg]
      intro hc
      simp at hc
      exact h ⟨hc.1.1, hc.1.2, hc.2⟩

theorem trimEnd_newline (t : Str) (h : t.getLast? = some '\n') : trimEnd t = t := by
  obtain ⟨ys, rfl⟩ := List.getLast?_eq_some_iff.1 h
  simp [trimEnd]

theorem trimEnd_idem (t : Str) : trimEnd (trimEnd t) = trimEnd t := by
  have h := (trimEnd_spec t).2
  generalize trimEnd t = u at h ⊢
  cases hl : u.getLast? with
  | none => rw [List.getLast?_eq_none_iff] at hl; subst hl; rfl
  | some c =>
    have hc := h c hl
    obtain ⟨ys, rfl⟩ := List.getLast?_eq_some_iff.1 hl
    have : (decide (c = ' ') || decide (c = '\t')) = false := by
      simpa [isBlank] using hc
    simp [trimEnd, this]

theorem finalize_idem (cfg : FormatConfig) (t : Str) : finalize cfg (finalize cfg t) = finalize cfg t := by
  obtain ⟨e, he, _⟩ := ending_last cfg
  have last : ∀ u : Str, (u ++ cfg.ending).getLast? = some '\n' := by intro u; rw [he]; simp
  unfold finalize
  by_cases ht : cfg.trimTrailing = true
  · simp only [ht, if_true]
    split
    · rw [trimEnd_newline _ (last _)]
      rw [if_neg]
      rw [last]; simp
    · next h => rw [trimEnd_idem, if_neg h]
  · simp only [ht]
    by_cases h : (cfg.insertFinalNewline && !t.isEmpty && !(t.getLast? == some '\n')) = true
    · simp only [h, if_true, if_false, Bool.false_eq_true]
      rw [if_neg]
      rw [last]; simp
    · simp [h]

end Oaks
