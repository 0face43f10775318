import Verif.Proofs.ProgRun
import Verif.Model.Hand.R
import Verif.Model.Hand.Nix
import Verif.Model.Hand.Tcl

/-! Token streams on which hand-written parsers never end. -/
namespace Oaks

/-- A state in front of the token with this number. -/
def PState.Before (ts : List Tok) (i : Nat) (s : PState) : Prop := s.tokens = ts ∧ s.index = i

namespace PState.Before
variable {ts : List Tok} {i : Nat} {s : PState} {t : Tok}

theorem current (h : s.Before ts i) (ht : ts[i]? = some t) : s.current = some t := by
  unfold PState.current; rw [h.1, h.2]; exact ht
theorem atKind (h : s.Before ts i) (ht : ts[i]? = some t) (k : Nat) : s.atKind k = decide (t.kind = k) := by
  unfold PState.atKind PState.peekKind; rw [h.current ht]; simp [beq_eq_decide]
theorem more (h : s.Before ts i) (ht : ts[i]? = some t) : decide (s.index < s.tokens.length) = true := by
  rw [h.1, h.2]; exact decide_eq_true (List.getElem?_eq_some_iff.mp ht).1
theorem record (h : s.Before ts i) (c : Nat) : (s.record c).Before ts i := h

theorem bump {ign : Nat → Bool} (h : s.Before ts i) (ht : ts[i]? = some t) (hn : ∀ t', ts[i + 1]? = some t' → ign t'.kind = false) :
    ∃ s', s.bump ign = .ok s' ∧ s'.Before ts (i + 1) := by
  refine ⟨(s.pushLeaf t.kind t.length).tokenAdvance, ?_, ?_⟩
  · unfold PState.bump
    rw [h.current ht]
    show PState.skipTrivia ign _ = _
    unfold PState.skipTrivia skipTriviaLoop
    have hc : (s.pushLeaf t.kind t.length).tokenAdvance.current = ts[i + 1]? := by
      unfold PState.current; rw [← h.1, ← h.2]; rfl
    rw [hc]
    cases h1 : ts[i + 1]? with
    | none => rfl
    | some t' => simp [hn t' h1]
  · exact ⟨h.1, by rw [← h.2]; rfl⟩

end PState.Before

namespace Prog
variable {ign : Nat → Bool} {src : Source} {slack : Nat} {cs : Nat → PState → Run (Out × PState)} {l l' : Loc} {s s' : PState} {a b c : Prog}

theorem turns_spin {c body : Loc → PState → Run (Out × Loc × PState)} (I : PState → Prop)
    (hc : ∀ l s, I s → c l s = .ok (.val true, l, s))
    (hb : ∀ l s, I s → (∃ b l' s', body l s = .ok (.val b, l', s') ∧ I s') ∨ body l s = .error .spin) (fuel : Nat) :
    ∀ l s, I s → turns c body fuel l s = .error .spin := by
  induction fuel with
  | zero => intro l s _; rfl
  | succ n ih =>
    intro l s h
    unfold turns
    rw [hc l s h]
    rcases hb l s h with ⟨b, l', s', h1, h2⟩ | h1
    · simp only [h1]; exact ih l' s' h2
    · simp only [h1]

theorem seq_next {v : Bool} (h : exec ign src slack cs a l s = .ok (.val v, l', s')) :
    exec ign src slack cs (seq a b) l s = exec ign src slack cs b l' s' := by simp [exec, h]
theorem seq_spin (h : exec ign src slack cs a l s = .error .spin) : exec ign src slack cs (seq a b) l s = .error .spin := by
  simp [exec, h]
theorem ite_true_ (h : exec ign src slack cs c l s = .ok (.val true, l', s')) :
    exec ign src slack cs (ite c a b) l s = exec ign src slack cs a l' s' := by simp [exec, h]
theorem ite_false_ (h : exec ign src slack cs c l s = .ok (.val false, l', s')) :
    exec ign src slack cs (ite c a b) l s = exec ign src slack cs b l' s' := by simp [exec, h]
theorem mark_spin (h : exec ign src slack cs a { l with cp := s.checkpoint } s = .error .spin) :
    exec ign src slack cs (mark a) l s = .error .spin := by simp [exec, h]
theorem call_spin {f : Nat} (h : cs f s = .error .spin) : exec ign src slack cs (call f) l s = .error .spin := by simp [exec, h]
theorem calls_spin {procs : List Prog} {d f : Nat} {p : Prog} (hp : procs[f]? = some p)
    (h : ∀ d, exec ign src slack (calls ign src slack procs d) p ⟨s.checkpoint, fun _ => 0⟩ s = .error .spin) :
    calls ign src slack procs d f s = .error .spin := by
  cases d with
  | zero => rfl
  | succ d => simp [calls, hp, h d]
theorem call_turn {procs : List Prog} {d f : Nat} {p : Prog} {I : PState → Prop} (hp : procs[f]? = some p)
    (h : ∀ d, ∃ v l' s', exec ign src slack (calls ign src slack procs d) p ⟨s.checkpoint, fun _ => 0⟩ s = .ok (.val v, l', s') ∧ I s') :
    (∃ b l' s', exec ign src slack (calls ign src slack procs d) (call f) l s = .ok (.val b, l', s') ∧ I s') ∨
      exec ign src slack (calls ign src slack procs d) (call f) l s = .error .spin := by
  cases d with
  | zero => exact .inr rfl
  | succ d =>
    obtain ⟨v, l', s', h1, h2⟩ := h d
    exact .inl ⟨v, l, s', by simp [exec, calls, hp, h1], h2⟩
theorem mark_next {o : Out} (h : exec ign src slack cs a { l with cp := s.checkpoint } s = .ok (o, l', s')) :
    exec ign src slack cs (mark a) l s = .ok (o, { l' with cp := l.cp }, s') := by simp [exec, h]
theorem loop_spin (hc : exec ign src slack cs c l s = .ok (.val true, l', s')) (h : exec ign src slack cs b l' s' = .error .spin) :
    exec ign src slack cs (loop c b) l s = .error .spin := by
  show turns _ _ (slack + (s.tokens.length - s.index) + 1) _ _ = _
  unfold turns; simp [hc, h]

theorem sees_before {ts : List Tok} {i : Nat} {t : Tok} (h : s.Before ts i) (ht : ts[i]? = some t) (k : Nat) :
    exec ign src slack cs (sees k) l s = .ok (.val (decide (t.kind = k)), l, s) := by simp [exec, h.atKind ht]
theorem more_before {ts : List Tok} {i : Nat} {t : Tok} (h : s.Before ts i) (ht : ts[i]? = some t) :
    exec ign src slack cs more l s = .ok (.val true, l, s) := by simp only [exec, h.more ht]
theorem bump_before {ts : List Tok} {i : Nat} {t : Tok} (h : s.Before ts i) (ht : ts[i]? = some t)
    (hn : ∀ t', ts[i + 1]? = some t' → ign t'.kind = false) :
    ∃ s', exec ign src slack cs bump l s = .ok (.val true, l, s') ∧ s'.Before ts (i + 1) := by
  obtain ⟨s', h1, h2⟩ := h.bump ht hn
  exact ⟨s', by simp [exec, h1], h2⟩
theorem expect_before {ts : List Tok} {i : Nat} {t : Tok} (h : s.Before ts i) (ht : ts[i]? = some t)
    (hn : ∀ t', ts[i + 1]? = some t' → ign t'.kind = false) :
    ∃ s', exec ign src slack cs (expect t.kind) l s = .ok (.val true, l, s') ∧ s'.Before ts (i + 1) := by
  obtain ⟨s', h1, h2⟩ := h.bump ht hn
  exact ⟨s', by simp [exec, PState.expect, PState.eat, h.atKind ht, h1], h2⟩
theorem expect_other {ts : List Tok} {i k : Nat} {t : Tok} (h : s.Before ts i) (ht : ts[i]? = some t) (hk : t.kind ≠ k) :
    exec ign src slack cs (expect k) l s = .ok (.val false, l, s.record 1) := by
  simp [exec, PState.expect, PState.eat, h.atKind ht, hk]
theorem close_empty {ts : List Tok} {i : Nat} (h : s.Before ts i) (k : Nat) (hl : l.cp.2 = s.sink.length) :
    ∃ s', exec ign src slack cs (close k) l s = .ok (.val true, l, s') ∧ s'.Before ts i := by
  refine ⟨{ s with sink := s.sink ++ [⟨.node k 0 [], s.fresh⟩], fresh := s.fresh + 1 }, ?_, h⟩
  simp [close, exec, PState.finishAt, hl, Green.mkNode, sumLen]
theorem new_before {ts : List Tok} {t : Tok} {n : Nat} (h0 : ts[0]? = some t) (hi : ign t.kind = false) :
    ∃ s, PState.new ign ts n = .ok s ∧ s.Before ts 0 := by
  refine ⟨⟨ts, 0, [], 0, none, [], n⟩, ?_, rfl, rfl⟩
  unfold PState.new PState.skipTrivia skipTriviaLoop
  simp [PState.current, h0, hi]

theorem parse_spin {h : HandParser} {ts : List Tok} {t : Tok} (h0 : ts[0]? = some t) (hi : h.ign.contains t.kind = false)
    (hm : ∀ d l s, s.Before ts 0 → h.main.exec (fun k => h.ign.contains k) src slack
      (calls (fun k => h.ign.contains k) src slack h.procs d) l s = .error .spin) :
    h.parse slack src ts = .error .spin := by
  obtain ⟨s, h1, h2⟩ := new_before (ign := fun k => h.ign.contains k) (n := src.length) h0 hi
  unfold HandParser.parse
  rw [h1, run_bind_ok, hm _ _ _ h2]
  rfl

end Prog

namespace Hand
open Prog

theorem r_spins {f p x : Tok} {rest : List Tok} (hf : f.kind = R.tFunction) (hp : p.kind = R.tLeftParen)
    (hx : x.kind ≠ R.tRightParen ∧ x.kind ≠ R.tIdentifier ∧ x.kind ≠ R.tComma) (slack : Nat) (src : Source) :
    R.parser.parse slack src (f :: p :: x :: rest) = .error .spin := by
  have hn : ∀ (i : Nat) (t' : Tok), (f :: p :: x :: rest)[i]? = some t' → (R.parser.ign.contains t'.kind) = false := fun _ _ _ => rfl
  refine parse_spin (t := f) rfl rfl ?_
  intro d l s hs
  refine loop_spin (more_before hs (t := f) rfl) (seq_spin (call_spin (calls_spin (p := R.parseStatement) rfl ?_)))
  intro d
  have k1 : f.kind ≠ R.tIdentifier := by rw [hf]; decide
  refine (ite_false_ (l' := _) (s' := s) ((ite_false_ ((sees_before hs (t := f) rfl _).trans (by rw [decide_eq_false k1]))).trans rfl)).trans ?_
  refine (ite_true_ ((sees_before hs (t := f) rfl _).trans (by rw [decide_eq_true hf]))).trans (mark_spin ?_)
  obtain ⟨s1, b1, hs1⟩ := bump_before (ign := fun k => R.parser.ign.contains k) (src := src) (slack := slack)
    (cs := calls (fun k => R.parser.ign.contains k) src slack R.parser.procs d)
    (l := ⟨s.checkpoint, fun _ => 0⟩) hs (t := f) rfl (hn _)
  refine (seq_next b1).trans (seq_spin ?_)
  refine (ite_true_ ((sees_before hs1 (t := p) rfl _).trans (by rw [decide_eq_true hp]))).trans ?_
  obtain ⟨s2, b2, hs2⟩ := bump_before (ign := fun k => R.parser.ign.contains k) (src := src) (slack := slack)
    (cs := calls (fun k => R.parser.ign.contains k) src slack R.parser.procs d)
    (l := ⟨s.checkpoint, fun _ => 0⟩) hs1 (t := p) rfl (hn _)
  refine (seq_next b2).trans (seq_spin ?_)
  refine turns_spin (PState.Before (f :: p :: x :: rest) 2) ?_ ?_ _ _ _ hs2
  · intro l s h
    exact (ite_true_ ((ite_false_ ((sees_before h (t := x) rfl _).trans (by rw [decide_eq_false hx.1]))).trans rfl)).trans (more_before h (t := x) rfl)
  · intro l s h
    refine .inl ⟨true, l, s, ?_, h⟩
    refine (seq_next ((ite_false_ ((sees_before h (t := x) rfl _).trans (by rw [decide_eq_false hx.2.1]))).trans rfl)).trans ?_
    exact (ite_false_ ((sees_before h (t := x) rfl _).trans (by rw [decide_eq_false hx.2.2]))).trans rfl

theorem nix_spins {b x : Tok} {rest : List Tok} (hb : b.kind = Nix.tLeftBrace)
    (hx : x.kind ∉ [Nix.tWhitespace, Nix.tNewline, Nix.tComment, Nix.tRightBrace, Nix.tIdentifier, Nix.tAssign]) (slack : Nat) (src : Source) :
    Nix.parser.parse slack src (b :: x :: rest) = .error .spin := by
  simp only [List.mem_cons, List.not_mem_nil, or_false, not_or] at hx
  have hn : ∀ t', (b :: x :: rest)[0 + 1]? = some t' → (Nix.parser.ign.contains t'.kind) = false := by
    intro t' h
    cases h
    simp [Nix.parser, hx.1, hx.2.1, hx.2.2.1]
  refine parse_spin (t := b) rfl (by rw [hb]; rfl) ?_
  intro d l s hs
  refine loop_spin (more_before hs (t := b) rfl) (call_spin (calls_spin (p := Nix.parseExpr) rfl ?_))
  intro d
  refine (ite_true_ ((sees_before hs (t := b) rfl _).trans (by rw [decide_eq_true hb]))).trans
    (call_spin (calls_spin (p := Nix.parseSet) rfl ?_))
  intro d
  obtain ⟨s1, b1, hs1⟩ := expect_before (ign := fun k => Nix.parser.ign.contains k) (src := src) (slack := slack)
    (cs := calls (fun k => Nix.parser.ign.contains k) src slack Nix.parser.procs d)
    (l := ⟨s.checkpoint, fun _ => 0⟩) hs (t := b) rfl hn
  rw [hb] at b1
  refine mark_spin ((seq_next b1).trans (seq_spin ?_))
  refine turns_spin (PState.Before (b :: x :: rest) 1) ?_ ?_ _ _ _ hs1
  · intro l s h
    exact (ite_true_ (more_before h (t := x) rfl)).trans
      ((ite_false_ ((sees_before h (t := x) rfl _).trans (by rw [decide_eq_false hx.2.2.2.1]))).trans rfl)
  · intro l s h
    refine call_turn (p := Nix.parseBinding) rfl ?_
    intro d
    obtain ⟨s2, c2, hs2⟩ := close_empty (ign := fun k => Nix.parser.ign.contains k) (src := src) (slack := slack)
      (cs := calls (fun k => Nix.parser.ign.contains k) src slack Nix.parser.procs d)
      (l := ⟨s.checkpoint, fun _ => 0⟩) (h.record 1) Nix.eBinding rfl
    refine ⟨_, _, s2, mark_next ((seq_next (expect_other h (t := x) rfl hx.2.2.2.2.1)).trans ((seq_next (v := true) ?_).trans c2)), hs2⟩
    exact (ite_false_ ((sees_before (h.record 1) (t := x) rfl _).trans (by rw [decide_eq_false hx.2.2.2.2.2]))).trans rfl

theorem tcl_spins {b c : Tok} {rest : List Tok} (hb : b.kind = Tcl.tLeftBracket) (hc : c.kind = Tcl.tComment) (slack : Nat) (src : Source) :
    Tcl.parser.parse slack src (b :: c :: rest) = .error .spin := by
  have hn : ∀ (i : Nat) (t' : Tok), (b :: c :: rest)[i]? = some t' → (Tcl.parser.ign.contains t'.kind) = false := fun _ _ _ => rfl
  have no : ∀ {k j : Nat} {P : Prog} {f : Nat} {cs} {l : Loc} {s : PState}, s.atKind k = decide (f = k) → f = j → j ≠ k →
      exec (fun k => Tcl.parser.ign.contains k) src slack cs (when_ (sees k) P) l s = .ok (.val true, l, s) := by
    intro k j P f cs l s h1 h2 h3
    have : ¬ f = k := by rw [h2]; exact h3
    simp [when_, exec, h1, this]
  have no2 : ∀ {k k' j : Nat} {P : Prog} {f : Nat} {cs} {l : Loc} {s : PState}, s.atKind k = decide (f = k) → s.atKind k' = decide (f = k') →
      f = j → j ≠ k → j ≠ k' →
      exec (fun k => Tcl.parser.ign.contains k) src slack cs (when_ (or_ (sees k) (sees k')) P) l s = .ok (.val true, l, s) := by
    intro k k' j P f cs l s h1 h1' h2 h3 h4
    have a : ¬ f = k := by rw [h2]; exact h3
    have b : ¬ f = k' := by rw [h2]; exact h4
    simp [when_, or_, exec, h1, h1', a, b]
  refine parse_spin (t := b) rfl rfl ?_
  intro d l s hs
  refine loop_spin (more_before hs (t := b) rfl) ?_
  refine (seq_next (no2 (hs.atKind (t := b) rfl _) (hs.atKind (t := b) rfl _) hb (by decide) (by decide))).trans ?_
  refine (seq_next (no (hs.atKind (t := b) rfl _) hb (by decide))).trans ?_
  refine (seq_next (no (hs.atKind (t := b) rfl _) hb (by decide))).trans ?_
  refine call_spin (calls_spin (p := Tcl.parseCommand) rfl ?_)
  intro d
  refine mark_spin (seq_spin (loop_spin (s' := s) (l' := ⟨s.checkpoint, fun _ => 0⟩) ?_ ?_))
  · simp [exec, and_, not_, hs.atKind (t := b) rfl, hs.more (t := b) rfl, hb, Tcl.tLeftBracket, Tcl.tNewline, Tcl.tSemicolon, Tcl.tWhitespace, Tcl.tComment]
  refine (seq_next (no (hs.atKind (t := b) rfl _) hb (by decide))).trans ?_
  refine (seq_next (no (hs.atKind (t := b) rfl _) hb (by decide))).trans ?_
  refine call_spin (calls_spin (p := Tcl.parseWord) rfl ?_)
  intro d
  refine mark_spin ?_
  refine (ite_false_ ((sees_before hs (t := b) rfl _).trans (by rw [hb]; rfl))).trans ?_
  refine (ite_true_ ((sees_before hs (t := b) rfl _).trans (by rw [hb]; rfl))).trans ?_
  obtain ⟨s1, b1, hs1⟩ := bump_before (ign := fun k => Tcl.parser.ign.contains k) (src := src) (slack := slack)
    (cs := calls (fun k => Tcl.parser.ign.contains k) src slack Tcl.parser.procs d)
    (l := ⟨s.checkpoint, fun _ => 0⟩) hs (t := b) rfl (hn _)
  refine (seq_next b1).trans (seq_spin ?_)
  refine turns_spin (PState.Before (b :: c :: rest) 1) ?_ ?_ _ _ _ hs1
  · intro l s h
    exact (ite_true_ (more_before h (t := c) rfl)).trans ((ite_false_ ((sees_before h (t := c) rfl _).trans (by rw [hc]; rfl))).trans rfl)
  · intro l s h
    have w : exec (fun k => Tcl.parser.ign.contains k) src slack (calls (fun k => Tcl.parser.ign.contains k) src slack Tcl.parser.procs d)
        (when_ (or_ (or_ (sees Tcl.tNewline) (sees Tcl.tSemicolon)) (sees Tcl.tWhitespace)) (block [bump, cont])) l s = .ok (.val true, l, s) := by
      simp [when_, or_, exec, h.atKind (t := c) rfl, hc, Tcl.tLeftBracket, Tcl.tNewline, Tcl.tSemicolon, Tcl.tWhitespace, Tcl.tComment]
    have e : exec (fun k => Tcl.parser.ign.contains k) src slack (calls (fun k => Tcl.parser.ign.contains k) src slack Tcl.parser.procs d)
        (seq (when_ (or_ (or_ (sees Tcl.tNewline) (sees Tcl.tSemicolon)) (sees Tcl.tWhitespace)) (block [bump, cont])) (call Tcl.pParseCommand)) l s
        = exec (fun k => Tcl.parser.ign.contains k) src slack (calls (fun k => Tcl.parser.ign.contains k) src slack Tcl.parser.procs d)
        (call Tcl.pParseCommand) l s := seq_next w
    show (∃ b l' s', exec (fun k => Tcl.parser.ign.contains k) src slack (calls (fun k => Tcl.parser.ign.contains k) src slack Tcl.parser.procs d)
        (seq (when_ (or_ (or_ (sees Tcl.tNewline) (sees Tcl.tSemicolon)) (sees Tcl.tWhitespace)) (block [bump, cont])) (call Tcl.pParseCommand)) l s = _ ∧ _) ∨
        exec (fun k => Tcl.parser.ign.contains k) src slack (calls (fun k => Tcl.parser.ign.contains k) src slack Tcl.parser.procs d)
        (seq (when_ (or_ (or_ (sees Tcl.tNewline) (sees Tcl.tSemicolon)) (sees Tcl.tWhitespace)) (block [bump, cont])) (call Tcl.pParseCommand)) l s = _
    rw [e]
    refine call_turn (p := Tcl.parseCommand) rfl ?_
    intro d
    obtain ⟨s2, c2, hs2⟩ := close_empty (ign := fun k => Tcl.parser.ign.contains k) (src := src) (slack := slack)
      (cs := calls (fun k => Tcl.parser.ign.contains k) src slack Tcl.parser.procs d)
      (l := ⟨s.checkpoint, fun _ => 0⟩) h Tcl.eCommand rfl
    refine ⟨_, _, s2, mark_next ((seq_next (v := true) ?_).trans c2), hs2⟩
    show turns _ _ (slack + (s.tokens.length - s.index) + 1) _ _ = _
    unfold turns
    simp [exec, and_, not_, when_, block, h.atKind (t := c) rfl, h.more (t := c) rfl, hc, Tcl.tLeftBracket, Tcl.tNewline, Tcl.tSemicolon, Tcl.tWhitespace, Tcl.tComment]

end Hand
end Oaks
