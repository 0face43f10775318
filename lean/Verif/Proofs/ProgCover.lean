import Verif.Proofs.ProgBare

/-! Parsers that put nodes into the sink twice: without `advance` no token is lost. -/
namespace Oaks
open Spec
namespace Prog

/-- Behind the leaves of `base` the sink holds every token from number `lead` to the next one, in order, maybe among others. -/
structure Covers (base : List Entry) (lead : Nat) (toks : List Tok) (s : PState) : Prop where
  tokens : s.tokens = toks
  le : lead ≤ s.index
  rest : ∃ es, s.sink = base ++ es ∧ (((toks.take s.index).drop lead).map Tok.kl).Sublist (leavesOfList (es.map Entry.tree))

variable {base : List Entry} {lead : Nat} {toks : List Tok} {s s' : PState} {ign : Nat → Bool}

theorem take_drop_add (toks : List Tok) {lead i : Nat} (h : lead ≤ i) (k : Nat) :
    (toks.take (i + k)).drop lead = (toks.take i).drop lead ++ (toks.drop i).take k := by
  rw [List.take_add, List.drop_append]
  by_cases hi : i ≤ toks.length
  · rw [List.length_take, Nat.min_eq_left hi, Nat.sub_eq_zero_of_le h, List.drop_zero]
  · rw [List.drop_eq_nil_of_le (as := toks) (by omega : toks.length ≤ i)]; simp

theorem Covers.skip (hl : (toks.map Tok.length).sum < 2 ^ 32) (h : Covers base lead toks s) (hs : s.skipTrivia ign = .ok s') :
    Covers base lead toks s' := by
  obtain ⟨k, es, h1, _, h3, _, _⟩ := skipTrivia_spec (ign := ign) s
  rw [h1] at hs
  injection hs with hs; subst hs
  rw [h.tokens] at h3
  obtain ⟨es0, e1, e2⟩ := h.rest
  refine ⟨h.tokens, Nat.le_add_right_of_le h.le, es0 ++ es, by rw [e1, List.append_assoc], ?_⟩
  have hes : es.map Entry.tree = (((toks.drop s.index).take k).map Tok.kl).map leafOf := by
    rw [h3, List.map_map, List.map_map]; rfl
  have hmod : ∀ t ∈ ((toks.drop s.index).take k).map Tok.kl, t.2 < 2 ^ 32 := by
    intro t ht
    obtain ⟨u, hu, rfl⟩ := List.mem_map.1 ht
    have := length_mod hl (List.mem_of_mem_drop (List.mem_of_mem_take hu))
    show u.length < 2 ^ 32
    omega
  show (((toks.take (s.index + k)).drop lead).map Tok.kl).Sublist _
  rw [take_drop_add toks h.le, List.map_append, List.map_append, leavesOfList_append, hes, FlatParser.leavesOfList_leafOf _ hmod]
  exact e2.append (List.Sublist.refl _)

theorem Covers.bump (hl : (toks.map Tok.length).sum < 2 ^ 32) (h : Covers base lead toks s) (hs : s.bump ign = .ok s') :
    Covers base lead toks s' := by
  unfold PState.bump at hs
  cases hc : s.current with
  | none => rw [hc] at hs; injection hs with hs; exact hs ▸ h
  | some t =>
    rw [hc] at hs
    refine Covers.skip (s := (s.pushLeaf t.kind t.length).tokenAdvance) hl ?_ hs
    have hc' := hc
    unfold PState.current at hc'
    rw [h.tokens] at hc'
    obtain ⟨hlt, hg⟩ := List.getElem?_eq_some_iff.1 hc'
    have hmod := length_mod hl (hg ▸ List.getElem_mem _ : t ∈ toks)
    obtain ⟨es0, e1, e2⟩ := h.rest
    refine ⟨h.tokens, Nat.le_succ_of_le h.le, es0 ++ [⟨.leaf t.kind (t.length % 2 ^ 32) none, 0⟩], ?_, ?_⟩
    · simp [PState.tokenAdvance, PState.pushLeaf, e1]
    · show (((toks.take (s.index + 1)).drop lead).map Tok.kl).Sublist _
      rw [take_drop_add toks h.le, List.map_append, List.map_append, leavesOfList_append]
      refine e2.append ?_
      rw [List.drop_eq_getElem_cons hlt, hg]
      simp [leavesOfList, leavesOf, hmod, Tok.kl]

theorem Covers.record (h : Covers base lead toks s) (e : PErr) : Covers base lead toks { s with errors := s.errors ++ [e] } :=
  ⟨h.tokens, h.le, h.rest⟩

theorem Covers.eat (hl : (toks.map Tok.length).sum < 2 ^ 32) (h : Covers base lead toks s) {k : Nat} {b : Bool}
    (hs : s.eat ign k = .ok (b, s')) : Covers base lead toks s' := by
  unfold PState.eat at hs
  split at hs
  · cases h1 : s.bump ign with
    | error e => rw [h1] at hs; cases hs
    | ok s1 => rw [h1] at hs; injection hs with hs; injection hs with _ hs; exact hs ▸ h.bump hl h1
  · injection hs with hs; injection hs with _ hs; exact hs ▸ h

theorem Covers.expect (hl : (toks.map Tok.length).sum < 2 ^ 32) (h : Covers base lead toks s) {k : Nat} {b : Bool}
    (hs : s.expect ign k = .ok (b, s')) : Covers base lead toks s' := by
  unfold PState.expect at hs
  cases h1 : s.eat ign k with
  | error e => rw [h1] at hs; cases hs
  | ok r =>
    obtain ⟨b1, s1⟩ := r
    rw [h1, run_bind_ok] at hs
    have := h.eat hl h1
    cases b1 with
    | true => injection hs with hs; injection hs with _ hs; exact hs ▸ this
    | false => injection hs with hs; injection hs with _ hs; exact hs ▸ this.record _

theorem Covers.finish (h : Covers base lead toks s) {cp : Nat × Nat} (hcp : base.length ≤ cp.2) {k : Nat} {e : Entry}
    (hs : s.finishAt cp k = .ok (e, s')) : Covers base lead toks s' := by
  unfold PState.finishAt at hs
  split at hs
  · rename_i hle
    cases h1 : Green.mkNode k ((s.sink.drop cp.2).map Entry.tree) with
    | error e => rw [h1] at hs; cases hs
    | ok g =>
      rw [h1, run_bind_ok] at hs
      injection hs with hs; injection hs with h2 hs
      obtain ⟨hg, _⟩ := mkNode_ok.1 h1
      subst hs h2
      obtain ⟨es0, e1, e2⟩ := h.rest
      refine ⟨h.tokens, h.le, es0.take (cp.2 - base.length) ++ [⟨g, s.fresh⟩], ?_, ?_⟩
      · simp only [e1, List.take_append, ← List.append_assoc]
        rw [List.take_of_length_le hcp]
      · show (((toks.take s.index).drop lead).map Tok.kl).Sublist _
        have : leavesOfList ((es0.take (cp.2 - base.length) ++ [(⟨g, s.fresh⟩ : Entry)]).map Entry.tree) =
            leavesOfList (es0.map Entry.tree) := by
          have hd : s.sink.drop cp.2 = es0.drop (cp.2 - base.length) := by
            rw [e1, List.drop_append, List.drop_eq_nil_of_le hcp, List.nil_append]
          rw [hd] at hg
          simp only [List.map_append, leavesOfList_append, List.map_cons, List.map_nil, leavesOfList, hg, leavesOf, List.append_nil]
          rw [← leavesOfList_append, ← List.map_append, List.take_append_drop]
        rw [this]; exact e2
  · cases hs

theorem findNodeRev_node (addr : Nat) (l : List Entry) : ∀ n i, findNodeRev addr l n = some i → ∃ e, l[i]? = some e ∧ e.isNodeAt addr = true := by
  intro n
  induction n with
  | zero => intro i h; simp [findNodeRev] at h
  | succ n ih =>
    intro i h
    unfold findNodeRev at h
    split at h
    · rename_i e he
      split at h
      · rename_i hn; injection h with h; subst h; exact ⟨e, he, hn⟩
      · exact ih i h
    · exact ih i h

/-- A statement loses no token. -/
def KeepsCover (base : List Entry) (lead : Nat) (toks : List Tok) (f : Loc → PState → Run (Out × Loc × PState)) : Prop :=
  ∀ l s o l' s', Covers base lead toks s → base.length ≤ l.cp.2 → f l s = .ok (o, l', s') → Covers base lead toks s' ∧ base.length ≤ l'.cp.2

theorem Covers.here (h : Covers base lead toks s) : base.length ≤ s.sink.length := by
  obtain ⟨es, e, _⟩ := h.rest
  rw [e, List.length_append]; omega

theorem turns_cover {c body : Loc → PState → Run (Out × Loc × PState)} (hc : KeepsCover base lead toks c)
    (hb : KeepsCover base lead toks body) (fuel : Nat) : KeepsCover base lead toks (turns c body fuel) := by
  induction fuel with
  | zero => intro l s o l' s' _ _ h; simp [turns] at h
  | succ n ih =>
    intro l s o l' s' hs hcp h
    rw [turns] at h
    split at h
    · rename_i h1
      obtain ⟨k1, q1⟩ := hc _ _ _ _ _ hs hcp h1
      split at h
      · rename_i h2
        obtain ⟨k2, q2⟩ := hb _ _ _ _ _ k1 q1 h2
        exact ih _ _ _ _ _ k2 q2 h
      · rename_i h2
        obtain ⟨k2, q2⟩ := hb _ _ _ _ _ k1 q1 h2
        exact ih _ _ _ _ _ k2 q2 h
      · rename_i h2
        have k2 := hb _ _ _ _ _ k1 q1 h2
        simp at h; rw [← h.2.2, ← h.2.1]; exact k2
      · exact hb _ _ _ _ _ k1 q1 h
    · rename_i h1
      have k1 := hc _ _ _ _ _ hs hcp h1
      simp at h; rw [← h.2.2, ← h.2.1]; exact k1
    · exact hc _ _ _ _ _ hs hcp h

theorem exec_cover (hl : (toks.map Tok.length).sum < 2 ^ 32) (hbase : ∀ e ∈ base, ∀ a, e.isNodeAt a = false) {src : Source} {slack : Nat}
    {calls : Nat → PState → Run (Out × PState)}
    (hcalls : ∀ f s o s', Covers base lead toks s → calls f s = .ok (o, s') → Covers base lead toks s') (p : Prog)
    (hp : p.bare.fits true = true) : KeepsCover base lead toks (exec ign src slack calls p) := by
  induction p with
  | val b => intro l s o l' s' hs hcp h; simp [exec] at h; rw [← h.2.2, ← h.2.1]; exact ⟨hs, hcp⟩
  | sees k => intro l s o l' s' hs hcp h; simp [exec] at h; rw [← h.2.2, ← h.2.1]; exact ⟨hs, hcp⟩
  | more => intro l s o l' s' hs hcp h; simp [exec] at h; rw [← h.2.2, ← h.2.1]; exact ⟨hs, hcp⟩
  | ask f => intro l s o l' s' hs hcp h; simp [exec] at h; rw [← h.2.2, ← h.2.1]; exact ⟨hs, hcp⟩
  | brk => intro l s o l' s' hs hcp h; simp [exec] at h; rw [← h.2.2, ← h.2.1]; exact ⟨hs, hcp⟩
  | cont => intro l s o l' s' hs hcp h; simp [exec] at h; rw [← h.2.2, ← h.2.1]; exact ⟨hs, hcp⟩
  | ret b => intro l s o l' s' hs hcp h; simp [exec] at h; rw [← h.2.2, ← h.2.1]; exact ⟨hs, hcp⟩
  | set r f => intro l s o l' s' hs hcp h; simp [exec] at h; rw [← h.2.2, ← h.2.1]; exact ⟨hs, hcp⟩
  | fail c f => intro l s o l' s' hs hcp h; simp [exec] at h; rw [← h.2.2, ← h.2.1]; exact ⟨hs.record _, hcp⟩
  | remark => intro l s o l' s' hs hcp h; simp [exec] at h; rw [← h.2.2, ← h.2.1]; exact ⟨hs, hs.here⟩
  | advance => simp [bare, fits] at hp
  | bump =>
    intro l s o l' s' hs hcp h
    unfold exec at h
    cases h1 : s.bump ign with
    | error e => rw [h1] at h; cases h
    | ok s1 =>
      rw [h1] at h; injection h with h; injection h with _ h; injection h with h2 h
      exact ⟨h ▸ hs.bump hl h1, h2 ▸ hcp⟩
  | eat k =>
    intro l s o l' s' hs hcp h
    unfold exec at h
    cases h1 : s.eat ign k with
    | error e => rw [h1] at h; cases h
    | ok r =>
      rw [h1] at h; injection h with h; injection h with _ h; injection h with h2 h
      exact ⟨h ▸ hs.eat hl h1, h2 ▸ hcp⟩
  | expect k =>
    intro l s o l' s' hs hcp h
    unfold exec at h
    cases h1 : s.expect ign k with
    | error e => rw [h1] at h; cases h
    | ok r =>
      rw [h1] at h; injection h with h; injection h with _ h; injection h with h2 h
      exact ⟨h ▸ hs.expect hl h1, h2 ▸ hcp⟩
  | need k =>
    intro l s o l' s' hs hcp h
    unfold exec at h
    cases h1 : s.expect ign k with
    | error e => rw [h1] at h; cases h
    | ok r =>
      rw [h1] at h; injection h with h; injection h with _ h; injection h with h2 h
      exact ⟨h ▸ hs.expect hl h1, h2 ▸ hcp⟩
  | finish k =>
    intro l s o l' s' hs hcp h
    unfold exec at h
    cases h1 : s.finishAt l.cp (k l.regs) with
    | error e => rw [h1] at h; cases h
    | ok r =>
      rw [h1] at h; injection h with h; injection h with _ h; injection h with h2 h
      exact ⟨h ▸ hs.finish hcp h1, h2 ▸ hcp⟩
  | within k p ih =>
    intro l s o l' s' hs hcp h
    unfold exec at h
    split at h
    · rename_i o1 l1 s1 h1
      have k1 := (ih hp _ _ _ _ _ hs hs.here h1).1
      cases h2 : s1.finishAt s.checkpoint k with
      | error e => rw [h2] at h; cases h
      | ok r => rw [h2] at h; simp at h; rw [← h.2.2, ← h.2.1]; exact ⟨k1.finish hs.here h2, hcp⟩
    · cases h
  | mark p ih =>
    intro l s o l' s' hs hcp h
    unfold exec at h
    split at h
    · rename_i h1
      simp at h; rw [← h.2.2, ← h.2.1]
      exact ⟨(ih hp _ _ _ _ _ hs hs.here h1).1, hcp⟩
    · cases h
  | again =>
    intro l s o l' s' hs hcp h
    rw [exec] at h
    split at h
    · rename_i e he
      simp at h; rw [← h.2.2, ← h.2.1]
      obtain ⟨es, e1, e2⟩ := hs.rest
      refine ⟨⟨hs.tokens, hs.le, es ++ [e], by simp [PState.pushChild, e1], ?_⟩, hcp⟩
      rw [List.map_append, leavesOfList_append]
      exact e2.trans (List.sublist_append_left _ _)
    · cases h
  | back =>
    intro l s o l' s' hs hcp h
    simp [exec] at h; rw [← h.2.2, ← h.2.1]
    refine ⟨hs, ?_⟩
    show base.length ≤ (s.checkpointBefore _).2
    unfold PState.checkpointBefore
    split
    · rename_i i hi
      obtain ⟨e, he, hn⟩ := findNodeRev_node _ _ _ _ hi
      obtain ⟨es, e1, _⟩ := hs.rest
      refine Nat.le_of_not_lt fun hlt => ?_
      rw [e1, List.getElem?_append_left hlt] at he
      rw [hbase e (List.mem_of_getElem? he)] at hn
      cases hn
    · exact hs.here
  | seq a b iha ihb =>
    simp only [bare, fits, Bool.and_eq_true] at hp
    intro l s o l' s' hs hcp h
    unfold exec at h
    split at h
    · rename_i h1
      obtain ⟨k1, q1⟩ := iha hp.1 _ _ _ _ _ hs hcp h1
      exact ihb hp.2 _ _ _ _ _ k1 q1 h
    · exact iha hp.1 _ _ _ _ _ hs hcp h
  | ite c a b ihc iha ihb =>
    simp only [bare, fits, Bool.and_eq_true] at hp
    intro l s o l' s' hs hcp h
    unfold exec at h
    split at h
    · rename_i h1
      obtain ⟨k1, q1⟩ := ihc hp.1.1 _ _ _ _ _ hs hcp h1
      exact iha hp.1.2 _ _ _ _ _ k1 q1 h
    · rename_i h1
      obtain ⟨k1, q1⟩ := ihc hp.1.1 _ _ _ _ _ hs hcp h1
      exact ihb hp.2 _ _ _ _ _ k1 q1 h
    · exact ihc hp.1.1 _ _ _ _ _ hs hcp h
  | loop c b ihc ihb =>
    simp only [bare, fits, Bool.and_eq_true] at hp
    intro l s o l' s' hs hcp h
    exact turns_cover (ihc hp.1) (ihb hp.2) _ _ _ _ _ _ hs hcp h
  | catch_ p ih =>
    intro l s o l' s' hs hcp h
    unfold exec at h
    split at h
    · rename_i h1
      simp at h; rw [← h.2.2, ← h.2.1]
      exact ih hp _ _ _ _ _ hs hcp h1
    · exact ih hp _ _ _ _ _ hs hcp h
  | call f =>
    intro l s o l' s' hs hcp h
    unfold exec at h
    split at h
    · rename_i h1
      simp at h; rw [← h.2.2, ← h.2.1]
      exact ⟨hcalls _ _ _ _ hs h1, hcp⟩
    · cases h

theorem calls_cover (hl : (toks.map Tok.length).sum < 2 ^ 32) (hbase : ∀ e ∈ base, ∀ a, e.isNodeAt a = false) {src : Source} {slack : Nat}
    {procs : List Prog} (hp : (procs.map bare).all (fits true) = true) (d : Nat) :
    ∀ f s o s', Covers base lead toks s → calls ign src slack procs d f s = .ok (o, s') → Covers base lead toks s' := by
  induction d with
  | zero => intro f s o s' _ h; cases h
  | succ d ih =>
    intro f s o s' hs h
    unfold calls at h
    split at h
    · cases h
    · rename_i p hpf
      have hpp : p.bare.fits true = true := List.all_eq_true.mp hp _ (List.mem_map_of_mem (List.mem_of_getElem? hpf))
      split at h
      · rename_i h1
        simp at h; rw [← h.2]; exact (exec_cover hl hbase ih p hpp _ _ _ _ _ hs hs.here h1).1
      · rename_i h1
        simp at h; rw [← h.2]; exact (exec_cover hl hbase ih p hpp _ _ _ _ _ hs hs.here h1).1
      · cases h

end Prog

namespace HandParser
open Prog

theorem new_leaves {toks : List Tok} {n : Nat} {s : PState} {ign : Nat → Bool} (h : PState.new ign toks n = .ok s) :
    ∀ e ∈ s.sink, ∀ a, e.isNodeAt a = false := by
  unfold PState.new at h
  obtain ⟨k, es, h1, _, h3, _, _⟩ := skipTrivia_spec (ign := ign) (PState.mk toks 0 [] 0 none [] n)
  rw [h1] at h
  injection h with h
  subst h
  intro e he a
  simp only [List.nil_append] at he
  rw [h3] at he
  obtain ⟨t, _, rfl⟩ := List.mem_map.1 he
  rfl

/-- A parser without `advance` keeps what it keeps without the second copies. -/
theorem parse_covers {h : HandParser} (hp : h.bare.plain = true) (ho : h.bare.once = true) {slack : Nat} {src : Source} {toks : List Tok}
    (hl : (toks.map Tok.length).sum < 2 ^ 32) {gb g : Green} {eb errs : List PErr} (hb : h.bare.parse slack src toks = .ok (some gb, eb))
    (hr : h.parse slack src toks = .ok (some g, errs)) : (leavesOf gb).Sublist (leavesOf g) := by
  have hf := fits_plain ho
  rw [hp] at hf
  obtain ⟨s, h1, h2, h3, h4⟩ := new_sound (ign := isIgn h.ign) (strict := true) (n := src.length) hl
  have hcp : h.begins s = (0, 0) ∨ h.begins s = s.checkpoint := by
    unfold begins; split <;> simp
  have hle : (h.begins s).2 ≤ s.sink.length := by
    rcases hcp with hc | hc <;> rw [hc] <;> simp [PState.checkpoint]
  have hidx : s.index ≤ toks.length := by rw [h4]; exact (List.takeWhile_sublist _).length_le
  unfold parse at hr hb
  change ((PState.new (isIgn h.ign) toks src.length) >>= fun s => h.main.bare.exec (isIgn h.ign) src slack
    (Prog.calls (isIgn h.ign) src slack (h.procs.map Prog.bare)
      (slack + ((toks.length + 1) * ((h.procs.map Prog.bare).length + 1) + 1))) ⟨h.begins s, fun _ => 0⟩ s >>= fun r =>
      h.done (h.begins s) r) = _ at hb
  rw [List.length_map] at hb
  rw [h1, run_bind_ok] at hr hb
  cases he : h.main.bare.exec (isIgn h.ign) src slack
      (Prog.calls (isIgn h.ign) src slack (h.procs.map Prog.bare) (slack + ((toks.length + 1) * (h.procs.length + 1) + 1)))
      ⟨h.begins s, fun _ => 0⟩ s with
  | error e => rw [he] at hb; cases hb
  | ok r =>
    obtain ⟨o1, m1, t1⟩ := r
    rw [he, run_bind_ok] at hb
    have k := exec_keeps (src := src) (slack := slack) hl (calls_keep hl hf.2 _) h.main.bare hf.1 _ _ _ _ _ h2 hle he
    obtain ⟨cs, e, s2, r1, r2, r3, r4, r5, r6⟩ := root_facts hl h2 k.sound hcp hidx k.moves h.root
    obtain ⟨i, i0, i1, i2, i3, i4⟩ := r6 rfl
    have hgb : gb = e.tree := by
      unfold done at hb
      cases o1 <;> simp [r1] at hb <;> exact hb.1.symm
    rcases exec_follows (calls_follow _) h.main _ s _ _ _ _ _ ⟨rfl, rfl, rfl, rfl⟩ ⟨rfl, rfl⟩ he with hx | ⟨l1, s1, k1, k2, _⟩
    · rw [hx] at hr; cases hr
    · rw [k1, run_bind_ok] at hr
      have hc0 : Prog.Covers (s.sink.take (h.begins s).2) (h.begins s).1 toks s := by
        rcases hcp with hc | hc
        · rw [hc]
          refine ⟨h2.tokens, Nat.zero_le _, s.sink, rfl, ?_⟩
          rw [h2.all rfl]; exact List.Sublist.refl _
        · rw [hc]
          refine ⟨h2.tokens, Nat.le_refl _, [], by simp [PState.checkpoint], ?_⟩
          simp only [PState.checkpoint]
          rw [List.drop_eq_nil_of_le (by rw [List.length_take]; omega)]
          exact List.nil_sublist _
      have hbase : ∀ e ∈ s.sink.take (h.begins s).2, ∀ a, e.isNodeAt a = false :=
        fun e he => new_leaves h1 e (List.mem_of_mem_take he)
      have hbl : (s.sink.take (h.begins s).2).length = (h.begins s).2 := by rw [List.length_take]; omega
      have hcov := (exec_cover hl hbase (fun f s o s' => calls_cover hl hbase hf.2 _ f s o s') h.main hf.1 _ _ _ _ _ hc0
        (Nat.le_of_eq hbl) k1).1
      obtain ⟨es, e1, e2⟩ := hcov.rest
      cases h5 : s1.finishAt (h.begins s) h.root with
      | error e => unfold done at hr; cases o1 <;> simp [h5] at hr
      | ok r =>
        obtain ⟨e', s3⟩ := r
        have hg : g = e'.tree := by unfold done at hr; cases o1 <;> simp [h5] at hr <;> exact hr.1.symm
        have hge : leavesOf e'.tree = leavesOfList (es.map Entry.tree) := by
          unfold PState.finishAt at h5
          split at h5
          · cases h6 : Green.mkNode h.root ((s1.sink.drop (h.begins s).2).map Entry.tree) with
            | error e => rw [h6] at h5; cases h5
            | ok g' =>
              rw [h6, run_bind_ok] at h5
              injection h5 with h5; injection h5 with h7 _
              obtain ⟨hg', _⟩ := mkNode_ok.1 h6
              rw [← h7, hg', leavesOf, e1, List.drop_append_of_le_length (Nat.le_of_eq hbl.symm)]
              rw [List.drop_eq_nil_of_le (Nat.le_of_eq hbl), List.nil_append]
          · cases h5
        rw [hg, hge, hgb, r2, leavesOf, i4]
        refine List.Sublist.trans ?_ e2
        rw [i0, k2.index]
        refine List.Sublist.map _ (List.Sublist.drop (List.take_sublist_take_left (Nat.min_le_left _ _)) _)

end HandParser
end Oaks
