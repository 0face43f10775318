import Verif.Proofs.LexForms

/-! Words without blanks between them. -/
namespace Oaks.Lc
open Spec

/-- One turn of the loop makes one token of the word that has a character of the set after it. -/
def Parts.fixed (m : Parts) (whole : Bool) (w : Str) (s : Chars) : Bool :=
  match sweep whole m.c ⟨w.map (fun d => [(d.toNat, d.toNat)]) ++ [s], [], []⟩ ⟨.pre 0, [(m.g, some (.pos (.pre 0)))], []⟩ with
  | some (a, .val true) =>
    match sweep whole m.p ⟨w.map (fun d => [(d.toNat, d.toNat)]) ++ [s], [], []⟩ a with
    | some (a, .val _) => decide (a.pt = .pre w.length) && decide (a.toks = [(.pre 0, .pre w.length)])
    | some (a, .cont) => decide (a.pt = .pre w.length) && decide (a.toks = [(.pre 0, .pre w.length)])
    | _ => false
  | _ => false

theorem suits_word (w : Str) : Suits (w.map fun d => [(d.toNat, d.toNat)]) w := by
  induction w with
  | nil => trivial
  | cons c w ih => exact ⟨⟨_, List.mem_singleton_self _, Nat.le_refl _, Nat.le_refl _⟩, ih⟩

theorem fixed_right {m : Parts} {whole : Bool} {w : Str} {c : Char} {s : Chars} (h : m.fixed whole w s = true) (hc : inR s c) (hne : w ≠ []) :
    m.cutTo whole w.length (w ++ [c]) false w.length = some [(0, w.length)] := by
  have hpos : 0 < w.length := List.length_pos_of_ne_nil hne
  generalize hf : (⟨w.map (fun d => [(d.toNat, d.toNat)]) ++ [s], [], []⟩ : Form) = f at *
  have hfit : Fit f (w ++ [c]) 0 0 := by
    subst hf
    exact ⟨[], w ++ [c], [], [], [], by simp, rfl, fits_append (suits_word w) ⟨hc, trivial⟩, by simp, rfl, trivial⟩
  have hrel : Rel f 0 0 (fun _ => 0) [] ⟨.pre 0, [(m.g, some (.pos (.pre 0)))], []⟩ ⟨0, [(m.g, some (.pos 0))], []⟩ := by
    have h0 : Rel f 0 0 (fun _ => 0) [] ⟨.pre 0, [], []⟩ ⟨0, [], []⟩ := ⟨rfl, fun q => trivial, rfl⟩
    exact h0.set m.g (v := some (.pos (.pre 0))) (w := some (.pos 0)) rfl
  have key : ∀ (a : Sw) (t : Tr), Rel f 0 0 (fun _ => 0) [] a t →
      (decide (a.pt = .pre w.length) && decide (a.toks = [(.pre 0, .pre w.length)])) = true → t.i = w.length ∧ t.toks = [(0, w.length)] := by
    intro a t hr hs
    simp only [Bool.and_eq_true, decide_eq_true_eq] at hs
    have e1 := hr.i
    have e2 := hr.toks
    rw [hs.1] at e1
    rw [hs.2] at e2
    exact ⟨by simpa [Form.at] using e1, by simpa [Form.at] using e2⟩
  have hturn : ∃ t, m.turn (w ++ [c]) false whole = some t ∧ t.i = w.length ∧ t.toks = [(0, w.length)] := by
    unfold Parts.fixed at h
    rw [hf] at h
    unfold Parts.turn
    split at h
    · rename_i s1 hs1
      obtain ⟨t1, e1, r1⟩ := sweep_right whole m.c hfit hrel hs1
      simp only [e1]
      split at h
      · rename_i s2 v hs2
        obtain ⟨t2, e2, r2⟩ := sweep_right whole m.p hfit r1 hs2
        simp only [e2]
        exact ⟨t2, rfl, key _ _ r2 h⟩
      · rename_i s2 hs2
        obtain ⟨t2, e2, r2⟩ := sweep_right whole m.p hfit r1 hs2
        simp only [e2]
        exact ⟨t2, rfl, key _ _ r2 h⟩
      · cases h
    · cases h
  obtain ⟨t, e, hi, ht⟩ := hturn
  obtain ⟨n, hn⟩ : ∃ n, w.length = n + 1 := ⟨_, (Nat.sub_add_cancel hpos).symm⟩
  rw [show m.cutTo whole w.length = m.cutTo whole (n + 1) by rw [hn], Parts.cutTo, e]
  simp only [hi, ht]
  rw [if_neg (by omega), if_pos trivial]

section
variable {src : Source} {t : Str} {whole : Bool} {u : Uni} {ω : Nat → Nat}

/-- If the turns of the loop go through the text, the lexer makes their tokens of it and those of its end. -/
theorem run_sound (hs : Supplied src t) (hw : whole = true → Piece src t) {p : Code} {m : Parts} (hm : partsOf p = some m) (hq : m.quiet whole = true)
    {ending : List (Nat × Nat)} (hend : m.ending whole = some ending) {out : List Tok}
    (hrun : ∀ {st : LSt}, Here src t whole [] t [] st.lex → ∃ st' j, j ≤ t.length ∧
      (∀ n, turns (exec src u ω m.c) (exec src u ω m.p) m.g (n + j) st = turns (exec src u ω m.c) (exec src u ω m.p) m.g n st') ∧
      Here src t whole t [] out st'.lex) :
    scanAll src u ω p = .ok (out ++ abs (blen t) ending) := by
  obtain ⟨lex, e0, h0⟩ := lex_new hs
  have hf0 : whole = true → Full t lex.cur := by
    intro hw'
    simp only [Lex.new, Cur.newAt] at e0
    cases hc : src.chunkAt (min 0 src.length) with
    | error x => rw [hc] at e0; cases e0
    | ok c => rw [hc] at e0; cases e0; exact hw hw' _ _ hc
  have hlen : src.length = blen t := hs.length_eq
  -- before the loop
  have hpre : ∃ st b, exec src u ω m.pre ⟨lex, fun _ => 0, 0⟩ = .ok (st, .val b) ∧ Here src t whole [] t [] st.lex := by
    unfold Parts.quiet at hq
    split at hq
    · rename_i a b ha
      obtain ⟨st, f1, f2⟩ := follow_right (u := u) (ω := ω) (toks := []) hs (l := []) (k := []) (s := t) (stop := false) ⟨rfl, by simp, by simp, hw⟩ m.pre _ _ _ ⟨lex, fun _ => 0, 0⟩ ha
        (on_start (k := []) (s := t) ⟨h0, hf0⟩ [] (by simp [abs]))
      have f3 : Here src t whole _ _ _ _ := ⟨f2.lex, f2.full⟩
      simp only [List.isEmpty_iff] at hq
      rw [hq] at f3
      exact ⟨st, b, f1, by simpa [abs] using f3⟩
    · cases hq
  obtain ⟨st1, b1, e1, h1⟩ := hpre
  -- the loop
  obtain ⟨st2, j, g1, g2, g3⟩ := hrun h1
  have hle : t.length ≤ blen t := by
    clear * -
    induction t with
    | nil => simp
    | cons c s ih =>
      have : 0 < c.utf8Size := Char.utf8Size_pos c
      simp only [List.length_cons, blen_cons]; omega
  -- the end
  unfold Parts.ending at hend
  split at hend
  · rename_i a ha
    split at hend
    · rename_i a' b' ha'
      rw [Option.some.injEq] at hend
      rw [← hend]
      have hk : Known src t t [] [] true whole := ⟨by simp, by simp, by simp, hw⟩
      have o2 : On src t t [] [] whole (out) ⟨0, [(m.g, some (.pos 0))], []⟩ (st2.set m.g st2.lex.pos) := by
        have h1 : On src t t [] [] whole (out) ⟨0, [], []⟩ st2 := on_start (k := []) (s := []) g3 [] (by simp [abs])
        exact h1.set m.g _ (some (.pos 0)) (h1.pos hk)
      obtain ⟨st3, k1, k2⟩ := follow_right (u := u) (ω := ω) hs hk m.c _ _ _ _ ha o2
      have hloop : turns (exec src u ω m.c) (exec src u ω m.p) m.g (src.length + 1) st1 = .ok (st3, .val true) := by
        obtain ⟨n, hn⟩ : ∃ n, src.length + 1 = (n + 1) + j := ⟨src.length - j, by omega⟩
        rw [hn, g2, turns]
        simp only [k1, run_bind_ok]
        rfl
      have o3 : On src t t [] [] whole (out) ⟨0, [], a.toks⟩ st3 := by
        refine on_start (k := []) (s := []) ?_ a.toks rfl
        have : Here src t whole _ _ _ _ := ⟨k2.lex, k2.full⟩
        simpa using this
      obtain ⟨st4, k3, k4⟩ := follow_right (u := u) (ω := ω) hs hk m.post _ _ _ _ ha' o3
      have hfin : ∃ b, exec src u ω p ⟨lex, fun _ => 0, 0⟩ = .ok (st4, .val b) := by
        unfold partsOf at hm
        split at hm
        · cases hm
          simp only [exec, run_pure, Except.ok.injEq, Prod.mk.injEq] at e1 k3
          obtain ⟨rfl, _⟩ := e1
          obtain ⟨rfl, _⟩ := k3
          exact ⟨true, by simp only [exec, hloop, run_bind_ok]; rfl⟩
        · cases hm
          simp only [exec, run_pure, Except.ok.injEq, Prod.mk.injEq] at e1
          obtain ⟨rfl, _⟩ := e1
          exact ⟨b', by simp only [exec, hloop, run_bind_ok]; simp only [] at k3; rw [k3]; rfl⟩
        · cases hm
          simp only [exec, run_pure, Except.ok.injEq, Prod.mk.injEq] at k3
          obtain ⟨rfl, _⟩ := k3
          exact ⟨true, by simp only [exec]; simp only [] at e1; rw [e1]; simp only [run_bind_ok, hloop]; rfl⟩
        · cases hm
      obtain ⟨b, hfin⟩ := hfin
      simp only [scanAll, e0, run_bind_ok, hfin]
      have := k4.lex.toks
      rw [this]
      rfl
    · cases hend
  · cases hend


/-- Words one after the other; the lexer makes one token of each, as it sees the first character of the next one. -/
structure ChainRight (m : Parts) (whole : Bool) (x : List Str) : Prop where
  ascii : ∀ w ∈ x, w ≠ [] ∧ ∀ c ∈ w, c.toNat < 128
  next : ∀ y w v z, x = y ++ w :: v :: z → m.cutTo whole w.length (w ++ v.take 1) false w.length = some [(0, w.length)]
  last : ∀ y w, x = y ++ [w] → m.cutTo whole w.length w true w.length = some [(0, w.length)]

/-- The tokens of the words. -/
def chainToks (o : Nat) : List Str → List Tok
  | [] => []
  | w :: x => abs o [(0, w.length)] ++ chainToks (o + w.length) x

theorem chain_sound (hs : Supplied src t) (hw : whole = true → Piece src t) {m : Parts} (x : List Str) : ChainRight m whole x →
    ∀ {l : Str} {toks : List Tok} {st : LSt}, Here src t whole l x.flatten toks st.lex →
    ∃ st' j, j ≤ x.flatten.length ∧
      (∀ n, turns (exec src u ω m.c) (exec src u ω m.p) m.g (n + j) st = turns (exec src u ω m.c) (exec src u ω m.p) m.g n st') ∧
      Here src t whole (l ++ x.flatten) [] (toks ++ chainToks (blen l) x) st'.lex := by
  induction x with
  | nil =>
    intro _ l toks st hl
    exact ⟨st, 0, Nat.le_refl _, fun n => rfl, by simpa [chainToks] using hl⟩
  | cons w x ih =>
    intro hx l toks st hl
    obtain ⟨hne, hwa⟩ := hx.ascii w (by simp)
    have hbw : blen w = w.length := ascii_len hwa
    have step : ∃ st' j, j ≤ w.length ∧
        (∀ n, turns (exec src u ω m.c) (exec src u ω m.p) m.g (n + j) st = turns (exec src u ω m.c) (exec src u ω m.p) m.g n st') ∧
        Here src t whole (l ++ w) x.flatten (toks ++ abs (blen l) [(0, w.length)]) st'.lex := by
      cases x with
      | nil =>
        have c1 : Cuts m whole w [] true [(0, w.length)] := ⟨by simpa using hx.last [] w rfl, by simpa using hwa⟩
        obtain ⟨st1, j1, a1, a2, a3⟩ := cuts_sound (u := u) (ω := ω) hs hw c1 (s := []) (fun _ => rfl) (by simpa using hl)
        exact ⟨st1, j1, a1, a2, by simpa using a3⟩
      | cons v z =>
        obtain ⟨hne', hva⟩ := hx.ascii v (by simp)
        obtain ⟨c, cs, rfl⟩ : ∃ c cs, v = c :: cs := by
          cases v with
          | nil => exact absurd rfl hne'
          | cons c cs => exact ⟨c, cs, rfl⟩
        have c1 : Cuts m whole w [c] false [(0, w.length)] := ⟨hx.next [] w (c :: cs) z rfl, by
          intro d hd
          rcases List.mem_append.mp hd with hd | hd
          · exact hwa d hd
          · simp at hd; subst hd; exact hva _ (by simp)⟩
        obtain ⟨st1, j1, a1, a2, a3⟩ := cuts_sound (u := u) (ω := ω) hs hw c1 (s := cs ++ z.flatten) (by simp) (by simpa using hl)
        exact ⟨st1, j1, a1, a2, by simpa using a3⟩
    obtain ⟨st1, j1, a1, a2, a3⟩ := step
    have hx' : ChainRight m whole x := ⟨fun w hw => hx.ascii w (by simp [hw]), fun y w' v z e => hx.next (w :: y) w' v z (by simp [e]),
      fun y w' e => hx.last (w :: y) w' (by simp [e])⟩
    obtain ⟨st2, j2, b1, b2, b3⟩ := ih hx' a3
    refine ⟨st2, j2 + j1, by rw [List.flatten_cons, List.length_append]; omega, fun n => by rw [← Nat.add_assoc, a2, b2], ?_⟩
    rw [blen_append, hbw] at b3
    simpa [chainToks, List.append_assoc] using b3

theorem chains_sound (hs : Supplied src t) (hw : whole = true → Piece src t) {p : Code} {m : Parts} (hm : partsOf p = some m) (hq : m.quiet whole = true)
    {ending : List (Nat × Nat)} (hend : m.ending whole = some ending) {x : List Str} (hx : ChainRight m whole x) (ht : t = x.flatten) (ω : Nat → Nat) :
    scanAll src u ω p = .ok (chainToks 0 x ++ abs (blen t) ending) := by
  refine run_sound hs hw hm hq hend fun h => ?_
  have := chain_sound (u := u) (ω := ω) hs hw x hx (l := []) (toks := []) (by rw [← ht]; exact h)
  simpa [← ht] using this

end

end Oaks.Lc
