import Verif.Proofs.ProgRun

/-! What a parser does on all token streams that begin in a given way: it ends, or it comes back to where it was and never ends. -/
namespace Oaks

/-- What is known of a run: it goes on for ever, or it ends like this in front of the token with this number. -/
inductive Sim where
  | stuck
  | out (o : Prog.Out) (i : Nat)
deriving DecidableEq

namespace Prog.Head

/-- Only ignored kinds are possible. -/
def noisy (ign : List Nat) (h : Head) : Bool := !h.neg && h.ks.all (fun k => ign.contains k)
/-- No ignored kind is possible. -/
def quiet (ign : List Nat) (h : Head) : Bool := if h.neg then ign.all (fun k => h.ks.contains k) else h.ks.all (fun k => !ign.contains k)
/-- Is this kind certainly next, certainly not next? -/
def sure (h : Head) (k : Nat) : Option Bool :=
  if h.ks.contains k == h.neg then some false
  else if !h.neg && h.ks.all (fun x => x == k) then some true
  else none

variable {h : Head} {ign : List Nat} {k x : Nat}

theorem noisy_has (hn : h.noisy ign = true) (hx : h.has (some x) = true) : ign.contains x = true := by
  unfold noisy at hn
  unfold has at hx
  simp only [Bool.and_eq_true, Bool.not_eq_true', List.all_eq_true] at hn
  rw [hn.1] at hx
  exact hn.2 x (by simpa using hx)

theorem quiet_has (hq : h.quiet ign = true) (hx : h.has (some x) = true) : ign.contains x = false := by
  unfold quiet at hq
  unfold has at hx
  cases hneg : h.neg with
  | true =>
    rw [hneg] at hq hx
    simp only [if_true, List.all_eq_true] at hq
    cases hc : ign.contains x with
    | false => rfl
    | true =>
      have := hq x (by simpa using hc)
      simp only [this] at hx
      exact absurd hx (by decide)
  | false =>
    rw [hneg] at hq hx
    simp only [Bool.false_eq_true, if_false, List.all_eq_true] at hq
    have := hq x (by simpa using hx)
    simpa using this

theorem sure_has {b : Bool} (hb : h.sure k = some b) (hx : h.has (some x) = true) : decide (x = k) = b := by
  unfold sure at hb
  unfold has at hx
  split at hb
  · rename_i h1
    injection hb with hb; subst hb
    apply decide_eq_false
    rintro rfl
    simp only [beq_iff_eq] at h1
    simp only [h1] at hx
    simp at hx
  · split at hb
    · rename_i h2
      injection hb with hb; subst hb
      apply decide_eq_true
      simp only [Bool.and_eq_true, Bool.not_eq_true', List.all_eq_true, beq_iff_eq] at h2
      rw [h2.1] at hx
      exact h2.2 x (by simpa using hx)
    · simp at hb

end Prog.Head

/-- The tokens begin in this way. -/
def Begins (hs : List Prog.Head) (toks : List Tok) : Prop :=
  ∀ (i : Nat) (h : Prog.Head), hs[i]? = some h → ∃ t, toks[i]? = some t ∧ h.has (some t.kind) = true

theorem Begins.nil (toks : List Tok) : Begins [] toks := by intro i h hi; simp at hi

theorem Begins.cons {h : Prog.Head} {hs : List Prog.Head} {t : Tok} {toks : List Tok} (ht : h.has (some t.kind) = true) (hb : Begins hs toks) :
    Begins (h :: hs) (t :: toks) := by
  intro i h' hi
  cases i with
  | zero => simp at hi; subst hi; exact ⟨t, rfl, ht⟩
  | succ i => exact hb i h' (by simpa using hi)

namespace Prog

/-- The number of the next token that is not ignored. -/
def solid (ign : List Nat) : List Head → Nat → Option Nat
  | [], _ => none
  | h :: hs, i => if h.noisy ign then solid ign hs (i + 1) else if h.quiet ign then some i else none

/-- The turns of a loop. -/
def simTurns (c b : Nat → Option Sim) : Nat → Nat → Option Sim
  | 0, _ => none
  | fuel + 1, i =>
    match c i with
    | some (.out (.val true) j) =>
      match b j with
      | some (.out (.val _) k) => if k = i then some .stuck else simTurns c b fuel k
      | some (.out .cont k) => if k = i then some .stuck else simTurns c b fuel k
      | some (.out .brk k) => some (.out (.val true) k)
      | r => r
    | some (.out (.val false) j) => some (.out (.val true) j)
    | r => r

/-- What a statement does in front of a token, as far as it can be told from the beginning of the tokens. -/
def sim (ign : List Nat) (hs : List Head) (calls : Nat → Nat → Option Sim) : Prog → Nat → Option Sim
  | val b, i => some (.out (.val b) i)
  | sees k, i => (hs[i]?).bind fun h => (h.sure k).map fun b => .out (.val b) i
  | more, i => (hs[i]?).map fun _ => .out (.val true) i
  | bump, i => (hs[i]?).bind fun _ => (solid ign (hs.drop (i + 1)) (i + 1)).map fun j => .out (.val true) j
  | advance, i => (solid ign (hs.drop (i + 1)) (i + 1)).map fun j => .out (.val true) j
  | eat k, i => (hs[i]?).bind fun h =>
    match h.sure k with
    | some true => (solid ign (hs.drop (i + 1)) (i + 1)).map fun j => .out (.val true) j
    | some false => some (.out (.val false) i)
    | none => none
  | expect k, i => (hs[i]?).bind fun h =>
    match h.sure k with
    | some true => (solid ign (hs.drop (i + 1)) (i + 1)).map fun j => .out (.val true) j
    | some false => some (.out (.val false) i)
    | none => none
  | need k, i => (hs[i]?).bind fun h =>
    match h.sure k with
    | some true => (solid ign (hs.drop (i + 1)) (i + 1)).map fun j => .out (.val true) j
    | some false => some (.out .err i)
    | none => none
  | fail _ _, i => some (.out .err i)
  | set _ _, i => some (.out (.val true) i)
  | finish _, i => some (.out (.val true) i)
  | mark p, i => sim ign hs calls p i
  | within _ p, i => sim ign hs calls p i
  | remark, i => some (.out (.val true) i)
  | seq a b, i =>
    match sim ign hs calls a i with
    | some (.out (.val _) j) => sim ign hs calls b j
    | r => r
  | ite c a b, i =>
    match sim ign hs calls c i with
    | some (.out (.val true) j) => sim ign hs calls a j
    | some (.out (.val false) j) => sim ign hs calls b j
    | r => r
  | loop c b, i => simTurns (sim ign hs calls c) (sim ign hs calls b) (hs.length + 1) i
  | brk, i => some (.out .brk i)
  | cont, i => some (.out .cont i)
  | ret b, i => some (.out (.ret b) i)
  | catch_ p, i =>
    match sim ign hs calls p i with
    | some (.out .err j) => some (.out (.val false) j)
    | r => r
  | call f, i => calls f i
  | _, _ => none

/-- What a function does. -/
def simCalls (ign : List Nat) (hs : List Head) (procs : List Prog) : Nat → Nat → Nat → Option Sim
  | 0, _, _ => none
  | depth + 1, f, i => (procs[f]?).bind fun p =>
    match sim ign hs (simCalls ign hs procs depth) p i with
    | some (.out (.ret b) j) => some (.out (.val b) j)
    | r => r

/-- A statement does what is known of it. -/
def Meets (ign : List Nat) (toks : List Tok) (f : Loc → PState → Run (Out × Loc × PState)) (i : Nat) : Sim → Prop
  | .stuck => ∀ l s, Sound (fun k => ign.contains k) false toks s → l.cp.2 ≤ s.sink.length → s.index = i → f l s = .error .spin
  | .out o j => ∀ l s, Sound (fun k => ign.contains k) false toks s → l.cp.2 ≤ s.sink.length → s.index = i →
      f l s = .error .spin ∨ ∃ l' s', f l s = .ok (o, l', s') ∧ Kept (fun k => ign.contains k) false toks l s o l' s' ∧ s'.index = j

/-- A function does what is known of it. -/
def CallMeets (ign : List Nat) (toks : List Tok) (f : PState → Run (Out × PState)) (i : Nat) : Sim → Prop
  | .stuck => ∀ s, Sound (fun k => ign.contains k) false toks s → s.index = i → f s = .error .spin
  | .out o j => ∀ s, Sound (fun k => ign.contains k) false toks s → s.index = i →
      f s = .error .spin ∨ ∃ s', f s = .ok (o, s') ∧ Sound (fun k => ign.contains k) false toks s' ∧ Moves s.sink.length s s' ∧
        (o = .err → s.errors.length < s'.errors.length) ∧ s'.index = j

variable {ign : List Nat} {hs : List Head} {toks : List Tok} {s s' : PState} {i j : Nat}

theorem solid_spec (hb : Begins hs toks) : ∀ (a : Nat), solid ign (hs.drop a) a = some j →
    a ≤ j ∧ (∀ x t, a ≤ x → x < j → toks[x]? = some t → ign.contains t.kind = true) ∧
      ∃ t, toks[j]? = some t ∧ ign.contains t.kind = false := by
  suffices H : ∀ (n a : Nat), n = (hs.drop a).length → solid ign (hs.drop a) a = some j →
      a ≤ j ∧ (∀ x t, a ≤ x → x < j → toks[x]? = some t → ign.contains t.kind = true) ∧
        ∃ t, toks[j]? = some t ∧ ign.contains t.kind = false from fun a => H _ a rfl
  intro n
  induction n with
  | zero =>
    intro a hn h
    rw [List.length_eq_zero_iff.mp hn.symm] at h
    simp [solid] at h
  | succ n ih =>
    intro a hn h
    cases hd : hs.drop a with
    | nil => rw [hd] at hn; simp at hn
    | cons x xs =>
      have h0 : hs[a]? = some x := by
        have := congrArg (fun l => l[0]?) hd
        simpa using this
      have h1 : xs = hs.drop (a + 1) := by
        have := congrArg List.tail hd
        simpa using this.symm
      rw [hd, solid] at h
      obtain ⟨t, ht, hk⟩ := hb _ _ h0
      split at h
      · rename_i hno
        rw [h1] at h
        obtain ⟨k1, k2, k3⟩ := ih (a + 1) (by rw [← h1]; rw [hd] at hn; simpa using hn) h
        refine ⟨by omega, ?_, k3⟩
        intro y u hy hyj hu
        by_cases hya : y = a
        · subst hya
          rw [ht] at hu; injection hu with hu; subst hu
          exact Head.noisy_has hno hk
        · exact k2 y u (by omega) hyj hu
      · split at h
        · rename_i hq
          injection h with h; subst h
          exact ⟨Nat.le_refl _, fun _ _ _ _ => by omega, t, ht, Head.quiet_has hq hk⟩
        · simp at h

theorem skip_index (hb : Begins hs toks) (ht : s.tokens = toks) (h : solid ign (hs.drop s.index) s.index = some j)
    (hs' : s.skipTrivia (fun k => ign.contains k) = .ok s') : s'.index = j := by
  obtain ⟨k, es, h1, _, _, h4, h5⟩ := skipTrivia_spec (ign := fun k => ign.contains k) s
  rw [h1] at hs'
  injection hs' with hs'; subst hs'
  obtain ⟨k1, k2, t, k3, k4⟩ := solid_spec hb _ h
  rw [ht] at h4 h5
  show s.index + k = j
  rcases Nat.lt_trichotomy (s.index + k) j with hlt | heq | hgt
  · have hlen : s.index + k < toks.length := by
      have := (List.getElem?_eq_some_iff.mp k3).1; omega
    have hg : toks[s.index + k]? = some toks[s.index + k] := List.getElem?_eq_getElem hlen
    have := h5 _ hg
    rw [k2 _ _ (by omega) hlt hg] at this
    simp at this
  · exact heq
  · have hmem : t ∈ (toks.drop s.index).take k := by
      apply List.mem_of_getElem? (i := j - s.index)
      rw [List.getElem?_take_of_lt (by omega), List.getElem?_drop]
      rw [← k3]; congr 1; omega
    have := h4 t hmem
    rw [k4] at this
    simp at this

theorem sure_peek (hb : Begins hs toks) (hsd : s.tokens = toks) {h : Head} (hh : hs[s.index]? = some h) {k : Nat} {b : Bool}
    (hk : h.sure k = some b) : s.atKind k = b := by
  obtain ⟨t, ht, hx⟩ := hb _ _ hh
  have := Head.sure_has hk hx
  unfold PState.atKind PState.peekKind PState.current
  rw [hsd, ht]
  simpa [beq_eq_decide] using this

theorem bump_index (hb : Begins hs toks) (hsd : s.tokens = toks) {h : Head} (hh : hs[s.index]? = some h)
    (hso : solid ign (hs.drop (s.index + 1)) (s.index + 1) = some j) (hs' : s.bump (fun k => ign.contains k) = .ok s') : s'.index = j := by
  obtain ⟨t, ht, _⟩ := hb _ _ hh
  unfold PState.bump PState.current at hs'
  rw [hsd, ht] at hs'
  exact skip_index (s := (s.pushLeaf t.kind t.length).tokenAdvance) hb hsd hso hs'

variable {src : Source} {slack : Nat}

theorem meets_same {f : Loc → PState → Run (Out × Loc × PState)} {o : Out} (ho : o ≠ .err) (h : ∀ l s, f l s = .ok (o, l, s)) :
    Meets ign toks f i (.out o i) := fun l s hsd hcp hi => .inr ⟨l, s, h l s, Kept.same hsd hcp ho, hi⟩

theorem simTurns_meets {c b : Loc → PState → Run (Out × Loc × PState)} {sc sb : Nat → Option Sim}
    (hc : ∀ i r, sc i = some r → Meets ign toks c i r) (hb : ∀ i r, sb i = some r → Meets ign toks b i r) (n : Nat) :
    ∀ (fuel i : Nat) r, simTurns sc sb n i = some r → Meets ign toks (turns c b fuel) i r := by
  induction n with
  | zero => intro fuel i r h; simp [simTurns] at h
  | succ n ih =>
    intro fuel i r h
    rw [simTurns] at h
    have hz : ∀ r, Meets ign toks (turns c b 0) i r := by
      intro r
      cases r with
      | stuck => intro l s _ _ _; rfl
      | out o j => intro l s _ _ _; exact .inl rfl
    have hspin : ∀ {l s} (fuel : Nat), c l s = .error .spin → turns c b (fuel + 1) l s = .error .spin := by
      intro l s fuel h; rw [turns, h]
    have hround : ∀ j k (o : Out), (o = .cont ∨ ∃ v, o = .val v) → sc i = some (.out (.val true) j) → sb j = some (.out o k) →
        (if k = i then some Sim.stuck else simTurns sc sb n k) = some r → Meets ign toks (turns c b fuel) i r := by
      intro j k o ho hcj hbk hr
      have mc := hc _ _ hcj
      have mb := hb _ _ hbk
      have step : ∀ (fuel : Nat) l s, Sound (fun k => ign.contains k) false toks s → l.cp.2 ≤ s.sink.length → s.index = i →
          turns c b (fuel + 1) l s = .error .spin ∨ ∃ l' s' o', turns c b (fuel + 1) l s = turns c b fuel l' s' ∧
            Kept (fun k => ign.contains k) false toks l s o' l' s' ∧ s'.index = k := by
        intro fuel l s h1 h2 h3
        rcases mc l s h1 h2 h3 with h4 | ⟨l1, s1, h4, h5, h6⟩
        · exact .inl (hspin _ h4)
        · rcases mb l1 s1 h5.sound h5.here h6 with h7 | ⟨l2, s2, h7, h8, h9⟩
          · left; rw [turns, h4]; simp only [h7]
          · refine .inr ⟨l2, s2, o, ?_, h5.trans h8, h9⟩
            rw [turns, h4]
            rcases ho with rfl | ⟨v, rfl⟩ <;> simp only [h7]
      split at hr
      · rename_i hki
        injection hr with hr; subst hr
        subst hki
        clear hz
        induction fuel with
        | zero => intro l s _ _ _; rfl
        | succ fuel ihf =>
          intro l s h1 h2 h3
          rcases step fuel l s h1 h2 h3 with h4 | ⟨l1, s1, o1, h4, h5, h6⟩
          · exact h4
          · rw [h4]; exact ihf l1 s1 h5.sound h5.here h6
      · cases fuel with
        | zero => exact hz r
        | succ fuel =>
          have hi := ih fuel _ _ hr
          cases r with
          | stuck =>
            intro l s h1 h2 h3
            rcases step fuel l s h1 h2 h3 with h4 | ⟨l1, s1, o1, h4, h5, h6⟩
            · exact h4
            · rw [h4]; exact hi l1 s1 h5.sound h5.here h6
          | out o2 j2 =>
            intro l s h1 h2 h3
            rcases step fuel l s h1 h2 h3 with h4 | ⟨l1, s1, o1, h4, h5, h6⟩
            · exact .inl h4
            · rw [h4]
              rcases hi l1 s1 h5.sound h5.here h6 with h7 | ⟨l2, s2, h7, h8, h9⟩
              · exact .inl h7
              · exact .inr ⟨l2, s2, h7, h5.trans h8, h9⟩
    split at h
    · rename_i j hcj
      split at h
      · rename_i v k hbk; exact hround j k _ (.inr ⟨_, rfl⟩) hcj hbk h
      · rename_i k hbk; exact hround j k _ (.inl rfl) hcj hbk h
      · rename_i k hbk
        injection h with h; subst h
        cases fuel with
        | zero => exact hz _
        | succ fuel =>
          intro l s h1 h2 h3
          rcases hc _ _ hcj l s h1 h2 h3 with h4 | ⟨l1, s1, h4, h5, h6⟩
          · exact .inl (hspin _ h4)
          · rcases hb _ _ hbk l1 s1 h5.sound h5.here h6 with h7 | ⟨l2, s2, h7, h8, h9⟩
            · left; rw [turns, h4]; simp only [h7]
            · exact .inr ⟨l2, s2, by rw [turns, h4]; simp only [h7], (h5.trans h8).out (by simp), h9⟩
      · rename_i hv hcn hbr
        cases fuel with
        | zero => exact hz _
        | succ fuel =>
          have mb := hb _ _ h
          cases r with
          | stuck =>
            intro l s h1 h2 h3
            rcases hc _ _ hcj l s h1 h2 h3 with h4 | ⟨l1, s1, h4, h5, h6⟩
            · exact hspin _ h4
            · rw [turns, h4]; simp only [mb l1 s1 h5.sound h5.here h6]
          | out o k =>
            intro l s h1 h2 h3
            rcases hc _ _ hcj l s h1 h2 h3 with h4 | ⟨l1, s1, h4, h5, h6⟩
            · exact .inl (hspin _ h4)
            · rcases mb l1 s1 h5.sound h5.here h6 with h7 | ⟨l2, s2, h7, h8, h9⟩
              · left; rw [turns, h4]; simp only [h7]
              · refine .inr ⟨l2, s2, ?_, h5.trans h8, h9⟩
                rw [turns, h4]
                cases o with
                | val v => exact absurd h (hv _ _)
                | cont => exact absurd h (hcn _)
                | brk => exact absurd h (hbr _)
                | ret v => simp only [h7]
                | err => simp only [h7]
    · rename_i j hcj
      injection h with h; subst h
      cases fuel with
      | zero => exact hz _
      | succ fuel =>
        intro l s h1 h2 h3
        rcases hc _ _ hcj l s h1 h2 h3 with h4 | ⟨l1, s1, h4, h5, h6⟩
        · exact .inl (hspin _ h4)
        · exact .inr ⟨l1, s1, by rw [turns, h4], h5.out (by simp), h6⟩
    · rename_i ht hf
      cases fuel with
      | zero => exact hz _
      | succ fuel =>
        have mc := hc _ _ h
        cases r with
        | stuck => intro l s h1 h2 h3; exact hspin _ (mc l s h1 h2 h3)
        | out o k =>
          intro l s h1 h2 h3
          rcases mc l s h1 h2 h3 with h4 | ⟨l1, s1, h4, h5, h6⟩
          · exact .inl (hspin _ h4)
          · refine .inr ⟨l1, s1, ?_, h5, h6⟩
            rw [turns, h4]
            cases o with
            | val v => cases v with
              | true => exact absurd h (ht _)
              | false => exact absurd h (hf _)
            | cont => rfl
            | brk => rfl
            | ret v => rfl
            | err => rfl

theorem sim_meets (hl : (toks.map Tok.length).sum < 2 ^ 32) (hb : Begins hs toks) {cs : Nat → PState → Run (Out × PState)}
    {sc : Nat → Nat → Option Sim} (hcs : ∀ f i r, sc f i = some r → CallMeets ign toks (cs f) i r) (p : Prog) :
    ∀ i r, sim ign hs sc p i = some r → Meets ign toks (exec (fun k => ign.contains k) src slack cs p) i r := by
  induction p with
  | val b => intro i r h; injection h with h; subst h; exact meets_same (by simp) fun _ _ => rfl
  | sees k =>
    intro i r h
    simp only [sim, Option.bind_eq_some_iff, Option.map_eq_some_iff] at h
    obtain ⟨h0, h1, b, h2, rfl⟩ := h
    intro l s hsd hcp hi
    subst hi
    exact .inr ⟨l, s, by rw [exec, sure_peek hb hsd.tokens h1 h2], Kept.same hsd hcp (by simp), rfl⟩
  | more =>
    intro i r h
    simp only [sim, Option.map_eq_some_iff] at h
    obtain ⟨h0, h1, rfl⟩ := h
    intro l s hsd hcp hi
    subst hi
    obtain ⟨t, ht, _⟩ := hb _ _ h1
    have : decide (s.index < s.tokens.length) = true := decide_eq_true (by rw [hsd.tokens]; exact (List.getElem?_eq_some_iff.mp ht).1)
    exact .inr ⟨l, s, by rw [exec, this], Kept.same hsd hcp (by simp), rfl⟩
  | ask f => intro i r h; simp [sim] at h
  | bump =>
    intro i r h
    simp only [sim, Option.bind_eq_some_iff, Option.map_eq_some_iff] at h
    obtain ⟨h0, h1, j, h2, rfl⟩ := h
    intro l s hsd hcp hi
    subst hi
    obtain ⟨s1, k1, k2, k3, _⟩ := hsd.bump hl hcp
    exact .inr ⟨l, s1, by simp only [exec, k1, run_bind_ok, run_pure], ⟨k2, k3, k3.le, Nat.le_refl _, by simp⟩,
      bump_index hb hsd.tokens h1 h2 k1⟩
  | advance =>
    intro i r h
    simp only [sim, Option.map_eq_some_iff] at h
    obtain ⟨j, h2, rfl⟩ := h
    intro l s hsd hcp hi
    subst hi
    obtain ⟨s1, k1, k2, k3, _⟩ := hsd.advance hl hcp
    refine .inr ⟨l, s1, by simp only [exec, k1, run_bind_ok, run_pure], ⟨k2, k3, k3.le, Nat.le_refl _, by simp⟩, ?_⟩
    exact skip_index (s := s.tokenAdvance) hb hsd.tokens h2 k1
  | eat k =>
    intro i r h
    simp only [sim, Option.bind_eq_some_iff] at h
    obtain ⟨h0, h1, h2⟩ := h
    split at h2
    · rename_i hk
      simp only [Option.map_eq_some_iff] at h2
      obtain ⟨j, h3, rfl⟩ := h2
      intro l s hsd hcp hi
      subst hi
      have ha := sure_peek hb hsd.tokens h1 hk
      obtain ⟨s1, k1, k2, k3, _⟩ := hsd.bump hl hcp
      refine .inr ⟨l, s1, ?_, ⟨k2, k3, k3.le, Nat.le_refl _, by simp⟩, bump_index hb hsd.tokens h1 h3 k1⟩
      simp only [exec, PState.eat, ha, if_true, k1, run_bind_ok, run_pure]
    · rename_i hk
      injection h2 with h2; subst h2
      intro l s hsd hcp hi
      subst hi
      have ha := sure_peek hb hsd.tokens h1 hk
      exact .inr ⟨l, s, by simp [exec, PState.eat, ha], Kept.same hsd hcp (by simp), rfl⟩
    · simp at h2
  | expect k =>
    intro i r h
    simp only [sim, Option.bind_eq_some_iff] at h
    obtain ⟨h0, h1, h2⟩ := h
    split at h2
    · rename_i hk
      simp only [Option.map_eq_some_iff] at h2
      obtain ⟨j, h3, rfl⟩ := h2
      intro l s hsd hcp hi
      subst hi
      have ha := sure_peek hb hsd.tokens h1 hk
      obtain ⟨s1, k1, k2, k3, _⟩ := hsd.bump hl hcp
      refine .inr ⟨l, s1, ?_, ⟨k2, k3, k3.le, Nat.le_refl _, by simp⟩, bump_index hb hsd.tokens h1 h3 k1⟩
      simp only [exec, PState.expect, PState.eat, ha, if_true, k1, run_bind_ok, run_pure]
    · rename_i hk
      injection h2 with h2; subst h2
      intro l s hsd hcp hi
      subst hi
      have ha := sure_peek hb hsd.tokens h1 hk
      refine .inr ⟨l, s.record 1, by simp [exec, PState.expect, PState.eat, ha], ?_, rfl⟩
      exact ⟨hsd.record _, Moves.record hcp _, hcp, Nat.le_refl _, by simp⟩
    · simp at h2
  | need k =>
    intro i r h
    simp only [sim, Option.bind_eq_some_iff] at h
    obtain ⟨h0, h1, h2⟩ := h
    split at h2
    · rename_i hk
      simp only [Option.map_eq_some_iff] at h2
      obtain ⟨j, h3, rfl⟩ := h2
      intro l s hsd hcp hi
      subst hi
      have ha := sure_peek hb hsd.tokens h1 hk
      obtain ⟨s1, k1, k2, k3, _⟩ := hsd.bump hl hcp
      refine .inr ⟨l, s1, ?_, ⟨k2, k3, k3.le, Nat.le_refl _, by simp⟩, bump_index hb hsd.tokens h1 h3 k1⟩
      simp only [exec, PState.expect, PState.eat, ha, if_true, k1, run_bind_ok, run_pure]
    · rename_i hk
      injection h2 with h2; subst h2
      intro l s hsd hcp hi
      subst hi
      have ha := sure_peek hb hsd.tokens h1 hk
      refine .inr ⟨l, s.record 1, by simp [exec, PState.expect, PState.eat, ha], ?_, rfl⟩
      exact ⟨hsd.record _, Moves.record hcp _, hcp, Nat.le_refl _, by intro _; simp [PState.record]⟩
    · simp at h2
  | fail c f =>
    intro i r h
    injection h with h; subst h
    intro l s hsd hcp hi
    exact .inr ⟨l, _, rfl, ⟨hsd.record _, Moves.record hcp _, hcp, Nat.le_refl _, by simp⟩, hi⟩
  | set r f =>
    intro i r h
    injection h with h; subst h
    intro l s hsd hcp hi
    exact .inr ⟨_, s, rfl, ⟨hsd, Moves.refl hcp, hcp, Nat.le_refl _, by simp⟩, hi⟩
  | finish k =>
    intro i r h
    injection h with h; subst h
    intro l s hsd hcp hi
    obtain ⟨s1, h1, h2, h3, h4, _⟩ := hsd.finish hl hcp (k l.regs)
    exact .inr ⟨l, s1, by simp only [exec, h1, run_bind_ok, run_pure], ⟨h2, h3, h3.le, Nat.le_refl _, by simp⟩, h4.trans hi⟩
  | remark =>
    intro i r h
    injection h with h; subst h
    intro l s hsd hcp hi
    exact .inr ⟨_, s, rfl, ⟨hsd, Moves.refl hcp, Nat.le_refl _, hcp, by simp⟩, hi⟩
  | again => intro i r h; simp [sim] at h
  | back => intro i r h; simp [sim] at h
  | brk => intro i r h; injection h with h; subst h; exact meets_same (by simp) fun _ _ => rfl
  | cont => intro i r h; injection h with h; subst h; exact meets_same (by simp) fun _ _ => rfl
  | ret b => intro i r h; injection h with h; subst h; exact meets_same (by simp) fun _ _ => rfl
  | mark p ih =>
    intro i r h
    have m := ih i r h
    cases r with
    | stuck =>
      intro l s hsd hcp hi
      simp only [exec, m { l with cp := s.checkpoint } s hsd (Nat.le_refl _) hi]
    | out o j =>
      intro l s hsd hcp hi
      rcases m { l with cp := s.checkpoint } s hsd (Nat.le_refl _) hi with h1 | ⟨l1, s1, h1, k1, h3⟩
      · left; simp only [exec, h1]
      · exact .inr ⟨{ l1 with cp := l.cp }, s1, by simp only [exec, h1],
          ⟨k1.sound, k1.moves.mono hcp, Nat.le_trans hcp k1.moves.le, Nat.le_refl _, k1.err⟩, h3⟩
  | within k p ih =>
    intro i r h
    have m := ih i r h
    cases r with
    | stuck =>
      intro l s hsd hcp hi
      simp only [exec, m { l with cp := s.checkpoint } s hsd (Nat.le_refl _) hi]
    | out o j =>
      intro l s hsd hcp hi
      rcases m { l with cp := s.checkpoint } s hsd (Nat.le_refl _) hi with h1 | ⟨l1, s1, h1, k1, h3⟩
      · left; simp only [exec, h1]
      · obtain ⟨s2, h2, k2, k3, k4, k5⟩ := k1.sound.finish hl (cp := s.checkpoint) k1.moves.le k
        have k6 := (k1.moves.trans k3).mono hcp
        exact .inr ⟨{ l1 with cp := l.cp }, s2, by simp only [exec, h1, h2],
          ⟨k2, k6, k6.le, Nat.le_refl _, fun he => by rw [k5]; exact k1.err he⟩, k4.trans h3⟩
  | seq a b iha ihb =>
    intro i r h
    simp only [sim] at h
    split at h
    · rename_i v j ha
      have ma := iha _ _ ha
      have mb := ihb _ _ h
      cases r with
      | stuck =>
        intro l s hsd hcp hi
        rcases ma l s hsd hcp hi with h1 | ⟨l1, s1, h1, k1, h3⟩
        · simp only [exec, h1]
        · simp only [exec, h1, mb l1 s1 k1.sound k1.here h3]
      | out o k =>
        intro l s hsd hcp hi
        rcases ma l s hsd hcp hi with h1 | ⟨l1, s1, h1, k1, h3⟩
        · left; simp only [exec, h1]
        · rcases mb l1 s1 k1.sound k1.here h3 with h4 | ⟨l2, s2, h4, k2, h6⟩
          · left; simp only [exec, h1, h4]
          · exact .inr ⟨l2, s2, by simp only [exec, h1, h4], k1.trans k2, h6⟩
    · rename_i hn
      have ma := iha _ _ h
      cases r with
      | stuck => intro l s hsd hcp hi; simp only [exec, ma l s hsd hcp hi]
      | out o k =>
        intro l s hsd hcp hi
        rcases ma l s hsd hcp hi with h1 | ⟨l1, s1, h1, k1, h3⟩
        · left; simp only [exec, h1]
        · refine .inr ⟨l1, s1, ?_, k1, h3⟩
          cases o with
          | val v => exact absurd h (hn _ _)
          | _ => simp only [exec, h1]
  | ite c a b ihc iha ihb =>
    intro i r h
    simp only [sim] at h
    have key : ∀ v j (p : Prog), sim ign hs sc c i = some (.out (.val v) j) → sim ign hs sc p j = some r →
        Meets ign toks (exec (fun k => ign.contains k) src slack cs p) j r → p = (if v then a else b) →
        Meets ign toks (exec (fun k => ign.contains k) src slack cs (ite c a b)) i r := by
      intro v j p hc hp mp hpe
      have mc := ihc _ _ hc
      cases r with
      | stuck =>
        intro l s hsd hcp hi
        rcases mc l s hsd hcp hi with h1 | ⟨l1, s1, h1, k1, h3⟩
        · simp only [exec, h1]
        · have := mp l1 s1 k1.sound k1.here h3
          subst hpe
          cases v <;> simpa only [exec, h1, Bool.false_eq_true, if_false, if_true] using this
      | out o k =>
        intro l s hsd hcp hi
        rcases mc l s hsd hcp hi with h1 | ⟨l1, s1, h1, k1, h3⟩
        · left; simp only [exec, h1]
        · have := mp l1 s1 k1.sound k1.here h3
          subst hpe
          rcases this with h4 | ⟨l2, s2, h4, k2, h6⟩
          · left; cases v <;> simpa only [exec, h1, Bool.false_eq_true, if_false, if_true] using h4
          · exact .inr ⟨l2, s2, by cases v <;> simpa only [exec, h1, Bool.false_eq_true, if_false, if_true] using h4, k1.trans k2, h6⟩
    split at h
    · rename_i j hc; exact key _ _ a hc h (iha _ _ h) rfl
    · rename_i j hc; exact key _ _ b hc h (ihb _ _ h) rfl
    · rename_i ht hf
      have mc := ihc _ _ h
      cases r with
      | stuck => intro l s hsd hcp hi; simp only [exec, mc l s hsd hcp hi]
      | out o k =>
        intro l s hsd hcp hi
        rcases mc l s hsd hcp hi with h1 | ⟨l1, s1, h1, k1, h3⟩
        · left; simp only [exec, h1]
        · refine .inr ⟨l1, s1, ?_, k1, h3⟩
          cases o with
          | val v => cases v with
            | true => exact absurd h (ht _)
            | false => exact absurd h (hf _)
          | _ => simp only [exec, h1]
  | loop c b ihc ihb =>
    intro i r h
    have m := fun fuel => simTurns_meets ihc ihb _ fuel i r h
    cases r with
    | stuck => intro l s hsd hcp hi; exact m _ l s hsd hcp hi
    | out o j => intro l s hsd hcp hi; exact m _ l s hsd hcp hi
  | catch_ p ih =>
    intro i r h
    simp only [sim] at h
    split at h
    · rename_i j hp
      injection h with h; subst h
      have m := ih _ _ hp
      intro l s hsd hcp hi
      rcases m l s hsd hcp hi with h1 | ⟨l1, s1, h1, k1, h3⟩
      · left; simp only [exec, h1]
      · exact .inr ⟨l1, s1, by simp only [exec, h1], k1.out (by simp), h3⟩
    · rename_i hn
      have m := ih _ _ h
      cases r with
      | stuck => intro l s hsd hcp hi; simp only [exec, m l s hsd hcp hi]
      | out o k =>
        intro l s hsd hcp hi
        rcases m l s hsd hcp hi with h1 | ⟨l1, s1, h1, k1, h3⟩
        · left; simp only [exec, h1]
        · refine .inr ⟨l1, s1, ?_, k1, h3⟩
          cases o with
          | err => exact absurd h (hn _)
          | _ => simp only [exec, h1]
  | call f =>
    intro i r h
    have m := hcs _ _ _ h
    cases r with
    | stuck => intro l s hsd hcp hi; simp only [exec, m s hsd hi]
    | out o j =>
      intro l s hsd hcp hi
      rcases m s hsd hi with h1 | ⟨s1, h1, k1, k2, k3, h3⟩
      · left; simp only [exec, h1]
      · exact .inr ⟨l, s1, by simp only [exec, h1], ⟨k1, k2.mono hcp, Nat.le_trans hcp k2.le, Nat.le_refl _, k3⟩, h3⟩

theorem simCalls_meets (hl : (toks.map Tok.length).sum < 2 ^ 32) (hb : Begins hs toks) {procs : List Prog} (n : Nat) :
    ∀ (depth f i : Nat) r, simCalls ign hs procs n f i = some r →
      CallMeets ign toks (calls (fun k => ign.contains k) src slack procs depth f) i r := by
  induction n with
  | zero => intro depth f i r h; simp [simCalls] at h
  | succ n ih =>
    intro depth f i r h
    cases depth with
    | zero =>
      cases r with
      | stuck => intro s _ _; rfl
      | out o j => intro s _ _; exact .inl rfl
    | succ depth =>
      simp only [simCalls, Option.bind_eq_some_iff] at h
      obtain ⟨p, hp, h⟩ := h
      have m := fun i r => sim_meets (src := src) (slack := slack) hl hb (fun f i r => ih depth f i r) p i r
      split at h
      · rename_i b j h0
        injection h with h; subst h
        intro s hsd hi
        rcases m _ _ h0 ⟨s.checkpoint, fun _ => 0⟩ s hsd (Nat.le_refl _) hi with h1 | ⟨l1, s1, h1, k1, h3⟩
        · left; rw [calls]; simp only [hp, h1]
        · exact .inr ⟨s1, by rw [calls]; simp only [hp, h1], k1.sound, k1.moves, by simp, h3⟩
      · rename_i hn
        cases r with
        | stuck =>
          intro s hsd hi
          have := m _ _ h ⟨s.checkpoint, fun _ => 0⟩ s hsd (Nat.le_refl _) hi
          rw [calls]; simp only [hp, this]
        | out o j =>
          intro s hsd hi
          rcases m _ _ h ⟨s.checkpoint, fun _ => 0⟩ s hsd (Nat.le_refl _) hi with h1 | ⟨l1, s1, h1, k1, h3⟩
          · left; rw [calls]; simp only [hp, h1]
          · refine .inr ⟨s1, ?_, k1.sound, k1.moves, k1.err, h3⟩
            rw [calls]
            simp only [hp, h1]
            cases o with
            | ret b => exact absurd h (hn _ _)
            | _ => rfl

end Prog

/-- What a parser does on tokens that begin like this. -/
def HandParser.sim (h : HandParser) (hs : List Prog.Head) : Option Sim :=
  (Prog.solid h.ign hs 0).bind fun i => h.main.sim h.ign hs (Prog.simCalls h.ign hs h.procs (h.procs.length * (hs.length + 1) + 1)) i

namespace HandParser
open Prog

theorem parse_sim {h : HandParser} {hs : List Head} {r : Sim} (hr : h.sim hs = some r) {slack : Nat} {src : Source} {toks : List Tok}
    (hl : (toks.map Tok.length).sum < 2 ^ 32) (hb : Begins hs toks) :
    match r with
    | .stuck => h.parse slack src toks = .error .spin
    | .out .err _ => h.parse slack src toks = .error .spin ∨ ∃ errs, h.parse slack src toks = .ok (none, errs) ∧ errs ≠ []
    | .out _ _ => True := by
  unfold HandParser.sim at hr
  rw [Option.bind_eq_some_iff] at hr
  obtain ⟨i, hi, hr⟩ := hr
  obtain ⟨s, h1, h2, h3, h4⟩ := new_sound (ign := fun k => h.ign.contains k) (strict := false) (n := src.length) hl
  have hidx : s.index = i := by
    refine skip_index (s := PState.mk toks 0 [] 0 none [] src.length) hb rfl ?_ h1
    simpa using hi
  have hcp : (h.begins s).2 ≤ s.sink.length := by
    unfold begins
    split
    · exact Nat.zero_le _
    · exact Nat.le_refl _
  have m := fun depth => sim_meets (src := src) (slack := slack) hl hb
    (fun f i r => simCalls_meets (src := src) (slack := slack) (procs := h.procs) hl hb _ depth f i r) h.main i r hr
  cases r with
  | stuck =>
    simp only [parse]
    rw [h1, run_bind_ok, m _ _ s h2 hcp hidx]
    rfl
  | out o j =>
    cases o with
    | err =>
      simp only [parse]
      rw [h1, run_bind_ok]
      rcases m _ ⟨h.begins s, fun _ => 0⟩ s h2 hcp hidx with h5 | ⟨l1, s1, h5, h6, _⟩
      · left; rw [h5]; rfl
      · right
        refine ⟨s1.errors, by rw [h5, run_bind_ok]; rfl, ?_⟩
        have := h6.err rfl
        intro he
        rw [he] at this
        simp at this
    | _ => trivial

end HandParser
end Oaks
