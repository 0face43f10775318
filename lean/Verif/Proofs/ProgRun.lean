import Verif.Proofs.ProgCheck

/-! Parsers that pass the check end, and what is known of their trees. -/
namespace Oaks
open Spec

namespace Prog

section
variable {ign : List Nat} {strict : Bool} {toks : List Tok} {s0 s s' : PState}

/-- The functions end where less than `L` tokens are left, and those in the list where `L` are and what is next is possible there. -/
def CallsEnd (ign : List Nat) (strict : Bool) (toks : List Tok) (S : List Sum) (calls : Nat → PState → Run (Out × PState))
    (cs : List (Nat × Head)) (L : Nat) : Prop :=
  ∀ j s G, Sound (isIgn ign) strict toks s → S[j]? = some G → G.pre.has s.peekKind = true → (s.left < L ∨ s.left = L ∧ ∃ h, (j, h) ∈ cs ∧ h.has s.peekKind = true) →
    ∃ r, calls j s = .ok r

theorem CallsEnd.mono {S : List Sum} {calls : Nat → PState → Run (Out × PState)} {cs cs' : List (Nat × Head)} {L : Nat}
    (h : CallsEnd ign strict toks S calls cs L) (hc : ∀ j ∈ cs', j ∈ cs) : CallsEnd ign strict toks S calls cs' L :=
  fun j s G hs hj hk hL => h j s G hs hj hk (hL.imp id (fun ⟨h1, h2, h3, h4⟩ => ⟨h1, h2, hc _ h3, h4⟩))

theorem CallsEnd.lower {S : List Sum} {calls : Nat → PState → Run (Out × PState)} {cs cs' : List (Nat × Head)} {L L' : Nat}
    (h : CallsEnd ign strict toks S calls cs L) (hL : L' < L) : CallsEnd ign strict toks S calls cs' L' :=
  fun j s G hs hj hk hs' => h j s G hs hj hk (.inl (by omega))

/-- A statement ends. -/
def Ends (ign : List Nat) (strict : Bool) (toks : List Tok) (S : List Sum) (calls : Nat → PState → Run (Out × PState))
    (f : Loc → PState → Run (Out × Loc × PState)) (F : Fact) (R : Res) : Prop :=
  ∀ s0 l s, Sound (isIgn ign) strict toks s → l.cp.2 ≤ s.sink.length → F.holds s0 s →
    CallsEnd ign strict toks S calls R.calls s0.left → ∃ r, f l s = .ok r

section
variable {S : List Sum} {calls : Nat → PState → Run (Out × PState)} {c body : Loc → PState → Run (Out × Loc × PState)} {C B C2 B2 : Res} {F : Fact}

theorem turns_later_ends (kc : Keeps (isIgn ign) strict toks c) (kb : Keeps (isIgn ign) strict toks body)
    (hc : Says ign strict toks c ⟨topOf ign, .none_⟩ C2) (hb : Says ign strict toks body C2.t B2)
    (ec : Ends ign strict toks S calls c ⟨topOf ign, .none_⟩ C2) (eb : Ends ign strict toks S calls body C2.t B2)
    (hu : (B2.t.u.isNone && B2.f.u.isNone && B2.cont.u.isNone) = true) {cs : List (Nat × Head)} {L : Nat}
    (hcalls : CallsEnd ign strict toks S calls cs L) (fuel : Nat) :
    ∀ l s, Sound (isIgn ign) strict toks s → l.cp.2 ≤ s.sink.length → s.left < L → s.left < fuel → ∃ r, turns c body fuel l s = .ok r := by
  simp only [Bool.and_eq_true] at hu
  induction fuel with
  | zero => intro l s _ _ _ h; omega
  | succ fuel ih =>
    intro l s hs hl hlt hf
    rw [turns]
    obtain ⟨⟨o1, l1, s1⟩, h1⟩ := ec s l s hs hl (start_holds hs) (hcalls.lower hlt)
    have k1 := kc _ _ _ _ _ hs hl h1
    have f1 := hc _ _ _ _ _ _ hs hl (start_holds hs) h1
    rw [h1]
    cases o1 with
    | val v =>
      cases v with
      | false => exact ⟨_, rfl⟩
      | true =>
        obtain ⟨⟨o2, l2, s2⟩, h2⟩ := eb s l1 s1 k1.sound k1.here f1 (hcalls.lower hlt)
        have k2 := kb _ _ _ _ _ k1.sound k1.here h2
        have f2 := hb _ _ _ _ _ _ k1.sound k1.here f1 h2
        simp only [h2]
        cases o2 with
        | val b =>
          have : s2.left < s.left := by
            cases b
            · exact holds_lt f2 hu.1.2
            · exact holds_lt f2 hu.1.1
          exact ih _ _ k2.sound k2.here (by omega) (by omega)
        | cont =>
          have := holds_lt f2 hu.2
          exact ih _ _ k2.sound k2.here (by omega) (by omega)
        | _ => exact ⟨_, rfl⟩
    | _ => exact ⟨_, rfl⟩

theorem turns_ends (kc : Keeps (isIgn ign) strict toks c) (kb : Keeps (isIgn ign) strict toks body)
    (hc : Says ign strict toks c F C)
    (ec : Ends ign strict toks S calls c F C) (eb : Ends ign strict toks S calls body C.t B)
    (hc2 : Says ign strict toks c ⟨topOf ign, .none_⟩ C2) (hb2 : Says ign strict toks body C2.t B2)
    (ec2 : Ends ign strict toks S calls c ⟨topOf ign, .none_⟩ C2) (eb2 : Ends ign strict toks S calls body C2.t B2)
    (hu : (B2.t.u.isNone && B2.f.u.isNone && B2.cont.u.isNone) = true) (fuel : Loc → PState → Nat)
    (hfuel : ∀ l s, s.left < fuel l s) :
    Ends ign strict toks S calls (fun l s => turns c body (fuel l s) l s) F ((C.exits B).both (C2.exits B2).later) := by
  intro s0 l s hs hl hF hcalls
  have hle := holds_le hF
  have hu' := hu
  simp only [Bool.and_eq_true] at hu'
  have hsub : ∀ j ∈ C.calls ++ B.calls, j ∈ ((C.exits B).both (C2.exits B2).later).calls := by
    intro j hj
    simp only [Res.both, Res.exits, Res.others, Res.later, List.append_nil]
    exact hj
  have hf := hfuel l s
  show ∃ r, turns c body (fuel l s) l s = .ok r
  generalize fuel l s = k at hf
  cases k with
  | zero => omega
  | succ fuel =>
    rw [turns]
    obtain ⟨⟨o1, l1, s1⟩, h1⟩ := ec s0 l s hs hl hF (hcalls.mono (fun j hj => hsub j (List.mem_append_left _ hj)))
    have k1 := kc _ _ _ _ _ hs hl h1
    have f1 := hc _ _ _ _ _ _ hs hl hF h1
    have g1 := hc2 _ _ _ _ _ _ hs hl (start_holds hs) h1
    rw [h1]
    cases o1 with
    | val v =>
      cases v with
      | false => exact ⟨_, rfl⟩
      | true =>
        obtain ⟨⟨o2, l2, s2⟩, h2⟩ := eb s0 l1 s1 k1.sound k1.here f1 (hcalls.mono (fun j hj => hsub j (List.mem_append_right _ hj)))
        have k2 := kb _ _ _ _ _ k1.sound k1.here h2
        have g2 := hb2 _ _ _ _ _ _ k1.sound k1.here g1 h2
        simp only [h2]
        cases o2 with
        | val b =>
          have : s2.left < s.left := by
            cases b
            · exact holds_lt g2 hu'.1.2
            · exact holds_lt g2 hu'.1.1
          exact turns_later_ends kc kb hc2 hb2 ec2 eb2 hu hcalls _ _ _ k2.sound k2.here (by omega) (by omega)
        | cont =>
          have := holds_lt g2 hu'.2
          exact turns_later_ends kc kb hc2 hb2 ec2 eb2 hu hcalls _ _ _ k2.sound k2.here (by omega) (by omega)
        | _ => exact ⟨_, rfl⟩
    | _ => exact ⟨_, rfl⟩

end

theorem exec_ends (hl : (toks.map Tok.length).sum < 2 ^ 32) {src : Source} {slack : Nat} {S : List Sum}
    {calls : Nat → PState → Run (Out × PState)} (kcalls : CallsKeep (isIgn ign) strict toks calls)
    (hcalls : CallsFact ign strict toks S calls) (p : Prog) (hp : p.fits strict = true) :
    ∀ F R, check (topOf ign) S p F = some R → Ends ign strict toks S calls (exec (isIgn ign) src slack calls p) F R := by
  have keeps : ∀ p : Prog, p.fits strict = true → Keeps (isIgn ign) strict toks (exec (isIgn ign) src slack calls p) :=
    fun p hp => exec_keeps hl kcalls p hp
  have told : ∀ p : Prog, p.fits strict = true → ∀ F R, check (topOf ign) S p F = some R →
      Says ign strict toks (exec (isIgn ign) src slack calls p) F R := fun p hp => exec_says hl kcalls hcalls p hp
  induction p with
  | bump =>
    intro F R hR s0 l s hs hcp hF hend
    obtain ⟨s1, h1, _⟩ := hs.bump hl hcp
    exact ⟨_, by simp only [exec, h1, run_bind_ok]; rfl⟩
  | advance =>
    intro F R hR s0 l s hs hcp hF hend
    cases strict with
    | true => simp [fits] at hp
    | false =>
      obtain ⟨s1, h1, _⟩ := hs.advance hl hcp
      exact ⟨_, by simp only [exec, h1, run_bind_ok]; rfl⟩
  | eat k =>
    intro F R hR s0 l s hs hcp hF hend
    obtain ⟨b, s1, h1, _⟩ := hs.eat hl hcp k
    exact ⟨_, by simp only [exec, h1, run_bind_ok]; rfl⟩
  | expect k =>
    intro F R hR s0 l s hs hcp hF hend
    obtain ⟨b, s1, h1, _⟩ := hs.expect hl hcp k
    exact ⟨_, by simp only [exec, h1, run_bind_ok]; rfl⟩
  | need k =>
    intro F R hR s0 l s hs hcp hF hend
    obtain ⟨b, s1, h1, _⟩ := hs.expect hl hcp k
    exact ⟨_, by simp only [exec, h1, run_bind_ok]; rfl⟩
  | finish k =>
    intro F R hR s0 l s hs hcp hF hend
    obtain ⟨s1, h1, _⟩ := hs.finish hl hcp (k l.regs)
    exact ⟨_, by simp only [exec, h1, run_bind_ok]; rfl⟩
  | mark p ih =>
    intro F R hR s0 l s hs hcp hF hend
    obtain ⟨r, h1⟩ := ih hp _ _ hR s0 { l with cp := s.checkpoint } s hs (Nat.le_refl _) hF hend
    exact ⟨_, by simp only [exec, h1]; rfl⟩
  | within k p ih =>
    intro F R hR s0 l s hs hcp hF hend
    obtain ⟨⟨o1, l1, s1⟩, h1⟩ := ih hp _ _ hR s0 { l with cp := s.checkpoint } s hs (Nat.le_refl _) hF hend
    have k1 := keeps p hp _ _ _ _ _ hs (Nat.le_refl _) h1
    obtain ⟨s2, h2, _⟩ := k1.sound.finish hl (cp := s.checkpoint) k1.moves.le k
    exact ⟨_, by simp only [exec, h1, h2]; rfl⟩
  | again => simp [fits] at hp
  | back => simp [fits] at hp
  | seq a b iha ihb =>
    intro F R hR s0 l s hs hcp hF hend
    simp only [fits, Bool.and_eq_true] at hp
    rw [check] at hR
    cases hA : check (topOf ign) S a F with
    | none => rw [hA] at hR; simp at hR
    | some A =>
      rw [hA] at hR
      simp only at hR
      cases hB : check (topOf ign) S b (A.t.join A.f) with
      | none => rw [hB] at hR; simp at hR
      | some B =>
        rw [hB] at hR
        simp only [Option.some.injEq] at hR
        subst hR
        obtain ⟨⟨o, l1, s1⟩, h1⟩ := iha hp.1 _ _ hA s0 l s hs hcp hF
          (hend.mono (fun j hj => List.mem_append_left _ hj))
        rw [exec, h1]
        cases o with
        | val v =>
          have k1 := keeps a hp.1 _ _ _ _ _ hs hcp h1
          have f1 := told a hp.1 _ _ hA _ _ _ _ _ _ hs hcp hF h1
          have f1' : (A.t.join A.f).holds s0 s1 := by
            cases v
            · exact Fact.join_right f1
            · exact Fact.join_left f1
          exact ihb hp.2 _ _ hB s0 l1 s1 k1.sound k1.here f1' (hend.mono (fun j hj => List.mem_append_right _ hj))
        | _ => exact ⟨_, rfl⟩
  | ite c a b ihc iha ihb =>
    intro F R hR s0 l s hs hcp hF hend
    simp only [fits, Bool.and_eq_true] at hp
    rw [check] at hR
    cases hC : check (topOf ign) S c F with
    | none => rw [hC] at hR; simp at hR
    | some C =>
      rw [hC] at hR
      simp only at hR
      cases hA : check (topOf ign) S a C.t with
      | none => rw [hA] at hR; simp at hR
      | some A =>
        rw [hA] at hR
        simp only at hR
        cases hB : check (topOf ign) S b C.f with
        | none => rw [hB] at hR; simp at hR
        | some B =>
          rw [hB] at hR
          simp only [Option.some.injEq] at hR
          subst hR
          obtain ⟨⟨o, l1, s1⟩, h1⟩ := ihc hp.1.1 _ _ hC s0 l s hs hcp hF
            (hend.mono (fun j hj => List.mem_append_left _ hj))
          have k1 := keeps c hp.1.1 _ _ _ _ _ hs hcp h1
          have f1 := told c hp.1.1 _ _ hC _ _ _ _ _ _ hs hcp hF h1
          rw [exec, h1]
          cases o with
          | val v =>
            cases v with
            | true =>
              exact iha hp.1.2 _ _ hA s0 l1 s1 k1.sound k1.here f1
                (hend.mono (fun j hj => List.mem_append_right _ (List.mem_append_left _ hj)))
            | false =>
              exact ihb hp.2 _ _ hB s0 l1 s1 k1.sound k1.here f1
                (hend.mono (fun j hj => List.mem_append_right _ (List.mem_append_right _ hj)))
          | _ => exact ⟨_, rfl⟩
  | loop c b ihc ihb =>
    intro F R hR s0 l s hs hcp hF hend
    simp only [fits, Bool.and_eq_true] at hp
    rw [check] at hR
    cases hC : check (topOf ign) S c F with
    | none => rw [hC] at hR; simp at hR
    | some C =>
      rw [hC] at hR
      simp only at hR
      cases hB : check (topOf ign) S b C.t with
      | none => rw [hB] at hR; simp at hR
      | some B =>
        rw [hB] at hR
        simp only at hR
        cases hC2 : check (topOf ign) S c ⟨topOf ign, .none_⟩ with
        | none => rw [hC2] at hR; simp at hR
        | some C2 =>
          rw [hC2] at hR
          simp only at hR
          cases hB2 : check (topOf ign) S b C2.t with
          | none => rw [hB2] at hR; simp at hR
          | some B2 =>
            rw [hB2] at hR
            simp only at hR
            split at hR
            · rename_i hu
              injection hR with hR
              subst hR
              exact turns_ends (keeps c hp.1) (keeps b hp.2)
                (told c hp.1 _ _ hC) (ihc hp.1 _ _ hC) (ihb hp.2 _ _ hB)
                (told c hp.1 _ _ hC2) (told b hp.2 _ _ hB2)
                (ihc hp.1 _ _ hC2) (ihb hp.2 _ _ hB2) hu
                (fun _ s => slack + (s.tokens.length - s.index + 1)) (fun _ s => by simp only [PState.left]; omega) s0 l s hs hcp hF hend
            · simp at hR
  | catch_ p ih =>
    intro F R hR s0 l s hs hcp hF hend
    rw [check] at hR
    cases hP : check (topOf ign) S p F with
    | none => rw [hP] at hR; simp at hR
    | some P =>
      rw [hP] at hR
      simp only [Option.some.injEq] at hR
      subst hR
      obtain ⟨⟨o, l1, s1⟩, h1⟩ := ih hp _ _ hP s0 l s hs hcp hF hend
      rw [exec, h1]
      cases o <;> exact ⟨_, rfl⟩
  | call j =>
    intro F R hR s0 l s hs hcp hF hend
    rw [check] at hR
    cases hG : S[j]? with
    | none => rw [hG] at hR; simp at hR
    | some G =>
      rw [hG] at hR
      simp only at hR
      split at hR
      case isFalse => simp at hR
      rename_i hpre
      simp only [Bool.and_eq_true] at hpre
      simp only [Option.some.injEq] at hR
      subst hR
      obtain ⟨r, h1⟩ := hend j s G hs hG (called_has hF hpre.1 hpre.2) (by
        rcases hF with ⟨h1, h2⟩ | ⟨h1, h2⟩
        · refine .inr ⟨h1, ?_⟩
          have : F.u.isNone = false := by
            cases hn : F.u.isNone with
            | false => rfl
            | true => simp [Head.isNone_has hn] at h2
          exact ⟨F.u, by simp [this], h2⟩
        · exact .inl h1)
      rw [exec, h1]
      exact ⟨_, rfl⟩
  | _ => intro F R hR s0 l s hs hcp hF hend; exact ⟨_, rfl⟩

/-! ### The functions -/

/-- What is known of a function from its statement. -/
def Res.sum (r : Res) (pre : Head) : Sum := ⟨pre, r.t.join r.rt, r.f.join r.rf, r.err⟩
def Sum.le (a b : Sum) : Bool := a.t.le b.t && a.f.le b.f && a.err.le b.err

/-- The statement of a function. -/
def start (ign : List Nat) : Fact := ⟨topOf ign, .none_⟩

/-- Is what is claimed of a function right, given the claims? -/
def agrees (ign : List Nat) (S : List Sum) (p : Prog) (G : Sum) : Bool :=
  match check (topOf ign) S p ⟨G.pre, .none_⟩ with
  | none => false
  | some R => R.brk.isNever && R.cont.isNever && (R.sum G.pre).le G

/-- The functions a function calls before it has read something. -/
def early (ign : List Nat) (S : List Sum) (p : Prog) (G : Sum) : List (Nat × Head) :=
  match check (topOf ign) S p ⟨G.pre, .none_⟩ with
  | none => []
  | some R => R.calls

theorem calls_says (hl : (toks.map Tok.length).sum < 2 ^ 32) {src : Source} {slack : Nat} {procs : List Prog} {S : List Sum}
    (hp : procs.all (fits strict) = true) (hlen : S.length = procs.length)
    (hS : ∀ (j : Nat) p G, procs[j]? = some p → S[j]? = some G → agrees ign S p G = true) (depth : Nat) :
    CallsFact ign strict toks S (calls (isIgn ign) src slack procs depth) := by
  induction depth with
  | zero => intro f s o s' G _ _ _ h; simp [calls] at h
  | succ depth ih =>
    intro f s o s' G hs hG hpre h
    rw [calls] at h
    split at h
    · simp at h
    · rename_i p hpf
      have hpp : p.fits strict = true := List.all_eq_true.1 hp p (List.mem_of_getElem? hpf)
      have hag := hS f p G hpf hG
      unfold agrees at hag
      split at hag
      · simp at hag
      · rename_i R hR
        simp only [Bool.and_eq_true, Sum.le] at hag
        obtain ⟨⟨hbrk, hcont⟩, ⟨ht, hf⟩, he⟩ := hag
        have key := exec_says (src := src) (slack := slack) hl (calls_keep hl hp depth) ih p hpp _ R hR s ⟨s.checkpoint, fun _ => 0⟩ s
        split at h
        · rename_i b l1 s1 h1
          have k1 := key _ _ _ hs (Nat.le_refl _) (.inl ⟨rfl, hpre⟩) h1
          injection h with h; obtain ⟨rfl, rfl⟩ := Prod.mk.inj h
          cases b
          · exact Fact.le_holds hf (Fact.join_right k1)
          · exact Fact.le_holds ht (Fact.join_right k1)
        · rename_i o1 l1 s1 n h1
          have k1 := key _ _ _ hs (Nat.le_refl _) (.inl ⟨rfl, hpre⟩) h1
          injection h with h; obtain ⟨rfl, rfl⟩ := Prod.mk.inj h
          cases o1 with
          | val b =>
            cases b
            · exact Fact.le_holds hf (Fact.join_left k1)
            · exact Fact.le_holds ht (Fact.join_left k1)
          | err => exact Fact.le_holds he k1
          | brk => exact (Fact.isNever_holds hbrk k1).elim
          | cont => exact (Fact.isNever_holds hcont k1).elim
          | ret b => exact absurd rfl (n b)
        · simp at h

theorem calls_end (hl : (toks.map Tok.length).sum < 2 ^ 32) {src : Source} {slack : Nat} {procs : List Prog} {S : List Sum}
    (hp : procs.all (fits strict) = true) (hlen : S.length = procs.length)
    (hS : ∀ (j : Nat) p G, procs[j]? = some p → S[j]? = some G → agrees ign S p G = true)
    {rank : Option Nat → Nat → Nat} {N : Nat} (hN : ∀ x j, rank x j ≤ N)
    (hr : ∀ (j : Nat) p G, procs[j]? = some p → S[j]? = some G → ∀ c ∈ early ign S p G, ∀ x, c.2.has x = true → rank x c.1 < rank x j)
    (depth : Nat) :
    ∀ j s G, Sound (isIgn ign) strict toks s → S[j]? = some G → G.pre.has s.peekKind = true → s.left * (N + 1) + rank s.peekKind j < depth →
      ∃ r, calls (isIgn ign) src slack procs depth j s = .ok r := by
  induction depth with
  | zero => intro j s G _ _ _ h; omega
  | succ depth ih =>
    intro j s G hs hG hpre hd
    have hj : j < procs.length := hlen ▸ (List.getElem?_eq_some_iff.1 hG).1
    obtain ⟨p, hpf⟩ : ∃ p, procs[j]? = some p := ⟨procs[j], List.getElem?_eq_getElem hj⟩
    have hpp : p.fits strict = true := List.all_eq_true.1 hp p (List.mem_of_getElem? hpf)
    have hag := hS j p G hpf hG
    unfold agrees at hag
    split at hag
    · simp at hag
    · rename_i R hR
      have hcalls : early ign S p G = R.calls := by simp only [early, hR]
      have hrj := hr j p G hpf hG
      rw [hcalls] at hrj
      obtain ⟨⟨o, l1, s1⟩, h1⟩ := exec_ends (src := src) (slack := slack) hl (calls_keep hl hp depth)
        (calls_says hl hp hlen hS depth) p hpp _ R hR s ⟨s.checkpoint, fun _ => 0⟩ s hs (Nat.le_refl _) (.inl ⟨rfl, hpre⟩) (by
          intro i s' G' hs' hi hk hlt
          refine ih i s' G' hs' hi hk ?_
          rcases hlt with h | ⟨h, hm⟩
          · have h1 : s'.left * (N + 1) + (N + 1) ≤ s.left * (N + 1) := by
              rw [← Nat.succ_mul]; exact Nat.mul_le_mul_right _ h
            have := hN s'.peekKind i
            omega
          · obtain ⟨hd, hm, hh⟩ := hm
            have := hrj (i, hd) hm s'.peekKind hh
            have hk := peekKind_of_left (s' := s') (s := s) (hs'.tokens.trans hs.tokens.symm) h
            rw [h]
            rw [hk] at this ⊢
            simp only at this
            omega)
      rw [calls, hpf]
      simp only [h1]
      cases o <;> exact ⟨_, rfl⟩

end

/-! ### More turns change nothing -/

theorem turns_mono {c body c' body' : Loc → PState → Run (Out × Loc × PState)} (hc : ∀ l s r, c l s = .ok r → c' l s = .ok r)
    (hb : ∀ l s r, body l s = .ok r → body' l s = .ok r) (fuel fuel' : Nat) (hf : fuel ≤ fuel') (l : Loc) (s : PState)
    (r : Out × Loc × PState) (h : turns c body fuel l s = .ok r) : turns c' body' fuel' l s = .ok r := by
  induction fuel generalizing fuel' l s with
  | zero => simp [turns] at h
  | succ fuel ih =>
    obtain ⟨fuel', rfl⟩ : ∃ n, fuel' = n + 1 := ⟨fuel' - 1, by omega⟩
    rw [turns] at h
    cases h1 : c l s with
    | error e => rw [h1] at h; simp at h
    | ok r1 =>
      obtain ⟨o1, l1, s1⟩ := r1
      rw [h1] at h
      rw [turns, hc _ _ _ h1]
      cases o1 with
      | val v =>
        cases v with
        | false => exact h
        | true =>
          simp only at h ⊢
          cases h2 : body l1 s1 with
          | error e => rw [h2] at h; simp at h
          | ok r2 =>
            obtain ⟨o2, l2, s2⟩ := r2
            rw [h2] at h
            rw [hb _ _ _ h2]
            cases o2 with
            | val b => exact ih _ (by omega) _ _ h
            | cont => exact ih _ (by omega) _ _ h
            | _ => exact h
      | _ => exact h

theorem exec_mono {ign : Nat → Bool} {src : Source} {slack slack' : Nat} {calls calls' : Nat → PState → Run (Out × PState)}
    (hs : slack ≤ slack') (hcalls : ∀ f s r, calls f s = .ok r → calls' f s = .ok r) (p : Prog) :
    ∀ l s r, exec ign src slack calls p l s = .ok r → exec ign src slack' calls' p l s = .ok r := by
  induction p with
  | within k p ih =>
    intro l s r h
    rw [exec] at h ⊢
    cases h1 : exec ign src slack calls p { l with cp := s.checkpoint } s with
    | error e => rw [h1] at h; simp at h
    | ok r1 => rw [h1] at h; rw [ih _ _ _ h1]; exact h
  | mark p ih =>
    intro l s r h
    rw [exec] at h ⊢
    cases h1 : exec ign src slack calls p { l with cp := s.checkpoint } s with
    | error e => rw [h1] at h; simp at h
    | ok r1 => rw [h1] at h; rw [ih _ _ _ h1]; exact h
  | seq a b iha ihb =>
    intro l s r h
    rw [exec] at h ⊢
    cases h1 : exec ign src slack calls a l s with
    | error e => rw [h1] at h; simp at h
    | ok r1 =>
      obtain ⟨o, l1, s1⟩ := r1
      rw [h1] at h
      rw [iha _ _ _ h1]
      cases o with
      | val v => exact ihb _ _ _ h
      | _ => exact h
  | ite c a b ihc iha ihb =>
    intro l s r h
    rw [exec] at h ⊢
    cases h1 : exec ign src slack calls c l s with
    | error e => rw [h1] at h; simp at h
    | ok r1 =>
      obtain ⟨o, l1, s1⟩ := r1
      rw [h1] at h
      rw [ihc _ _ _ h1]
      cases o with
      | val v =>
        cases v
        · exact ihb _ _ _ h
        · exact iha _ _ _ h
      | _ => exact h
  | loop c b ihc ihb =>
    intro l s r h
    rw [exec] at h ⊢
    exact turns_mono ihc ihb _ _ (by omega) _ _ _ h
  | catch_ p ih =>
    intro l s r h
    rw [exec] at h ⊢
    cases h1 : exec ign src slack calls p l s with
    | error e => rw [h1] at h; simp at h
    | ok r1 => rw [h1] at h; rw [ih _ _ _ h1]; exact h
  | call f =>
    intro l s r h
    rw [exec] at h ⊢
    cases h1 : calls f s with
    | error e => rw [h1] at h; simp at h
    | ok r1 => rw [h1] at h; rw [hcalls _ _ _ h1]; exact h
  | _ => intro l s r h; exact h

theorem calls_mono {ign : Nat → Bool} {src : Source} {slack slack' : Nat} {procs : List Prog} (hs : slack ≤ slack') (depth depth' : Nat)
    (hd : depth ≤ depth') : ∀ f s r, calls ign src slack procs depth f s = .ok r → calls ign src slack' procs depth' f s = .ok r := by
  induction depth generalizing depth' with
  | zero => intro f s r h; simp [calls] at h
  | succ depth ih =>
    intro f s r h
    obtain ⟨depth', rfl⟩ : ∃ n, depth' = n + 1 := ⟨depth' - 1, by omega⟩
    rw [calls] at h ⊢
    cases hp : procs[f]? with
    | none => rw [hp] at h; simp at h
    | some p =>
      rw [hp] at h
      simp only at h ⊢
      cases h1 : exec ign src slack (calls ign src slack procs depth) p ⟨s.checkpoint, fun _ => 0⟩ s with
      | error e => rw [h1] at h; simp at h
      | ok r1 => rw [h1] at h; rw [exec_mono hs (ih depth' (by omega)) p _ _ _ h1]; exact h

end Prog

namespace HandParser
open Prog

/-- With more turns and a greater depth the result is the same. -/
theorem parse_mono {h : HandParser} {slack slack' : Nat} (hs : slack ≤ slack') {src : Source} {toks : List Tok}
    {r : Option Green × List PErr} (hr : h.parse slack src toks = .ok r) : h.parse slack' src toks = .ok r := by
  unfold parse at hr ⊢
  cases h0 : PState.new (fun k => h.ign.contains k) toks src.length with
  | error e => rw [h0] at hr; simp at hr
  | ok s =>
    rw [h0, run_bind_ok] at hr
    rw [run_bind_ok]
    cases h1 : h.main.exec (fun k => h.ign.contains k) src slack (Prog.calls (fun k => h.ign.contains k) src slack h.procs
        (slack + ((toks.length + 1) * (h.procs.length + 1) + 1))) ⟨h.begins s, fun _ => 0⟩ s with
    | error e => simp only [h1] at hr; simp at hr
    | ok r1 =>
      simp only [h1, run_bind_ok] at hr
      simp only [exec_mono hs (calls_mono hs _ _ (Nat.add_le_add_right hs _)) h.main _ _ _ h1, run_bind_ok]
      exact hr

/-! ### The whole parser -/

/-- How long the way through functions that have read nothing can be. -/
def ranks (css : List (List Nat)) : Nat → List Nat → List Nat
  | 0, rk => rk
  | n + 1, rk =>
    let rk' := css.map (fun cs => cs.foldl (fun m j => max m (rk.getD j 0 + 1)) 0)
    if rk' == rk then rk else ranks css n rk'

/-- Is every function that is called early of a lower rank? -/
def ranked (N : Nat) (css : List (List Nat)) (rk : List Nat) : Bool :=
  rk.all (fun r => decide (r ≤ N)) && decide (rk.length = css.length) &&
    (css.zip rk).all (fun x => x.1.all (fun j => decide (rk.getD j 0 < x.2)))

/-- The kinds that the sets of next tokens name. -/
def named (css : List (List (Nat × Head))) : List Nat :=
  css.foldl (fun a cs => cs.foldl (fun a c => c.2.ks.foldl (fun a k => if a.contains k then a else k :: a) a) a) []

/-- A kind that is not in the list. -/
def fresh (ks : List Nat) : Nat := ks.foldl max 0 + 1

/-- The functions called early when this is next. -/
def under (css : List (List (Nat × Head))) (x : Option Nat) : List (List Nat) :=
  css.map (fun cs => (cs.filter (fun c => c.2.has x)).map (·.1))

/-- The rank of every function when this is next. -/
def ranksAt (N : Nat) (css : List (List (Nat × Head))) (x : Option Nat) : List Nat :=
  ranks (under css x) N (css.map (fun _ => 0))

/-- Whatever is next, is every function that is called early of a lower rank? -/
def allRanked (N : Nat) (css : List (List (Nat × Head))) : Bool :=
  (none :: some (fresh (named css)) :: (named css).map some).all (fun x => ranked N (under css x) (ranksAt N css x))

/-- What is known of the functions, one step more. -/
def step (h : HandParser) (S : List Sum) : List Sum :=
  h.procs.map (fun p =>
    match check (topOf h.ign) S p (start h.ign) with
    | none => ⟨topOf h.ign, .never, .never, .never⟩
    | some R => R.sum (topOf h.ign))

/-- What is known of the functions, after some steps. -/
def sums (h : HandParser) : Nat → List Sum
  | 0 => h.procs.map (fun _ => ⟨topOf h.ign, .never, .never, .never⟩)
  | n + 1 => step h (sums h n)

/-- The calls in a statement, with what can be next there, given what is known of the functions. -/
def wants (top : Head) (S : List Sum) : Prog → Fact → List (Nat × Head)
  | .mark p, F => wants top S p F
  | .within _ p, F => wants top S p F
  | .catch_ p, F => wants top S p F
  | .seq a b, F =>
    wants top S a F ++
      match check top S a F with
      | none => []
      | some A => wants top S b (A.t.join A.f)
  | .ite c a b, F =>
    wants top S c F ++
      match check top S c F with
      | none => []
      | some C => wants top S a C.t ++ wants top S b C.f
  | .loop c b, F =>
    wants top S c (F.join ⟨top, .none_⟩) ++
      match check top S c (F.join ⟨top, .none_⟩) with
      | none => []
      | some C => wants top S b C.t
  | .call j, F => [(j, F.u.join F.m)]
  | _, _ => []

/-- What is known of the functions and what can be next when they are called, one step more. -/
def wider (h : HandParser) (S : List Sum) : List Sum :=
  let top := topOf h.ign
  let S' := S.map (fun G => { G with pre := top })
  let ws := wants top S' h.main (start h.ign) ++ ((h.procs.zip S).flatMap (fun x => wants top S' x.1 ⟨x.2.pre, .none_⟩))
  (h.procs.zip S).zipIdx.map (fun x =>
    let pre := ws.foldl (fun a w => if w.1 == x.2 then a.join w.2 else a) x.1.2.pre
    match check top S' x.1.1 ⟨x.1.2.pre, .none_⟩ with
    | none => ⟨pre, .never, .never, .never⟩
    | some R => R.sum pre)

/-- What is known of the functions and what can be next when they are called, after some steps. -/
def reach (h : HandParser) : Nat → List Sum
  | 0 => h.procs.map (fun _ => ⟨.none_, .never, .never, .never⟩)
  | n + 1 => wider h (reach h n)

/-- Is no node put into the sink twice or looked for in it, and with `strict` no token dropped? -/
def fits (h : HandParser) (strict : Bool) : Bool := h.main.fits strict && h.procs.all (Prog.fits strict)

/-- Is nothing ever dropped, and no node put into the sink twice? -/
abbrev plain (h : HandParser) : Bool := h.fits true

/-- Is no node put into the sink twice? -/
abbrev once (h : HandParser) : Bool := h.fits false

/-- The check of a parser, with claims about its functions. -/
def judge (h : HandParser) (S : List Sum) : Option Res :=
  let css := (h.procs.zip S).map (fun x => early h.ign S x.1 x.2)
  if h.once && decide (S.length = h.procs.length) && (h.procs.zip S).all (fun x => agrees h.ign S x.1 x.2) &&
      allRanked h.procs.length css
  then check (topOf h.ign) S h.main (start h.ign) else none

/-- What can be next at the end. -/
def ending (R : Res) : Head :=
  (R.t.u.join R.t.m).join ((R.f.u.join R.f.m).join ((R.brk.u.join R.brk.m).join ((R.cont.u.join R.cont.m).join
    ((R.rt.u.join R.rt.m).join (R.rf.u.join R.rf.m)))))

theorem fits_plain {h : HandParser} (ho : h.once = true) : h.main.fits h.plain = true ∧ h.procs.all (Prog.fits h.plain) = true := by
  have : h.fits h.plain = true := by
    cases hp : h.plain with
    | true => exact hp
    | false => exact ho
  simpa [fits] using this

/-- How many tokens are before the root. -/
def lead (h : HandParser) (toks : List Tok) : Nat :=
  if h.fromStart then 0 else (toks.takeWhile (fun t => h.ign.contains t.kind)).length

theorem holds_head {F : Fact} {s0 s : PState} (h : F.holds s0 s) : (F.u.join F.m).has s.peekKind = true := by
  rcases h with ⟨_, h⟩ | ⟨_, h⟩
  · exact Head.join_left h
  · exact Head.join_right h

theorem ending_has {R : Res} {o : Out} {s0 s : PState} (h : (R.get o).holds s0 s) (ho : o ≠ .err) : (ending R).has s.peekKind = true := by
  unfold ending
  cases o with
  | val v =>
    cases v
    · exact Head.join_right (Head.join_left (holds_head h))
    · exact Head.join_left (holds_head h)
  | brk => exact Head.join_right (Head.join_right (Head.join_left (holds_head h)))
  | cont => exact Head.join_right (Head.join_right (Head.join_right (Head.join_left (holds_head h))))
  | ret v =>
    cases v
    · exact Head.join_right (Head.join_right (Head.join_right (Head.join_right (Head.join_right (holds_head h)))))
    · exact Head.join_right (Head.join_right (Head.join_right (Head.join_right (Head.join_left (holds_head h)))))
  | err => exact absurd rfl ho

theorem new_sound {ign : Nat → Bool} {strict : Bool} {toks : List Tok} {n : Nat} (hl : (toks.map Tok.length).sum < 2 ^ 32) :
    ∃ s, PState.new ign toks n = .ok s ∧ Sound ign strict toks s ∧ s.errors = [] ∧
      s.index = (toks.takeWhile (fun t => ign t.kind)).length := by
  have h0 : Half strict toks (PState.mk toks 0 [] 0 none [] n) := ⟨rfl, by simp [leavesOfList], by simp [leavesOfList], rfl⟩
  obtain ⟨s, h1, h2, h3, h4⟩ := h0.skip (ign := ign) hl (m := 0) (by simp)
  refine ⟨s, h1, h2, h4, ?_⟩
  obtain ⟨k, es, h5, h6, _, h8, h9⟩ := skipTrivia_spec (ign := ign) (PState.mk toks 0 [] 0 none [] n)
  rw [h5] at h1
  injection h1 with h1
  subst h1
  simp only [List.drop_zero, Nat.zero_add] at h6 h8 h9 ⊢
  have hk : k ≤ toks.length := by omega
  have hsplit : toks = toks.take k ++ toks.drop k := (List.take_append_drop k toks).symm
  have h10 : (toks.drop k).takeWhile (fun t => ign t.kind) = [] := by
    cases hd : toks.drop k with
    | nil => rfl
    | cons t ts =>
      have : toks[k]? = some t := by rw [← List.head?_drop, hd]; rfl
      exact List.takeWhile_cons_of_neg (by simp [h9 t this])
  have : (toks.takeWhile (fun t => ign t.kind)).length = (toks.take k).length := by
    conv_lhs => rw [hsplit]
    rw [List.takeWhile_append_of_pos h8, h10, List.append_nil]
  rw [this, List.length_take]
  omega

/-- The root over a sound state. -/
theorem root_facts {ign : Nat → Bool} {strict : Bool} {toks : List Tok} (hl : (toks.map Tok.length).sum < 2 ^ 32) {s s' : PState}
    (hs : Sound ign strict toks s) (hs' : Sound ign strict toks s') {cp : Nat × Nat} (hcp : cp = (0, 0) ∨ cp = s.checkpoint)
    (hi : s.index ≤ toks.length) (hm : Moves cp.2 s s') (kind : Nat) :
    ∃ cs e s2, s'.finishAt cp kind = .ok (e, s2) ∧ e.tree = .node kind (lenSum cs) cs ∧ s2.errors = s'.errors ∧
      lenSum cs = bytesBelowList cs ∧ (leavesOfList cs).Sublist (toks.map Tok.kl) ∧
      (strict = true → ∃ i, i = min s'.index toks.length ∧ toks[i]? = s'.current ∧ (s'.current = none → i = toks.length) ∧ cp.1 ≤ i ∧
        leavesOfList cs = ((toks.take i).drop cp.1).map Tok.kl) := by
  obtain ⟨s2, h1, h2, h3, h4, h5⟩ := hs'.finish hl hm.le kind
  refine ⟨(s'.sink.drop cp.2).map Entry.tree, _, s2, h1, rfl, h5, ?_, ?_, ?_⟩
  · have hw := h2.weight
    have hsink : s2.sink.map Entry.tree = (s'.sink.take cp.2).map Entry.tree ++
        [.node kind (lenSum ((s'.sink.drop cp.2).map Entry.tree)) ((s'.sink.drop cp.2).map Entry.tree)] := by
      have := (finishAt_leaves h1).2.2.2.2.1
      rw [this]; simp
    have hpre : lenSum ((s'.sink.take cp.2).map Entry.tree) = bytesBelowList ((s'.sink.take cp.2).map Entry.tree) := by
      rw [hm.sink]
      rcases hcp with rfl | rfl
      · rfl
      · simpa [PState.checkpoint] using hs.weight
    have hall := hs'.weight
    rw [← List.take_append_drop cp.2 s'.sink, List.map_append, lenSum_append, bytesBelowList_app] at hall
    omega
  · have := hs'.leaves
    rw [← List.take_append_drop cp.2 s'.sink, List.map_append, leavesOfList_append] at this
    refine ((List.sublist_append_right _ _).trans this).trans ?_
    exact List.Sublist.map _ (List.take_sublist _ _)
  · intro hst
    have ha := hs'.all hst
    rw [← List.take_append_drop cp.2 s'.sink, List.map_append, leavesOfList_append, hm.sink] at ha
    refine ⟨min s'.index toks.length, rfl, ?_, ?_, ?_, ?_⟩
    · unfold PState.current
      rw [hs'.tokens]
      by_cases hi : s'.index < toks.length
      · rw [Nat.min_eq_left (by omega)]
      · rw [Nat.min_eq_right (by omega), List.getElem?_eq_none (by omega), List.getElem?_eq_none (by omega)]
    · unfold PState.current
      rw [hs'.tokens]
      intro hn
      have := List.getElem?_eq_none_iff.1 hn
      omega
    · rcases hcp with rfl | rfl
      · simp
      · have := hm.left
        unfold PState.left at this
        rw [hs'.tokens, hs.tokens] at this
        simp only [PState.checkpoint]
        omega
    · have htake : toks.take (min s'.index toks.length) = toks.take s'.index := by
        rw [Nat.min_comm, ← List.take_take, List.take_of_length_le (by rw [List.length_take]; exact Nat.min_le_right _ _)]
      rw [htake]
      rcases hcp with rfl | rfl
      · simpa [leavesOfList] using ha
      · simp only [PState.checkpoint, List.take_length, hs.all hst] at ha ⊢
        have := congrArg (List.drop s.index) ha
        rw [List.drop_append_of_le_length (by simp; omega)] at this
        rw [List.drop_of_length_le (by rw [List.length_map, List.length_take]; exact Nat.min_le_left _ _), List.nil_append] at this
        rw [this, List.map_drop]

theorem ranked_lt {N : Nat} {css : List (List Nat)} {rk : List Nat} (hrk : ranked N css rk = true) :
    (∀ j, rk.getD j 0 ≤ N) ∧ ∀ (j : Nat) cs, css[j]? = some cs → ∀ i ∈ cs, rk.getD i 0 < rk.getD j 0 := by
  unfold ranked at hrk
  simp only [Bool.and_eq_true, decide_eq_true_eq] at hrk
  obtain ⟨⟨hN, hrl⟩, hr⟩ := hrk
  refine ⟨fun j => ?_, fun j cs hz i hi => ?_⟩
  · rw [List.getD_eq_getElem?_getD]
    cases hj : rk[j]? with
    | none => simp
    | some r => simpa using List.all_eq_true.1 hN r (List.mem_of_getElem? hj)
  · have hj : j < rk.length := by
      rw [hrl]; exact (List.getElem?_eq_some_iff.1 hz).1
    have hmem : (cs, rk[j]) ∈ css.zip rk := by
      refine List.mem_of_getElem? (i := j) ?_
      rw [List.getElem?_zip_eq_some]
      exact ⟨hz, List.getElem?_eq_getElem hj⟩
    have := List.all_eq_true.1 (List.all_eq_true.1 hr _ hmem) i hi
    simp only [decide_eq_true_eq] at this
    rw [List.getD_eq_getElem?_getD (i := j), List.getElem?_eq_getElem hj]
    exact this

theorem addAll_mem {x : Nat} (ks : List Nat) : ∀ a : List Nat,
    x ∈ a ∨ x ∈ ks → x ∈ ks.foldl (fun a k => if a.contains k then a else k :: a) a := by
  induction ks with
  | nil => intro a h; simpa using h
  | cons k ks ih =>
    intro a h
    refine ih _ ?_
    rcases h with h | h
    · left; beta_reduce; split
      · exact h
      · exact List.mem_cons_of_mem _ h
    · rcases List.mem_cons.1 h with rfl | h
      · left; beta_reduce; split
        · rename_i hc; exact List.contains_iff_mem.1 hc
        · exact List.mem_cons_self
      · exact .inr h

theorem addCalls_mem {x : Nat} (cs : List (Nat × Head)) : ∀ a : List Nat,
    (x ∈ a ∨ ∃ c ∈ cs, x ∈ c.2.ks) →
      x ∈ cs.foldl (fun a c => c.2.ks.foldl (fun a k => if a.contains k then a else k :: a) a) a := by
  induction cs with
  | nil => intro a h; simpa using h
  | cons c cs ih =>
    intro a h
    refine ih _ ?_
    rcases h with h | ⟨d, hd, hx⟩
    · exact .inl (addAll_mem _ _ (.inl h))
    · rcases List.mem_cons.1 hd with rfl | hd
      · exact .inl (addAll_mem _ _ (.inr hx))
      · exact .inr ⟨d, hd, hx⟩

theorem named_mem {x : Nat} {css : List (List (Nat × Head))} {cs : List (Nat × Head)} (hcs : cs ∈ css) {c : Nat × Head} (hc : c ∈ cs)
    (hx : x ∈ c.2.ks) : x ∈ named css := by
  have key : ∀ (css : List (List (Nat × Head))) (a : List Nat), (x ∈ a ∨ ∃ cs ∈ css, ∃ c ∈ cs, x ∈ c.2.ks) →
      x ∈ css.foldl (fun a cs => cs.foldl (fun a c => c.2.ks.foldl (fun a k => if a.contains k then a else k :: a) a) a) a := by
    intro css
    induction css with
    | nil => intro a h; simpa using h
    | cons d css ih =>
      intro a h
      refine ih _ ?_
      rcases h with h | ⟨e, he, h⟩
      · exact .inl (addCalls_mem _ _ (.inl h))
      · rcases List.mem_cons.1 he with rfl | he
        · exact .inl (addCalls_mem _ _ (.inr h))
        · exact .inr ⟨e, he, h⟩
  exact key css [] (.inr ⟨cs, hcs, c, hc, hx⟩)

theorem fresh_not_mem (ks : List Nat) : fresh ks ∉ ks := by
  have key : ∀ (ks : List Nat) (m : Nat), m ≤ ks.foldl max m ∧ ∀ k ∈ ks, k ≤ ks.foldl max m := by
    intro ks
    induction ks with
    | nil => intro m; simp
    | cons k ks ih =>
      intro m
      have := ih (max m k)
      refine ⟨by simp only [List.foldl_cons]; omega, ?_⟩
      intro j hj
      simp only [List.foldl_cons]
      rcases List.mem_cons.1 hj with rfl | hj
      · omega
      · exact this.2 j hj
  intro h
  have := (key ks 0).2 _ h
  unfold fresh at this
  omega

theorem allRanked_spec {N : Nat} {css : List (List (Nat × Head))} (h : allRanked N css = true) :
    ∃ rank : Option Nat → Nat → Nat, (∀ x j, rank x j ≤ N) ∧
      ∀ (j : Nat) cs, css[j]? = some cs → ∀ c ∈ cs, ∀ x, c.2.has x = true → rank x c.1 < rank x j := by
  have hall := List.all_eq_true.1 h
  have key : ∀ x : Option Nat, ∃ y, ranked N (under css y) (ranksAt N css y) = true ∧
      ∀ cs ∈ css, ∀ c ∈ cs, c.2.has x = true → c.2.has y = true := by
    intro x
    cases x with
    | none => exact ⟨none, hall _ (by simp), fun _ _ _ _ h => h⟩
    | some k =>
      by_cases hk : k ∈ named css
      · exact ⟨some k, hall _ (by simp [hk]), fun _ _ _ _ h => h⟩
      · refine ⟨some (fresh (named css)), hall _ (by simp), ?_⟩
        intro cs hcs c hc hh
        have h1 : c.2.ks.contains k = false := by
          cases hq : c.2.ks.contains k with
          | false => rfl
          | true => exact absurd (named_mem hcs hc (List.contains_iff_mem.1 hq)) hk
        have h2 : c.2.ks.contains (fresh (named css)) = false := by
          cases hq : c.2.ks.contains (fresh (named css)) with
          | false => rfl
          | true => exact absurd (named_mem hcs hc (List.contains_iff_mem.1 hq)) (fresh_not_mem _)
        simp only [Head.has, h1, h2] at hh ⊢
        exact hh
  choose f hf using key
  refine ⟨fun x j => (ranksAt N css (f x)).getD j 0, fun x j => (ranked_lt (hf x).1).1 j, ?_⟩
  intro j cs hz c hc x hx
  refine (ranked_lt (hf x).1).2 j _ (by rw [under, List.getElem?_map, hz]; rfl) c.1 ?_
  exact List.mem_map.2 ⟨c, List.mem_filter.2 ⟨hc, (hf x).2 cs (List.mem_of_getElem? hz) c hc hx⟩, rfl⟩

theorem judge_once {h : HandParser} {S : List Sum} {R : Res} (hj : h.judge S = some R) : h.once = true := by
  unfold judge at hj
  simp only at hj
  split at hj
  · rename_i hc
    simp only [Bool.and_eq_true] at hc
    exact hc.1.1.1
  · simp at hj

/-- What every parser keeps if it ends and puts no node into the sink twice. -/
theorem parse_keeps {h : HandParser} (ho : h.once = true) {slack : Nat} {src : Source} {toks : List Tok} (hl : (toks.map Tok.length).sum < 2 ^ 32)
    {o : Option Green} {errs : List PErr} (hr : h.parse slack src toks = .ok (o, errs)) :
    (o = none → errs ≠ []) ∧
    ∀ g, o = some g → ∃ cs, g = .node h.root (lenSum cs) cs ∧ lenSum cs = bytesBelowList cs ∧ (leavesOfList cs).Sublist (toks.map Tok.kl) ∧
      (h.plain = true → ∃ i, i ≤ toks.length ∧ h.lead toks ≤ i ∧ leavesOfList cs = ((toks.take i).drop (h.lead toks)).map Tok.kl) := by
  obtain ⟨s, h1, h2, h3, h4⟩ := new_sound (ign := isIgn h.ign) (strict := h.plain) (n := src.length) hl
  have hp := fits_plain ho
  unfold parse at hr
  rw [h1, run_bind_ok] at hr
  cases h5 : h.main.exec (isIgn h.ign) src slack (Prog.calls (isIgn h.ign) src slack h.procs
      (slack + ((toks.length + 1) * (h.procs.length + 1) + 1))) ⟨h.begins s, fun _ => 0⟩ s with
  | error e => rw [h5] at hr; simp at hr
  | ok r =>
    obtain ⟨o1, l1, s1⟩ := r
    rw [h5, run_bind_ok] at hr
    have hcp : h.begins s = (0, 0) ∨ h.begins s = s.checkpoint := by
      unfold begins; split <;> simp
    have hle : (h.begins s).2 ≤ s.sink.length := by
      rcases hcp with hc | hc <;> rw [hc] <;> simp [PState.checkpoint]
    have k := exec_keeps (src := src) (slack := slack) hl (calls_keep hl hp.2 _) h.main hp.1
      _ _ _ _ _ h2 hle h5
    have hidx : s.index ≤ toks.length := by rw [h4]; exact (List.takeWhile_sublist _).length_le
    obtain ⟨cs, e, s2, r1, r2, r3, r4, r5, r6⟩ := root_facts hl h2 k.sound hcp hidx k.moves h.root
    by_cases ho : o1 = .err
    · subst ho
      simp only [done, Except.ok.injEq, Prod.mk.injEq] at hr
      obtain ⟨rfl, rfl⟩ := hr
      refine ⟨fun _ => ?_, by simp⟩
      have := k.err rfl
      intro hn
      rw [hn] at this
      simp at this
    · have hd : h.done (h.begins s) (o1, l1, s1) = .ok (some e.tree, s2.errors) := by
        unfold done
        cases o1 <;> first | exact absurd rfl ho | (simp only [r1, run_bind_ok]; rfl)
      rw [hd] at hr
      simp only [Except.ok.injEq, Prod.mk.injEq] at hr
      obtain ⟨rfl, rfl⟩ := hr
      refine ⟨by simp, ?_⟩
      rintro g hg
      injection hg with hg
      subst hg
      refine ⟨cs, r2, r4, r5, ?_⟩
      intro hpl
      obtain ⟨i, _, i1, i2, i3, i4⟩ := r6 hpl
      have hlead : (h.begins s).1 = h.lead toks := by
        unfold begins lead
        split
        · rfl
        · exact h4
      rw [hlead] at i3 i4
      refine ⟨min i toks.length, Nat.min_le_right _ _, ?_, ?_⟩
      · have : h.lead toks ≤ toks.length := by
          unfold lead
          split
          · simp
          · exact (List.takeWhile_sublist _).length_le
        omega
      · rw [i4, Nat.min_comm, ← List.take_take, List.take_take]
        congr 2
        rw [Nat.min_comm, ← List.take_take, List.take_of_length_le (Nat.le_refl _)]

/-- A parser that passes the check ends, and if nothing is dropped the tokens below the root go to one of those that can be next at the
end. -/
theorem parse_ends {h : HandParser} {S : List Sum} {R : Res} (hj : h.judge S = some R) {slack : Nat} {src : Source} {toks : List Tok}
    (hl : (toks.map Tok.length).sum < 2 ^ 32) :
    ∃ o errs, h.parse slack src toks = .ok (o, errs) ∧ (R.err.isNever = true → o ≠ none) ∧
      ∀ g, o = some g → ∃ cs i, g = .node h.root (lenSum cs) cs ∧ (ending R).has (toks[i]?.map (·.kind)) = true ∧
        (toks[i]? = none → i = toks.length) ∧
        (h.plain = true → leavesOfList cs = ((toks.take i).drop (h.lead toks)).map Tok.kl) := by
  obtain ⟨s, h1, h2, h3, h4⟩ := new_sound (ign := isIgn h.ign) (strict := h.plain) (n := src.length) hl
  have hcp : h.begins s = (0, 0) ∨ h.begins s = s.checkpoint := by
    unfold begins; split <;> simp
  have hle : (h.begins s).2 ≤ s.sink.length := by
    rcases hcp with hc | hc <;> rw [hc] <;> simp [PState.checkpoint]
  have hidx : s.index ≤ toks.length := by rw [h4]; exact (List.takeWhile_sublist _).length_le
  unfold judge at hj
  simp only at hj
  split at hj
  · rename_i hc
    simp only [Bool.and_eq_true, decide_eq_true_eq] at hc
    obtain ⟨⟨⟨ho, hlen⟩, hag⟩, hrk⟩ := hc
    have hp := fits_plain ho
    have hS : ∀ (j : Nat) p G, h.procs[j]? = some p → S[j]? = some G → agrees h.ign S p G = true := by
      intro j p G hp hG
      refine List.all_eq_true.1 hag (p, G) (List.mem_of_getElem? (i := j) ?_)
      rw [List.getElem?_zip_eq_some]; exact ⟨hp, hG⟩
    generalize hcss : (h.procs.zip S).map (fun x => early h.ign S x.1 x.2) = css at hrk
    obtain ⟨rank, hN', hr0⟩ := allRanked_spec hrk
    have hr' : ∀ (j : Nat) p G, h.procs[j]? = some p → S[j]? = some G → ∀ c ∈ early h.ign S p G, ∀ x, c.2.has x = true →
        rank x c.1 < rank x j := by
      intro j p G hp hG c hc x hx
      have hz : css[j]? = some (early h.ign S p G) := by
        rw [← hcss, List.getElem?_map, (List.getElem?_zip_eq_some (z := (p, G))).2 ⟨hp, hG⟩]; rfl
      exact hr0 j _ hz c hc x hx
    have hcend := calls_end (ign := h.ign) (strict := h.plain) (src := src) (slack := slack) hl hp.2 hlen hS hN' hr'
      (slack + ((toks.length + 1) * (h.procs.length + 1) + 1))
    have hcsay := calls_says (ign := h.ign) (strict := h.plain) (src := src) (slack := slack) hl hp.2 hlen hS
      (slack + ((toks.length + 1) * (h.procs.length + 1) + 1))
    have hckeep := calls_keep (ign := isIgn h.ign) (src := src) (slack := slack) hl hp.2
      (slack + ((toks.length + 1) * (h.procs.length + 1) + 1))
    obtain ⟨⟨o1, l1, s1⟩, h5⟩ := exec_ends (src := src) (slack := slack) hl hckeep hcsay h.main hp.1 _ R hj s
      ⟨h.begins s, fun _ => 0⟩ s h2 hle (start_holds h2) (by
        intro j s' G hs' hG hk hlt
        refine hcend j s' G hs' hG hk ?_
        have hleft : s'.left ≤ toks.length := by
          unfold PState.left; rw [hs'.tokens]; omega
        have := hN' s'.peekKind j
        have hm : s'.left * (h.procs.length + 1) ≤ toks.length * (h.procs.length + 1) := Nat.mul_le_mul_right _ hleft
        rw [Nat.succ_mul]
        omega)
    have k := exec_keeps (src := src) (slack := slack) hl hckeep h.main hp.1 _ _ _ _ _ h2 hle h5
    have f := exec_says (src := src) (slack := slack) hl hckeep hcsay h.main hp.1 _ R hj _ _ _ _ _ _ h2 hle
      (start_holds h2) h5
    obtain ⟨cs, e, s2, r1, r2, r3, r4, r5, r6⟩ := root_facts hl h2 k.sound hcp hidx k.moves h.root
    unfold parse
    rw [h1, run_bind_ok]
    have h5' : h.main.exec (fun k => h.ign.contains k) src slack (Prog.calls (fun k => h.ign.contains k) src slack h.procs
        (slack + ((toks.length + 1) * (h.procs.length + 1) + 1))) ⟨h.begins s, fun _ => 0⟩ s = .ok (o1, l1, s1) := h5
    rw [h5', run_bind_ok]
    by_cases ho : o1 = .err
    · subst ho
      exact ⟨none, s1.errors, rfl, fun hn => (Fact.isNever_holds hn f).elim, by simp⟩
    · have hd : h.done (h.begins s) (o1, l1, s1) = .ok (some e.tree, s2.errors) := by
        unfold done
        cases o1 <;> first | exact absurd rfl ho | (simp only [r1, run_bind_ok]; rfl)
      refine ⟨_, _, hd, by simp, ?_⟩
      rintro g hg
      injection hg with hg
      subst hg
      have hend := ending_has f ho
      have hlead : (h.begins s).1 = h.lead toks := by
        unfold begins lead
        split
        · rfl
        · exact h4
      have hcur : toks[s1.index]? = s1.current := by unfold PState.current; rw [k.sound.tokens]
      by_cases hpl : h.plain = true
      · obtain ⟨i, _, i1, i2, i3, i4⟩ := r6 hpl
        rw [hlead] at i4
        refine ⟨cs, i, r2, ?_, ?_, fun _ => i4⟩
        · rw [i1]; exact hend
        · rw [i1]; exact i2
      · refine ⟨cs, min s1.index toks.length, r2, ?_, ?_, fun h' => absurd h' hpl⟩
        · have : toks[min s1.index toks.length]? = s1.current := by
            rw [← hcur]
            by_cases hi : s1.index < toks.length
            · rw [Nat.min_eq_left (by omega)]
            · rw [Nat.min_eq_right (by omega), List.getElem?_eq_none (by omega), List.getElem?_eq_none (by omega)]
          rw [this]; exact hend
        · intro hn
          have := List.getElem?_eq_none_iff.1 hn
          omega
  · simp at hj

end HandParser
end Oaks
