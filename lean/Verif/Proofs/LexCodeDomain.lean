import Verif.Proofs.LexCodeBits
import Verif.Proofs.LexRun
import Verif.Proofs.XmlLex
import Verif.Spec.HandLex

/-! What the descriptions of Proofs/LexCodeCheck.lean say about a state, and that the operations on them keep it. -/
namespace Oaks.Lc
open Spec

/-- The characters ahead are of the sorts listed. -/
def Nx (n : List Nat) (f : Nat → Nat) : Prop := ∀ i (m : Nat), n[i]? = some m → m.testBit (f i) = true

/-- The sorts of the characters of a text. -/
def ahead (u : Uni) (r : Str) (i : Nat) : Nat := atom u r[i]?

/-- Where the last token ends. -/
def last (toks : List Tok) : Nat := (toks.getLast?.map (·.stop)).getD 0

theorem last_append (toks : List Tok) (k : Tok) : last (toks ++ [k]) = k.stop := by simp [last]

structure PtOk (u : Uni) (p : Pt) (g : Nat → Nat) (z v : Nat) (r : Str) : Prop where
  nxt : Nx p.nxt (ahead u r)
  e : p.e = true → v = z
  o : p.o = true → z ≤ v
  le : ∀ q, p.le.testBit q = true → g q ≤ v
  lt : ∀ q, p.lt.testBit q = true → g q < v

/-- Tokens one after the other from the start of the text up to `z`. -/
inductive TileTo : List Tok → Nat → Prop
  | nil : TileTo [] 0
  | snoc {ks : List Tok} {a : Nat} {k : Tok} : TileTo ks a → k.start = a → TileTo (ks ++ [k]) k.stop

structure TokOk (t : Str) (m : Mode) (toks : List Tok) : Prop where
  whole : ∀ k ∈ toks, Boundary t k.start ∧ Boundary t k.stop
  order : m.order = true → InOrder toks ∧ ∀ k ∈ toks, k.start ≤ k.stop ∧ k.stop ≤ last toks
  tile : m.tile = true → TileTo toks (last toks)
  proper : m.proper = true → ∀ k ∈ toks, k.start < k.stop

structure Ok (u : Uni) (src : Source) (t : Str) (m : Mode) (a : Abs) (st : LSt) (l r : Str) (toks : List Tok) : Prop where
  lex : LexAt src t l r toks st.lex
  pos : PtOk u a.pos st.regs (last toks) (blen l) r
  here : ∀ q, a.here.testBit q = true → st.regs q = blen l
  regs : ∀ x ∈ a.regs, ∃ l' r', t = l' ++ r' ∧ st.regs x.1 = blen l' ∧ PtOk u x.2 st.regs (last toks) (blen l') r'
  chars : ∀ x ∈ a.chars, ∃ c, st.regs x.1 = code c ∧ x.2.2.testBit (atom u c) = true ∧ ∀ i, x.2.1 = some i → c = r[i]?
  flags : ∀ x ∈ a.flags, (x.2.1 = true → st.regs x.1 = 0) ∧
    (st.regs x.1 ≠ 0 → ∀ q, x.2.2.testBit q = true → st.regs q < blen l)
  toks : TokOk t m toks

theorem ahead_zero {u : Uni} {r : Str} {i : Nat} : ahead u r i = 0 ↔ r.length ≤ i := by
  unfold ahead
  rw [atom_zero, List.getElem?_eq_none_iff]

theorem ahead_drop {u : Uni} {m r : Str} : (fun i => ahead u (m ++ r) (m.length + i)) = ahead u r := by
  funext i; unfold ahead; rw [List.getElem?_append_right (by omega)]; congr 2; omega

theorem Nx.nil (f : Nat → Nat) : Nx [] f := by intro i m h; simp at h

theorem Nx.cons {x : Nat} {n : List Nat} {f : Nat → Nat} (h0 : x.testBit (f 0) = true) (h : Nx n (fun i => f (i + 1))) : Nx (x :: n) f := by
  intro i m hi
  cases i with
  | zero => simp at hi; rw [← hi]; exact h0
  | succ i => simp at hi; exact h i m hi

theorem Nx.head {x : Nat} {n : List Nat} {f : Nat → Nat} (h : Nx (x :: n) f) : x.testBit (f 0) = true := h 0 x rfl

theorem Nx.tail {x : Nat} {n : List Nat} {f : Nat → Nat} (h : Nx (x :: n) f) : Nx n (fun i => f (i + 1)) :=
  fun i m hi => h (i + 1) m (by simpa using hi)

theorem Nx.drop {n : List Nat} {f : Nat → Nat} (h : Nx n f) (k : Nat) : Nx (n.drop k) (fun i => f (k + i)) := by
  intro i m hi
  rw [List.getElem?_drop] at hi
  exact h _ m hi

theorem Nx.refine {n : List Nat} {m k : Nat} {f : Nat → Nat} (hd : ∀ j, f j = 0 → f (j + 1) = 0) (hlt : ∀ j, f j < 153)
    (h : Nx n f) (hk : m.testBit (f k) = true) : Nx (refineNx m k n) f := by
  induction k generalizing n f with
  | zero =>
    cases n with
    | nil => exact Nx.cons hk (Nx.nil _)
    | cons x n => exact Nx.cons (by rw [Nat.testBit_and, h.head, hk]; rfl) h.tail
  | succ k ih =>
    have h0 : m.testBit 0 = false → f 0 ≠ 0 := by
      intro hm h0
      have : ∀ j, f j = 0 := by intro j; induction j with
        | zero => exact h0
        | succ j ih => exact hd j ih
      rw [this, hm] at hk; cases hk
    have hm1 : ∀ x : Nat, x.testBit (f 0) = true → (if m.testBit 0 = true then x else minus x 1).testBit (f 0) = true := by
      intro x hx
      by_cases hm : m.testBit 0 = true
      · rw [if_pos hm]; exact hx
      · rw [if_neg hm, tb_minus, hx, tb_one]
        have := h0 (by simpa using hm)
        simp; omega
    cases n with
    | nil =>
      refine Nx.cons ?_ (ih (fun j => hd (j + 1)) (fun j => hlt (j + 1)) (Nx.nil _) hk)
      exact hm1 top (by rw [tb_top]; simpa using hlt 0)
    | cons x n => exact Nx.cons (hm1 x h.head) (ih (fun j => hd (j + 1)) (fun j => hlt (j + 1)) h.tail hk)

theorem ahead_mono {u : Uni} {r : Str} (j : Nat) : ahead u r j = 0 → ahead u r (j + 1) = 0 := by
  simp only [ahead_zero]; omega

theorem ahead_lt {u : Uni} {r : Str} (j : Nat) : ahead u r j < 153 := atom_lt _

theorem Nx.at {n : List Nat} {u : Uni} {r : Str} (h : Nx n (ahead u r)) (k : Nat) : ((n[k]?).getD top).testBit (ahead u r k) = true := by
  cases hk : n[k]? with
  | none => exact top_atom _
  | some m => exact h k m hk

theorem lookup_mem {β : Type} {l : List (Nat × β)} {q : Nat} {b : β} (h : l.lookup q = some b) : (q, b) ∈ l := by
  induction l with
  | nil => cases h
  | cons x l ih =>
    obtain ⟨x1, x2⟩ := x
    by_cases hq : q = x1
    · subst hq; rw [List.lookup_cons_self] at h; cases h; exact List.mem_cons_self
    · have hq' : (q == x1) = false := by simpa using hq
      simp only [List.lookup, hq'] at h; exact List.mem_cons_of_mem _ (ih h)

section
variable {u : Uni} {src : Source} {t : Str} {m : Mode} {a b : Abs} {st st' : LSt} {l r : Str} {toks : List Tok}

theorem Ok.text (h : Ok u src t m a st l r toks) : t = l ++ r := h.lex.cur.text

theorem Ok.move (h : Ok u src t m a st l r toks) {lex : Lex} (hl : LexAt src t l r toks lex) : Ok u src t m a { st with lex := lex } l r toks :=
  ⟨hl, h.pos, h.here, h.regs, h.chars, h.flags, h.toks⟩

theorem Ok.asked (h : Ok u src t m a st l r toks) (n : Nat) : Ok u src t m a { st with asked := n } l r toks :=
  ⟨h.lex, h.pos, h.here, h.regs, h.chars, h.flags, h.toks⟩

theorem Ok.setNxt (h : Ok u src t m a st l r toks) {n : List Nat} (hn : Nx n (ahead u r)) : Ok u src t m (a.setNxt n) st l r toks :=
  ⟨h.lex, ⟨hn, h.pos.e, h.pos.o, h.pos.le, h.pos.lt⟩, h.here, h.regs, h.chars, h.flags, h.toks⟩

theorem nx_alive {n : List Nat} {f : Nat → Nat} (h : Nx n f) : n.contains 0 = false := by
  rw [← Bool.not_eq_true, List.contains_iff_mem]
  intro hm
  obtain ⟨i, hi⟩ := List.mem_iff_getElem?.mp hm
  simpa using h i 0 hi

theorem Ok.refine (h : Ok u src t m a st l r toks) {k x : Nat} (hk : x.testBit (ahead u r k) = true) :
    ∃ a', a.refine k x = some a' ∧ Ok u src t m a' st l r toks := by
  have := h.pos.nxt.refine ahead_mono ahead_lt hk
  refine ⟨_, ?_, h.setNxt this⟩
  simp only [Abs.refine, nx_alive this]; rfl

theorem Ok.eff (h : Ok u src t m a st l r toks) {q : Nat} {k : Option Nat} {x : Nat} (hx : (q, k, x) ∈ a.chars) :
    ∃ c, st.regs q = code c ∧ (a.eff k x).testBit (atom u c) = true ∧ ∀ i, k = some i → c = r[i]? := by
  obtain ⟨c, h1, h2, h3⟩ := h.chars _ hx
  refine ⟨c, h1, ?_, h3⟩
  cases k with
  | none => exact h2
  | some i =>
    unfold Abs.eff
    have := h.pos.nxt.at i
    rw [Nat.testBit_and, h2, Bool.true_and]
    rw [h3 i rfl]; exact this

theorem Ok.setChar (h : Ok u src t m a st l r toks) {q x : Nat} (hq : ∀ c, st.regs q = code c → x.testBit (atom u c) = true) :
    ∃ a', a.setChar q x = some a' ∧ Ok u src t m a' st l r toks := by
  unfold Abs.setChar
  cases hl : a.chars.lookup q with
  | none => exact ⟨a, rfl, h⟩
  | some y =>
    obtain ⟨k, m0⟩ := y
    obtain ⟨c, h1, h2, h3⟩ := h.eff (lookup_mem hl)
    have hb : (a.eff k m0 &&& x).testBit (atom u c) = true := by rw [Nat.testBit_and, h2, hq c h1]; rfl
    have hne : a.eff k m0 &&& x ≠ 0 := by intro h0; rw [h0] at hb; simp at hb
    have hok : Ok u src t m { a with chars := (q, k, a.eff k m0 &&& x) :: a.chars.filter (fun x => x.1 != q) } st l r toks := by
      refine ⟨h.lex, h.pos, h.here, h.regs, ?_, h.flags, h.toks⟩
      intro y hy
      rcases List.mem_cons.mp hy with rfl | hy
      · exact ⟨c, h1, hb, h3⟩
      · exact h.chars y (List.mem_filter.mp hy).1
    simp only [hne, if_false]
    cases k with
    | none => exact ⟨_, rfl, hok⟩
    | some i => exact hok.refine (by unfold ahead; rw [← h3 i rfl]; exact hb)

theorem PtOk.restrict {p : Pt} {g g' : Nat → Nat} {z v : Nat} (h : PtOk u p g z v r) {f : Nat → Nat} {keep : Nat → Bool}
    (hf : ∀ x q, (f x).testBit q = true → x.testBit q = true ∧ keep q = true) (hr : ∀ q, keep q = true → g' q = g q) :
    PtOk u (p.restrict f) g' z v r :=
  ⟨h.nxt, h.e, h.o, fun q hq => by rw [hr q (hf _ q hq).2]; exact h.le q (hf _ q hq).1,
    fun q hq => by rw [hr q (hf _ q hq).2]; exact h.lt q (hf _ q hq).1⟩

theorem Ok.restrict (h : Ok u src t m a st l r toks) {f : Nat → Nat} {keep : Nat → Bool}
    (hf : ∀ x q, (f x).testBit q = true → x.testBit q = true ∧ keep q = true)
    (hl : LexAt src t l r toks st'.lex) (hr : ∀ q, keep q = true → st'.regs q = st.regs q) :
    Ok u src t m (a.restrict f keep) st' l r toks := by
  refine ⟨hl, h.pos.restrict hf hr, fun q hq => by rw [hr q (hf _ q hq).2]; exact h.here q (hf _ q hq).1, ?_, ?_, ?_, h.toks⟩
  · intro x hx
    obtain ⟨y, hy, rfl⟩ := List.mem_map.mp hx
    obtain ⟨hy, hk⟩ := List.mem_filter.mp hy
    obtain ⟨l', r', h1, h2, h3⟩ := h.regs y hy
    exact ⟨l', r', h1, by rw [hr _ hk]; exact h2, h3.restrict hf hr⟩
  · intro x hx
    obtain ⟨hx, hk⟩ := List.mem_filter.mp hx
    rw [hr _ hk]; exact h.chars x hx
  · intro x hx
    obtain ⟨y, hy, rfl⟩ := List.mem_map.mp hx
    obtain ⟨hy, hk⟩ := List.mem_filter.mp hy
    obtain ⟨h1, h2⟩ := h.flags y hy
    rw [hr _ hk]
    exact ⟨h1, fun hne q hq => by rw [hr q (hf _ q hq).2]; exact h2 hne q (hf _ q hq).1⟩

theorem Ok.forget (h : Ok u src t m a st l r toks) (q n : Nat) : Ok u src t m (a.forget q) (st.set q n) l r toks := by
  refine h.restrict ?_ h.lex ?_
  · intro x i hi
    rw [tb_minus, tb_pow] at hi
    simp at hi ⊢
    exact ⟨hi.1, fun h => hi.2 h.symm⟩
  · intro i hi
    simp at hi
    simp [LSt.set, hi]

/-- A variable that is not written is dropped. -/
theorem Ok.drop (h : Ok u src t m a st l r toks) (q : Nat) : Ok u src t m (a.forget q) st l r toks := by
  refine h.restrict ?_ h.lex (fun _ _ => rfl)
  intro x i hi
  rw [tb_minus, tb_pow] at hi
  simp at hi ⊢
  exact ⟨hi.1, fun h => hi.2 h.symm⟩

theorem Ok.leave (h : Ok u src t m a st l r toks) (lo : Nat) : Ok u src t m (a.leave lo) st l r toks := by
  refine h.restrict ?_ h.lex (fun _ _ => rfl)
  intro x i hi
  rw [Nat.testBit_mod_two_pow] at hi
  simp at hi ⊢
  exact ⟨hi.2, hi.1⟩

theorem Ok.strict (h : Ok u src t m a st l r toks) {s r' : Str} (hr : r = s ++ r') (hs : s ≠ []) {lex : Lex}
    (hl : LexAt src t (l ++ s) r' toks lex) {n : List Nat} (hn : Nx n (ahead u r')) {d : Option Nat} (hd : ∀ k, d = some k → s.length = k) :
    Ok u src t m (a.strict n d) { st with lex := lex } (l ++ s) r' toks := by
  have hp := blen_pos hs
  have hlt : ∀ q, (a.pos.lt ||| a.pos.le).testBit q = true → st.regs q < blen (l ++ s) := by
    intro q hq
    rw [Nat.testBit_or, Bool.or_eq_true] at hq
    rw [blen_append]
    rcases hq with hq | hq
    · have := h.pos.lt q hq; omega
    · have := h.pos.le q hq; omega
  refine ⟨hl, ⟨hn, by simp [Abs.strict], ?_, ?_, hlt⟩, by simp [Abs.strict], h.regs, ?_, ?_, h.toks⟩
  · intro ho; have := h.pos.o ho; rw [blen_append]; omega
  · intro q hq
    simp only [Abs.strict] at hq
    rw [Nat.testBit_or, Bool.or_eq_true] at hq
    rcases hq with hq | hq
    · have := h.pos.le q hq; rw [blen_append]; show st.regs q ≤ _; omega
    · have := hlt q hq; exact Nat.le_of_lt this
  · intro x hx
    obtain ⟨y, hy, rfl⟩ := List.mem_map.mp hx
    obtain ⟨q, k, x⟩ := y
    obtain ⟨c, h1, h2, h3⟩ := h.eff hy
    refine ⟨c, h1, h2, ?_⟩
    intro i hi
    cases k with
    | none => simp at hi
    | some k =>
      cases d with
      | none => simp at hi
      | some d =>
        simp only at hi
        split at hi
        · rename_i hle
          have hle : d ≤ k := Nat.le_of_ble_eq_true hle
          simp at hi
          rw [h3 k rfl, hr, ← hi, ← hd d rfl, List.getElem?_append_right (by rw [hd d rfl]; omega)]
        · cases hi
  · intro x hx
    obtain ⟨y, hy, rfl⟩ := List.mem_map.mp hx
    obtain ⟨h1, h2⟩ := h.flags y hy
    refine ⟨h1, fun hne q hq => ?_⟩
    simp only [] at hq
    rw [Nat.testBit_or, Bool.or_eq_true] at hq
    rcases hq with hq | hq
    · have := h2 hne q hq; rw [blen_append]; show st.regs q < _; omega
    · exact hlt q hq

theorem Ok.weak (h : Ok u src t m a st l r toks) {s r' : Str} {lex : Lex}
    (hl : LexAt src t (l ++ s) r' toks lex) {n : List Nat} (hn : Nx n (ahead u r')) :
    Ok u src t m (a.weak n) { st with lex := lex } (l ++ s) r' toks := by
  have hb : blen l ≤ blen (l ++ s) := by simp
  refine ⟨hl, ⟨hn, by simp [Abs.weak], ?_, ?_, ?_⟩, by simp [Abs.weak], h.regs, ?_, ?_, h.toks⟩
  · intro ho; exact Nat.le_trans (h.pos.o ho) hb
  · intro q hq; exact Nat.le_trans (h.pos.le q hq) hb
  · intro q hq; exact Nat.lt_of_lt_of_le (h.pos.lt q hq) hb
  · intro x hx
    obtain ⟨y, hy, rfl⟩ := List.mem_map.mp hx
    obtain ⟨q, k, x⟩ := y
    obtain ⟨c, h1, h2, h3⟩ := h.eff hy
    exact ⟨c, h1, h2, by simp⟩
  · intro x hx
    obtain ⟨h1, h2⟩ := h.flags x hx
    exact ⟨h1, fun hne q hq => Nat.lt_of_lt_of_le (h2 hne q hq) hb⟩

theorem zip_left {p q : List Nat} {f : Nat → Nat} (h : Nx p f) : Nx (List.zipWith (· ||| ·) p q) f := by
  intro i x hi
  rw [List.getElem?_zipWith] at hi
  cases hp : p[i]? with
  | none => simp [hp] at hi
  | some y =>
    cases hq : q[i]? with
    | none => simp [hp, hq] at hi
    | some z => simp [hp, hq] at hi; rw [← hi, Nat.testBit_or, h i y hp]; rfl

theorem zip_right {p q : List Nat} {f : Nat → Nat} (h : Nx q f) : Nx (List.zipWith (· ||| ·) p q) f := by
  intro i x hi
  rw [List.getElem?_zipWith] at hi
  cases hp : p[i]? with
  | none => simp [hp] at hi
  | some y =>
    cases hq : q[i]? with
    | none => simp [hp, hq] at hi
    | some z => simp [hp, hq] at hi; rw [← hi, Nat.testBit_or, h i z hq]; simp

theorem PtOk.left {p q : Pt} {g : Nat → Nat} {z v : Nat} (h : PtOk u p g z v r) : PtOk u (p.join q) g z v r := by
  refine ⟨zip_left h.nxt, ?_, ?_, ?_, ?_⟩
  · intro he; simp [Pt.join] at he; exact h.e he.1
  · intro he; simp [Pt.join] at he; exact h.o he.1
  · intro i hi; simp [Pt.join, Nat.testBit_and] at hi; exact h.le i hi.1
  · intro i hi; simp [Pt.join, Nat.testBit_and] at hi; exact h.lt i hi.1

theorem PtOk.right {p q : Pt} {g : Nat → Nat} {z v : Nat} (h : PtOk u q g z v r) : PtOk u (p.join q) g z v r := by
  refine ⟨zip_right h.nxt, ?_, ?_, ?_, ?_⟩
  · intro he; simp [Pt.join] at he; exact h.e he.2
  · intro he; simp [Pt.join] at he; exact h.o he.2
  · intro i hi; simp [Pt.join, Nat.testBit_and] at hi; exact h.le i hi.2
  · intro i hi; simp [Pt.join, Nat.testBit_and] at hi; exact h.lt i hi.2

theorem Ok.left (h : Ok u src t m a st l r toks) : Ok u src t m (a.join b) st l r toks := by
  refine ⟨h.lex, h.pos.left, ?_, ?_, ?_, ?_, h.toks⟩
  · intro q hq; simp [Abs.join, Nat.testBit_and] at hq; exact h.here q hq.1
  · intro x hx
    obtain ⟨y, hy, hx⟩ := List.mem_filterMap.mp hx
    obtain ⟨p, hp, rfl⟩ := Option.map_eq_some_iff.mp hx
    obtain ⟨l', r', h1, h2, h3⟩ := h.regs y hy
    exact ⟨l', r', h1, h2, h3.left⟩
  · intro x hx
    obtain ⟨y, hy, hx⟩ := List.mem_filterMap.mp hx
    obtain ⟨p, hp, rfl⟩ := Option.map_eq_some_iff.mp hx
    obtain ⟨q, k, y⟩ := y
    obtain ⟨c, h1, h2, h3⟩ := h.eff hy
    refine ⟨c, h1, by rw [Nat.testBit_or, h2]; rfl, ?_⟩
    intro i hi
    simp only [] at hi
    split at hi
    · exact h3 i hi
    · cases hi
  · intro x hx
    obtain ⟨y, hy, hx⟩ := List.mem_filterMap.mp hx
    obtain ⟨p, hp, rfl⟩ := Option.map_eq_some_iff.mp hx
    obtain ⟨h1, h2⟩ := h.flags y hy
    refine ⟨fun hz => h1 (by simp at hz; exact hz.1), fun hne q hq => h2 hne q ?_⟩
    simp [Nat.testBit_and] at hq; exact hq.1

theorem Ok.right (h : Ok u src t m b st l r toks) : Ok u src t m (a.join b) st l r toks := by
  refine ⟨h.lex, h.pos.right, ?_, ?_, ?_, ?_, h.toks⟩
  · intro q hq; simp [Abs.join, Nat.testBit_and] at hq; exact h.here q hq.2
  · intro x hx
    obtain ⟨y, hy, hx⟩ := List.mem_filterMap.mp hx
    obtain ⟨p, hp, rfl⟩ := Option.map_eq_some_iff.mp hx
    obtain ⟨l', r', h1, h2, h3⟩ := h.regs _ (lookup_mem hp)
    exact ⟨l', r', h1, h2, h3.right⟩
  · intro x hx
    obtain ⟨y, hy, hx⟩ := List.mem_filterMap.mp hx
    obtain ⟨p, hp, rfl⟩ := Option.map_eq_some_iff.mp hx
    obtain ⟨q, k, y⟩ := y
    obtain ⟨k', y'⟩ := p
    obtain ⟨c, h1, h2, h3⟩ := h.eff (lookup_mem hp)
    refine ⟨c, h1, by rw [Nat.testBit_or, h2]; simp, ?_⟩
    intro i hi
    simp only [] at hi
    split at hi
    · rename_i he; exact h3 i (by rw [← he]; exact hi)
    · cases hi
  · intro x hx
    obtain ⟨y, hy, hx⟩ := List.mem_filterMap.mp hx
    obtain ⟨p, hp, rfl⟩ := Option.map_eq_some_iff.mp hx
    obtain ⟨h1, h2⟩ := h.flags _ (lookup_mem hp)
    refine ⟨fun hz => h1 (by simp at hz; exact hz.2), fun hne q hq => h2 hne q ?_⟩
    simp [Nat.testBit_and] at hq; exact hq.2

end

end Oaks.Lc
