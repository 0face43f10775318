import Verif.Proofs.LexWords
import Verif.Spec.LexForms

/-! Following a lexer program over words of any length: `sweep` does with a form what `follow` does with each word of it. -/
namespace Oaks.Lc
open Spec

/-- A place in a word: after `i` characters of its beginning, or after its middle part and `j` characters of its end. -/
inductive Place where
  | pre (i : Nat)
  | post (j : Nat)
deriving DecidableEq

/-- What is known of a register: a number, a character of a set, a place in the word, a place in the word around. -/
inductive SVal where
  | num (n : Nat)
  | chrs (s : Chars)
  | pos (p : Place)
  | old (p : Place)
deriving DecidableEq

structure Sw where
  pt : Place
  regs : List (Nat × Option SVal)
  toks : List (Place × Place)

def Sw.get (a : Sw) (q : Nat) : Option SVal := (a.regs.lookup q).join
def Sw.set (a : Sw) (q : Nat) (v : Option SVal) : Sw := { a with regs := (q, v) :: a.regs }
def Sw.add (a : Sw) (x y : Place) : Sw := { a with toks := a.toks ++ [(x, y)] }

/-- The sets of the characters that come, as far as they are known. -/
def _root_.Oaks.Spec.Form.view (f : Form) : Place → List Chars
  | .pre i => if i ≤ f.pre.length then f.pre.drop i ++ (match f.post with | [] => [] | q :: _ => [f.mid ++ q]) else []
  | .post j => f.post.drop j

def _root_.Oaks.Spec.Form.plus (f : Form) : Place → Nat → Option Place
  | .pre i, n => if i + n ≤ f.pre.length then some (.pre (i + n)) else none
  | .post j, n => if j + n ≤ f.post.length then some (.post (j + n)) else none

/-- There are at least `n` characters more. -/
def _root_.Oaks.Spec.Form.far (f : Form) : Place → Nat → Bool
  | .pre i, n => decide (i + n ≤ f.pre.length + f.post.length)
  | .post j, n => decide (j + n ≤ f.post.length)

/-- Whether the first place is before the second. -/
def _root_.Oaks.Spec.Form.before (f : Form) : Place → Place → Option Bool
  | .pre i, .pre j => some (decide (i < j))
  | .post i, .post j => some (decide (i < j))
  | .pre i, .post j => if i < f.pre.length + j then some true else none
  | .post j, .pre i => if i ≤ f.pre.length + j then some false else none

/-- The test on a range of ASCII characters. -/
def CSet.onR : CSet → Nat × Nat → Option Bool
  | rg a b, e => if a ≤ e.1 ∧ e.2 ≤ b then some true else if e.2 < a ∨ b < e.1 then some false else none
  | alpha, e => onTwo 65 90 97 122 e
  | num, e => onTwo 48 57 48 57 e
  | alnum, e => if (onTwo 65 90 97 122 e = some true ∨ onTwo 48 57 48 57 e = some true) then some true
      else if onTwo 65 90 97 122 e = some false ∧ onTwo 48 57 48 57 e = some false then some false else none
  | white, e => onTwo 9 13 32 32 e
  | upper, e => onTwo 65 90 65 90 e
  | lower, e => onTwo 97 122 97 122 e
  | ctrl, e => onTwo 0 31 127 127 e
  | or x y, e => if x.onR e = some true ∨ y.onR e = some true then some true
      else if x.onR e = some false ∧ y.onR e = some false then some false else none
  | and x y, e => if x.onR e = some false ∨ y.onR e = some false then some false
      else if x.onR e = some true ∧ y.onR e = some true then some true else none
  | not x, e => (x.onR e).map (!·)
where
  onTwo (a b c d : Nat) (e : Nat × Nat) : Option Bool :=
    if (a ≤ e.1 ∧ e.2 ≤ b) ∨ (c ≤ e.1 ∧ e.2 ≤ d) then some true
    else if (e.2 < a ∨ b < e.1) ∧ (e.2 < c ∨ d < e.1) then some false else none

/-- The test on a set of ASCII characters. -/
def CSet.onS (x : CSet) (s : Chars) : Option Bool :=
  if s.all fun e => decide (e.2 < 128) then
    if s.all fun e => x.onR e == some true then some true
    else if s.all fun e => x.onR e == some false then some false else none
  else none

def apart (s : Chars) (c : Char) : Bool := s.all fun e => decide (e.2 < c.toNat ∨ c.toNat < e.1)

/-- Whether the text starts so. -/
def matchAll : List Chars → Str → Option Bool
  | _, [] => some true
  | [], _ :: _ => none
  | t :: ts, c :: s =>
    if apart t c then some false
    else match matchAll ts s with
      | some false => some false
      | some true => if t.all fun e => decide (e = (c.toNat, c.toNat)) then some true else none
      | none => none

def matchMarker (ts : List Chars) (s : Str) : Option Bool := if s = [] then some false else matchAll ts s

/-- How many characters pass the test; whether there is one then that does not. -/
def walk (x : CSet) : List Chars → Option (Nat × Bool)
  | [] => some (0, false)
  | t :: ts =>
    match x.onS t with
    | some true => (walk x ts).map fun r => (r.1 + 1, r.2)
    | some false => some (0, true)
    | none => none

def _root_.Oaks.Spec.Form.take (f : Form) (x : CSet) : Place → Option Place
  | .pre i =>
    if i ≤ f.pre.length then
      match walk x (f.pre.drop i) with
      | some (j, true) => some (.pre (i + j))
      | some (_, false) =>
        if x.onS f.mid = some true then
          match walk x f.post with
          | some (j, true) => some (.post j)
          | _ => none
        else none
      | none => none
    else none
  | .post j =>
    match walk x (f.post.drop j) with
    | some (j', true) => some (.post (j + j'))
    | _ => none

def SVal.inner : SVal → Option SVal
  | .num n => some (.num n)
  | .chrs s => some (.chrs s)
  | .pos p => some (.old p)
  | .old _ => none

def SVal.outer : SVal → Option SVal
  | .num n => some (.num n)
  | .chrs s => some (.chrs s)
  | .old p => some (.pos p)
  | .pos _ => none

/-- One turn over one character of the middle part. -/
def starTurn (c p : Form → Sw → Option (Sw × Out)) (g : Nat) (regs : List (Nat × Option SVal)) (e : Nat × Nat) : Option Sw :=
  match c ⟨[[e]], [], []⟩ (Sw.set ⟨.pre 0, regs, []⟩ g (some (.pos (.pre 0)))) with
  | some (a, .val true) =>
    match p ⟨[[e]], [], []⟩ a with
    | some (a, .val _) => if a.pt = .pre 1 ∧ a.toks = [] then some a else none
    | some (a, .cont) => if a.pt = .pre 1 ∧ a.toks = [] then some a else none
    | _ => none
  | _ => none

/-- The registers that no turn changes. -/
def starKeep (c p : Form → Sw → Option (Sw × Out)) (g : Nat) (mid : Chars) (regs : List (Nat × Option SVal)) : List (Nat × Option SVal) :=
  regs.filter fun r => mid.all fun e =>
    match starTurn c p g regs e with
    | some a => a.get r.1 == r.2
    | none => false

/-- All turns over the middle part. -/
def star (c p : Form → Sw → Option (Sw × Out)) (g : Nat) (mid : Chars) (a : Sw) : Option Sw :=
  let r0 := (a.regs.map (·.1)).dedup.map fun q => (q, (a.get q).bind SVal.inner)
  let r1 := starKeep c p g mid (starKeep c p g mid r0)
  if mid.all fun e =>
    match starTurn c p g r1 e with
    | some b => r1.all fun r => b.get r.1 == (r1.lookup r.1).join
    | none => false
  then some ⟨.post 0, r1.map fun r => (r.1, r.2.bind SVal.outer), a.toks⟩ else none

/-- The blanks of `isWs`. -/
def blankSet : CSet := .or (.rg 32 32) (.or (.rg 9 10) (.rg 13 13))

def sweepTurns (c p : Sw → Option (Sw × Out)) (st : Sw → Option Sw) (len g : Nat) : Nat → Bool → Sw → Option (Sw × Out)
  | 0, _, _ => none
  | n + 1, fresh, a =>
    match (if fresh = true ∧ a.pt = .pre len then st a else none) with
    | some a => sweepTurns c p st len g n false a
    | none =>
      match c (a.set g (some (.pos a.pt))) with
      | some (a, .val true) =>
        match p a with
        | some (a, .brk) => some (a, .val true)
        | some (a, .ret b) => some (a, .ret b)
        | some (a, _) => sweepTurns c p st len g n fresh a
        | none => none
      | some (a, .ret b) => some (a, .ret b)
      | some (a, _) => some (a, .val true)
      | none => none

/-- Where the program gets on the words of the form; `none` if it depends on more than that. -/
def sweep (whole : Bool) : Code → Form → Sw → Option (Sw × Out)
  | .val b, _, a => some (a, .val b)
  | .more, f, a => if (f.view a.pt).isEmpty then none else some (a, .val true)
  | .look q, f, a => some (a.set q (((f.view a.pt)[0]?).map .chrs), .val true)
  | .lookN q n, f, a =>
    match (f.view a.pt)[n]? with
    | some s => some (a.set q (some (.chrs s)), .val true)
    | none => if f.far a.pt n then some (a.set q none, .val true) else none
  | .ask q h, _, a =>
    match a.get q with
    | some (.num n) => some (a, .val (h n))
    | _ => none
  | .comp q p h, _, a =>
    match a.get p with
    | some (.num n) => some (a.set q (some (.num (h n))), .val true)
    | _ => some (a.set q none, .val true)
  | .put q n, _, a => some (a.set q (some (.num n)), .val true)
  | .putc q c, _, a => some (a.set q (some (.chrs [(c.toNat, c.toNat)])), .val true)
  | .flag q, _, a =>
    match a.get q with
    | some (.num n) => some (a, .val (n != 0))
    | _ => none
  | .copy q p, _, a => some (a.set q (a.get p), .val true)
  | .chr q x, _, a =>
    match a.get q with
    | some (.chrs s) => (x.onS s).map fun b => (a, .val b)
    | _ => none
  | .same p q, _, a =>
    match a.get p, a.get q with
    | some (.chrs s), some (.chrs s') =>
      if s.all fun e => s'.all fun e' => decide (e.2 < e'.1 ∨ e'.2 < e.1) then some (a, .val false)
      else match s with
        | [e] => if e.1 = e.2 ∧ s' = [e] then some (a, .val true) else none
        | _ => none
    | _, _ => none
  | .starts s, f, a => (matchAll (f.view a.pt) s).map fun b => (a, .val b)
  | .restStarts s, f, a =>
    match matchAll (f.view a.pt) s with
    | some b => if whole || !b then some (a, .val b) else none
    | none => none
  | .adv n, f, a => (f.plus a.pt n).map fun p => ({ a with pt := p }, .val true)
  | .advc q, f, a =>
    match a.get q with
    | some (.chrs s) => if s.all fun e => decide (e.2 < 128) then (f.plus a.pt 1).map fun p => ({ a with pt := p }, .val true) else none
    | _ => none
  | .mark q, _, a => some (a.set q (some (.pos a.pt)), .val true)
  | .goto q, f, a =>
    match a.get q with
    | some (.pos p) => (f.plus p 0).map fun p => ({ a with pt := p }, .val true)
    | _ => none
  | .tok q, _, a =>
    match a.get q with
    | some (.pos p) => some (a.add p a.pt, .val true)
    | _ => none
  | .tokTo p q, _, a =>
    match a.get p, a.get q with
    | some (.pos p), some (.pos p') => some (a.add p p', .val true)
    | _, _ => none
  | .take x, f, a => (f.take x a.pt).map fun p => ({ a with pt := p }, .val true)
  | .space v, f, a =>
    (f.take (if v then .white else blankSet) a.pt).bind fun p =>
      if p = a.pt then some (a, .val false)
      else if f.before a.pt p = some true then some (({ a with pt := p } : Sw).add a.pt p, .val true) else none
  | .comment cfg, f, a =>
    if matchMarker (f.view a.pt) cfg.line = some false ∧ matchMarker (f.view a.pt) cfg.opener = some false then some (a, .val false) else none
  | .quoted cfg, f, a =>
    match (f.view a.pt)[0]? with
    | some s => if cfg.quotes.all (apart s) then some (a, .val false) else none
    | none => none
  | .guard q, f, a =>
    match a.get q with
    | some (.pos p) =>
      if p = a.pt then if (f.view a.pt).isEmpty then none else (f.plus a.pt 1).map fun p => ({ a with pt := p }, .val true)
      else if f.before p a.pt = some true ∨ f.before a.pt p = some true then some (a, .val true) else none
    | _ => none
  | .moved q, f, a =>
    match a.get q with
    | some (.pos p) => (f.before p a.pt).map fun b => (a, .val b)
    | _ => none
  | .seq p q, f, a =>
    match sweep whole p f a with
    | some (a, .val _) => sweep whole q f a
    | x => x
  | .ite c p q, f, a =>
    match sweep whole c f a with
    | some (a, .val true) => sweep whole p f a
    | some (a, .val false) => sweep whole q f a
    | x => x
  | .loop g _ c p, f, a =>
    sweepTurns (fun a => sweep whole c f a) (fun a => sweep whole p f a) (star (sweep whole c) (sweep whole p) g f.mid) f.pre.length g
      (f.pre.length + f.post.length + 1) true a
  | .brk, _, a => some (a, .brk)
  | .cont, _, a => some (a, .cont)
  | .ret b, _, a => some (a, .ret b)
  | .scope _ p, f, a =>
    match sweep whole p f a with
    | some (a, .val b) => some (a, .val b)
    | some (a, .ret b) => some (a, .val b)
    | some (a, _) => some (a, .val true)
    | none => none
  | _, _, _ => none

/-! ### It is right -/

theorem onTwo_right {a b c d : Nat} {e : Nat × Nat} {r : Bool} (h : CSet.onR.onTwo a b c d e = some r) {n : Nat} (h1 : e.1 ≤ n) (h2 : n ≤ e.2) :
    (between a b n || between c d n) = r := by
  unfold CSet.onR.onTwo at h
  split at h
  · cases h
    simp only [between, Bool.or_eq_true, Bool.and_eq_true, Nat.ble_eq]
    omega
  · split at h
    · cases h
      rw [Bool.eq_false_iff]
      simp only [between, ne_eq, Bool.or_eq_true, Bool.and_eq_true, Nat.ble_eq]
      omega
    · cases h

theorem onR_right {x : CSet} {e : Nat × Nat} {r : Bool} {c : Char} (h1 : e.1 ≤ c.toNat) (h2 : c.toNat ≤ e.2) (h3 : e.2 < 128) (h : x.onR e = some r) :
    x.has plain c = r := by
  have hc : c.toNat < 128 := by omega
  induction x generalizing r with
  | rg a b =>
    simp only [CSet.onR] at h
    split at h
    · cases h
      simp only [CSet.has, between, Bool.and_eq_true, Nat.ble_eq]
      omega
    · split at h
      · cases h
        rw [Bool.eq_false_iff]
        simp only [CSet.has, between, ne_eq, Bool.and_eq_true, Nat.ble_eq]
        omega
      · cases h
  | alpha => simpa [CSet.has, isAlpha, hc] using onTwo_right h h1 h2
  | num => simpa [CSet.has, isNum, hc] using onTwo_right h h1 h2
  | alnum =>
    simp only [CSet.onR] at h
    have g1 : isAlpha plain c = (between 65 90 c.toNat || between 97 122 c.toNat) := by simp [isAlpha, hc]
    have g2 : isNum plain c = (between 48 57 c.toNat || between 48 57 c.toNat) := by simp [isNum, hc]
    simp only [CSet.has, g1, g2]
    split at h
    · rename_i ho
      cases h
      rcases ho with ho | ho
      · rw [onTwo_right ho h1 h2]; rfl
      · rw [onTwo_right ho h1 h2]; simp
    · split at h
      · rename_i ho
        cases h
        rw [onTwo_right ho.1 h1 h2, onTwo_right ho.2 h1 h2]; rfl
      · cases h
  | white => simpa [CSet.has, isWhite, hc] using onTwo_right h h1 h2
  | upper => simpa [CSet.has, hc] using onTwo_right h h1 h2
  | lower => simpa [CSet.has, hc] using onTwo_right h h1 h2
  | ctrl => simpa [CSet.has, hc] using onTwo_right h h1 h2
  | or x y hx hy =>
    simp only [CSet.onR] at h
    split at h
    · rename_i ho
      cases h
      rcases ho with ho | ho
      · simp [CSet.has, hx ho]
      · simp [CSet.has, hy ho]
    · split at h
      · rename_i ho
        cases h
        simp [CSet.has, hx ho.1, hy ho.2]
      · cases h
  | and x y hx hy =>
    simp only [CSet.onR] at h
    split at h
    · rename_i ho
      cases h
      rcases ho with ho | ho
      · simp [CSet.has, hx ho]
      · simp [CSet.has, hy ho]
    · split at h
      · rename_i ho
        cases h
        simp [CSet.has, hx ho.1, hy ho.2]
      · cases h
  | not x hx =>
    simp only [CSet.onR] at h
    obtain ⟨b, hb, rfl⟩ := Option.map_eq_some_iff.mp h
    simp [CSet.has, hx hb]

theorem onS_right {x : CSet} {s : Chars} {r : Bool} {c : Char} (hc : inR s c) (h : x.onS s = some r) : c.toNat < 128 ∧ x.has plain c = r := by
  obtain ⟨e, he, h1, h2⟩ := hc
  unfold CSet.onS at h
  split at h
  · rename_i ha
    have h3 : e.2 < 128 := by simpa using List.all_eq_true.mp ha e he
    refine ⟨by omega, ?_⟩
    split at h
    · rename_i hb
      cases h
      exact onR_right h1 h2 h3 (by simpa using List.all_eq_true.mp hb e he)
    · split at h
      · rename_i hb
        cases h
        exact onR_right h1 h2 h3 (by simpa using List.all_eq_true.mp hb e he)
      · cases h
  · cases h

theorem apart_right {s : Chars} {c d : Char} (hc : inR s c) (h : apart s d = true) : c ≠ d := by
  obtain ⟨e, he, h1, h2⟩ := hc
  have := List.all_eq_true.mp h e he
  simp only [decide_eq_true_eq] at this
  rintro rfl
  omega

theorem char_toNat_inj {c d : Char} (h : c.toNat = d.toNat) : c = d := by
  apply Char.ext
  exact UInt32.toNat_inj.mp h

theorem inR_append {s s' : Chars} {c : Char} (h : inR s c ∨ inR s' c) : inR (s ++ s') c := by
  rcases h with ⟨e, he, h⟩ | ⟨e, he, h⟩
  · exact ⟨e, List.mem_append_left _ he, h⟩
  · exact ⟨e, List.mem_append_right _ he, h⟩

theorem fits_length {f : List Chars} {w : Str} (h : Suits f w) : w.length = f.length := by
  induction f generalizing w with
  | nil => cases w with | nil => rfl | cons c w => cases h
  | cons s f ih =>
    cases w with
    | nil => cases h
    | cons c w => simp [ih h.2]

theorem fits_get {f : List Chars} {w : Str} (h : Suits f w) {i : Nat} {s : Chars} (hs : f[i]? = some s) : ∃ c, w[i]? = some c ∧ inR s c := by
  induction f generalizing w i with
  | nil => cases hs
  | cons s' f ih =>
    cases w with
    | nil => cases h
    | cons c w =>
      cases i with
      | zero => simp at hs; subst hs; exact ⟨c, rfl, h.1⟩
      | succ i => exact ih h.2 (by simpa using hs)

/-- The known text `K` has a word of the form at `o`, with `n` characters in its middle part. -/
structure Fit (f : Form) (K : Str) (o n : Nat) : Prop where
  text : ∃ b0 P w Q z, K = b0 ++ (P ++ (w ++ (Q ++ z))) ∧ b0.length = o ∧ Suits f.pre P ∧ (∀ c ∈ w, inR f.mid c) ∧ w.length = n ∧ Suits f.post Q

/-- Where the place is. -/
def _root_.Oaks.Spec.Form.at (f : Form) (o n : Nat) : Place → Nat
  | .pre i => o + i
  | .post j => o + f.pre.length + n + j

theorem Fit.long {f : Form} {K : Str} {o n : Nat} (h : Fit f K o n) : o + f.pre.length + n + f.post.length ≤ K.length := by
  obtain ⟨b0, P, w, Q, z, rfl, h1, h2, _, h3, h4⟩ := h.text
  have := fits_length h2
  have := fits_length h4
  simp only [List.length_append]
  omega

theorem Fit.view {f : Form} {K : Str} {o n : Nat} (h : Fit f K o n) {p : Place} {m : Nat} {s : Chars} (hs : (f.view p)[m]? = some s) :
    ∃ c, K[f.at o n p + m]? = some c ∧ inR s c := by
  obtain ⟨b0, P, w, Q, z, rfl, rfl, h2, hw, rfl, h4⟩ := h.text
  have l1 := fits_length h2
  have l2 := fits_length h4
  have skip : ∀ j, (b0 ++ (P ++ (w ++ (Q ++ z))))[b0.length + j]? = (P ++ (w ++ (Q ++ z)))[j]? := by
    intro j
    rw [List.getElem?_append_right (by omega)]
    congr 1
    omega
  cases p with
  | pre i =>
    simp only [Form.view] at hs
    split at hs
    · rename_i hi
      simp only [Form.at, Nat.add_assoc, skip]
      by_cases hm : m < f.pre.length - i
      · rw [List.getElem?_append_left (by simpa using hm), List.getElem?_drop] at hs
        rw [List.getElem?_append_left (by omega)]
        exact fits_get h2 hs
      · rw [List.getElem?_append_right (by simpa using hm)] at hs
        cases hq : f.post with
        | nil => rw [hq] at hs; simp at hs
        | cons q qs =>
          rw [hq] at hs
          simp only [List.length_drop] at hs
          have hm' : m = f.pre.length - i := by
            have := (List.getElem?_eq_some_iff.mp hs).1
            simp at this
            omega
          subst hm'
          simp at hs
          subst hs
          rw [List.getElem?_append_right (by omega), l1, show i + (f.pre.length - i) - f.pre.length = 0 by omega]
          cases w with
          | cons c w => exact ⟨c, rfl, inR_append (.inl (hw c (by simp)))⟩
          | nil =>
            rw [hq] at h4
            cases Q with
            | nil => cases h4
            | cons c Q => exact ⟨c, rfl, inR_append (.inr h4.1)⟩
    · cases hs
  | post j =>
    simp only [Form.view, List.getElem?_drop] at hs
    obtain ⟨c, hc, hr⟩ := fits_get h4 hs
    refine ⟨c, ?_, hr⟩
    have := (List.getElem?_eq_some_iff.mp hc).1
    simp only [Form.at]
    rw [show b0.length + f.pre.length + w.length + j + m = b0.length + (P.length + (w.length + (j + m))) by omega, skip,
      List.getElem?_append_right (by omega), List.getElem?_append_right (by omega), List.getElem?_append_left (by omega),
      show P.length + (w.length + (j + m)) - P.length - w.length = j + m by omega, hc]

theorem matchAll_right {K : Str} {i : Nat} {ts : List Chars} {s : Str} {b : Bool} (hv : ∀ m t, ts[m]? = some t → ∃ c, K[i + m]? = some c ∧ inR t c)
    (h : matchAll ts s = some b) : (b = true → s <+: K.drop i) ∧ (b = false → ¬ s <+: K.drop i ∧ ¬ K.drop i <+: s) := by
  induction ts generalizing s i b with
  | nil =>
    cases s with
    | nil => cases h; simp
    | cons c s => cases h
  | cons t ts ih =>
    cases s with
    | nil => cases h; simp
    | cons d s =>
      obtain ⟨c, hc, hr⟩ := hv 0 t rfl
      obtain ⟨hi, rfl⟩ := List.getElem?_eq_some_iff.mp hc
      rw [Nat.add_zero] at hi
      rw [List.drop_eq_getElem_cons hi]
      simp only [Nat.add_zero] at hr
      have hv' : ∀ m t', ts[m]? = some t' → ∃ c, K[i + 1 + m]? = some c ∧ inR t' c := by
        intro m t' ht
        have := hv (m + 1) t' (by simpa using ht)
        rwa [show i + (m + 1) = i + 1 + m by omega] at this
      simp only [matchAll] at h
      simp only [List.cons_prefix_cons]
      split at h
      · rename_i ha
        cases h
        have := apart_right hr ha
        exact ⟨by simp, fun _ => ⟨fun e => this e.1.symm, fun e => this e.1⟩⟩
      · split at h
        · rename_i hm
          cases h
          have := (ih hv' hm).2 rfl
          exact ⟨by simp, fun _ => ⟨fun e => this.1 e.2, fun e => this.2 e.2⟩⟩
        · rename_i hm
          split at h
          · rename_i ha
            cases h
            obtain ⟨e, he, h1, h2⟩ := hr
            have := List.all_eq_true.mp ha e he
            simp only [decide_eq_true_eq] at this
            rw [this] at h1 h2
            exact ⟨fun _ => ⟨char_toNat_inj (by simp at h1 h2; omega), (ih hv' hm).1 rfl⟩, by simp⟩
          · cases h
        · cases h

theorem matchAll_see {K : Str} {i : Nat} {ts : List Chars} {s : Str} {b : Bool} (hv : ∀ m t, ts[m]? = some t → ∃ c, K[i + m]? = some c ∧ inR t c)
    (h : matchAll ts s = some b) : seeStarts K false i s = some b := by
  obtain ⟨h1, h2⟩ := matchAll_right hv h
  unfold seeStarts
  cases b with
  | true => rw [if_pos (List.isPrefixOf_iff_prefix.mpr (h1 rfl))]
  | false =>
    obtain ⟨g1, g2⟩ := h2 rfl
    rw [if_neg (fun e => g1 (List.isPrefixOf_iff_prefix.mp e)), if_neg (fun e => g2 (List.isPrefixOf_iff_prefix.mp e))]

theorem matchMarker_see {K : Str} {i : Nat} {ts : List Chars} {s : Str} {b : Bool} (hv : ∀ m t, ts[m]? = some t → ∃ c, K[i + m]? = some c ∧ inR t c)
    (h : matchMarker ts s = some b) : seeMarker K false i s = some b := by
  unfold matchMarker at h
  unfold seeMarker
  split at h
  · rename_i hs; cases h; rw [if_pos hs]
  · rename_i hs; rw [if_neg hs]; exact matchAll_see hv h

/-- The known value of a register as the trace has it. -/
def SVal.Is (f : Form) (o n : Nat) (ov : Place → Nat) : Option SVal → Option Val → Prop
  | none, _ => True
  | some (.num m), v => v = some (.num m)
  | some (.chrs s), v => ∃ c, inR s c ∧ v = some (.num (code (some c)))
  | some (.pos p), v => v = some (.pos (f.at o n p))
  | some (.old p), v => v = some (.pos (ov p))

/-- The trace of the word is where the sweep is. -/
structure Rel (f : Form) (o n : Nat) (ov : Place → Nat) (t0 : List (Nat × Nat)) (a : Sw) (b : Tr) : Prop where
  i : b.i = f.at o n a.pt
  regs : ∀ q, SVal.Is f o n ov (a.get q) (b.get q)
  toks : b.toks = t0 ++ a.toks.map fun x => (f.at o n x.1, f.at o n x.2)

section
variable {f : Form} {K : Str} {o n : Nat} {ov : Place → Nat} {t0 : List (Nat × Nat)} {a : Sw} {b : Tr}

theorem Rel.set (h : Rel f o n ov t0 a b) (q : Nat) {v : Option SVal} {w : Option Val} (hv : SVal.Is f o n ov v w) :
    Rel f o n ov t0 (a.set q v) (b.set q w) := by
  refine ⟨h.i, fun i => ?_, h.toks⟩
  by_cases hi : i = q
  · subst hi
    simpa [Sw.get, Sw.set, Tr.get, Tr.set] using hv
  · have hb : (i == q) = false := by simp [hi]
    have := h.regs i
    simpa [Sw.get, Sw.set, Tr.get, Tr.set, List.lookup_cons, hb] using this

theorem Rel.move (h : Rel f o n ov t0 a b) {p : Place} {i : Nat} (hi : i = f.at o n p) : Rel f o n ov t0 { a with pt := p } { b with i := i } :=
  ⟨hi, h.regs, h.toks⟩

theorem Rel.add (h : Rel f o n ov t0 a b) (p p' : Place) : Rel f o n ov t0 (a.add p p') (b.add (f.at o n p) (f.at o n p')) :=
  ⟨h.i, h.regs, by simp [Sw.add, Tr.add, h.toks]⟩

theorem plus_at {p p' : Place} {m : Nat} (hf : Fit f K o n) (h : f.plus p m = some p') : f.at o n p' = f.at o n p + m ∧ f.at o n p' ≤ K.length := by
  have := hf.long
  cases p with
  | pre i =>
    simp only [Form.plus] at h
    split at h
    · cases h; simp only [Form.at]; omega
    · cases h
  | post j =>
    simp only [Form.plus] at h
    split at h
    · cases h; simp only [Form.at]; omega
    · cases h

theorem before_at {p p' : Place} {r : Bool} (h : f.before p p' = some r) : decide (f.at o n p < f.at o n p') = r := by
  cases p <;> cases p' <;> simp only [Form.before] at h <;> (try split at h) <;> cases h <;> simp only [Form.at] <;>
    first | exact decide_eq_true (by omega) | exact decide_eq_false (by omega) | exact decide_eq_decide.mpr (by omega)

theorem walk_right {x : CSet} {ts : List Chars} {K : Str} {i m : Nat} {e : Bool} (hv : ∀ m t, ts[m]? = some t → ∃ c, K[i + m]? = some c ∧ inR t c)
    (h : walk x ts = some (m, e)) :
    m ≤ ts.length ∧ (e = false → m = ts.length) ∧ (∀ j, j < m → ∃ c, K[i + j]? = some c ∧ x.has plain c = true) ∧
      (e = true → ∃ c, K[i + m]? = some c ∧ x.has plain c = false) := by
  induction ts generalizing i m e with
  | nil => cases h; simp
  | cons t ts ih =>
    obtain ⟨c, hc, hr⟩ := hv 0 t rfl
    simp only [walk] at h
    split at h
    · rename_i ht
      obtain ⟨⟨m', e'⟩, hw, h⟩ := Option.map_eq_some_iff.mp h
      cases h
      obtain ⟨g1, g2, g3, g4⟩ := ih (i := i + 1) (fun m t' ht' => by
        have := hv (m + 1) t' (by simpa using ht')
        rwa [show i + (m + 1) = i + 1 + m by omega] at this) hw
      refine ⟨by simp; omega, fun h => by simp [g2 h], fun j hj => ?_, fun h => ?_⟩
      · cases j with
        | zero => exact ⟨c, hc, (onS_right hr ht).2⟩
        | succ j =>
          rw [show i + (j + 1) = i + 1 + j by omega]
          exact g3 j (by omega)
      · rw [show i + (m' + 1) = i + 1 + m' by omega]
        exact g4 h
    · rename_i ht
      cases h
      exact ⟨by simp, by simp, by simp, fun _ => ⟨c, hc, (onS_right hr ht).2⟩⟩
    · cases h

theorem seeWhile_at {K : Str} {i m : Nat} {p : Char → Bool} (h1 : ∀ j, j < m → ∃ c, K[i + j]? = some c ∧ p c = true)
    (h2 : ∃ c, K[i + m]? = some c ∧ p c = false) : seeWhile K false i p = some (i + m) := by
  have hx : ∀ {L : Str} {m : Nat}, (∀ j, j < m → ∃ c, L[j]? = some c ∧ p c = true) → (∃ c, L[m]? = some c ∧ p c = false) →
      L.all p = false ∧ (L.takeWhile p).length = m := by
    intro L
    induction L with
    | nil => intro m _ h2; obtain ⟨c, hc, _⟩ := h2; cases hc
    | cons c L ih =>
      intro m h1 h2
      cases m with
      | zero =>
        obtain ⟨d, hd, hp⟩ := h2
        simp at hd
        subst hd
        simp [hp]
      | succ m =>
        obtain ⟨d, hd, hp⟩ := h1 0 (by omega)
        simp at hd
        subst hd
        obtain ⟨g1, g2⟩ := ih (m := m) (fun j hj => by simpa using h1 (j + 1) (by omega)) (by simpa using h2)
        simp [hp, g1, g2]
  obtain ⟨g1, g2⟩ := hx (L := K.drop i) (m := m) (fun j hj => by simpa [List.getElem?_drop] using h1 j hj) (by simpa [List.getElem?_drop] using h2)
  unfold seeWhile
  rw [g1, g2]
  rfl

theorem take_right {x : CSet} {p p' : Place} (hf : Fit f K o n) (h : f.take x p = some p') : seeWhile K false (f.at o n p) (x.has plain) = some (f.at o n p') := by
  have hfv := fun p m t => hf.view (p := p) (m := m) (s := t)
  cases p with
  | pre i =>
    simp only [Form.take] at h
    split at h
    · rename_i hi
      have hv : ∀ m t, (f.pre.drop i)[m]? = some t → ∃ c, K[f.at o n (.pre i) + m]? = some c ∧ inR t c := by
        intro m t ht
        refine hfv (.pre i) m t ?_
        simp only [Form.view, if_pos hi]
        rw [List.getElem?_append_left (List.getElem?_eq_some_iff.mp ht).1]
        exact ht
      split at h
      · rename_i j hw
        cases h
        obtain ⟨_, _, g3, g4⟩ := walk_right hv hw
        rw [seeWhile_at g3 (g4 rfl)]
        simp [Form.at, Nat.add_assoc]
      · rename_i j hw
        split at h
        · rename_i hmid
          split at h
          · rename_i j' hw'
            cases h
            obtain ⟨_, g2, g3, _⟩ := walk_right hv hw
            have hj := g2 rfl
            simp only [List.length_drop] at hj
            have hv' : ∀ m t, f.post[m]? = some t → ∃ c, K[f.at o n (.post 0) + m]? = some c ∧ inR t c := by
              intro m t ht
              exact hfv (.post 0) m t (by simpa [Form.view] using ht)
            obtain ⟨_, _, k3, k4⟩ := walk_right hv' hw'
            have hmidc : ∀ j, j < n → ∃ c, K[o + f.pre.length + j]? = some c ∧ x.has plain c = true := by
              obtain ⟨b0, P, w, Q, z, rfl, rfl, h2, hw, rfl, h4⟩ := hf.text
              intro j hj
              have l1 := fits_length h2
              refine ⟨w[j], ?_, (onS_right (hw _ (List.getElem_mem hj)) hmid).2⟩
              rw [show b0.length + f.pre.length + j = b0.length + (P.length + j) by omega, List.getElem?_append_right (by omega),
                List.getElem?_append_right (by omega), List.getElem?_append_left (by omega),
                show b0.length + (P.length + j) - b0.length - P.length = j by omega]
              simp [hj]
            have := seeWhile_at (K := K) (i := f.at o n (.pre i)) (m := f.pre.length - i + n + j') (p := x.has plain) (fun q hq => by
              by_cases q1 : q < f.pre.length - i
              · exact g3 q (by omega)
              · by_cases q2 : q < f.pre.length - i + n
                · have := hmidc (q - (f.pre.length - i)) (by omega)
                  simp only [Form.at]
                  rwa [show o + f.pre.length + (q - (f.pre.length - i)) = o + i + q by omega] at this
                · have := k3 (q - (f.pre.length - i + n)) (by omega)
                  simp only [Form.at] at this ⊢
                  rwa [show o + f.pre.length + n + 0 + (q - (f.pre.length - i + n)) = o + i + q by omega] at this)
              (by
                have := k4 rfl
                simp only [Form.at] at this ⊢
                rwa [show o + f.pre.length + n + 0 + j' = o + i + (f.pre.length - i + n + j') by omega] at this)
            rw [this]
            simp only [Form.at]
            congr 1
            omega
          · cases h
        · cases h
      · cases h
    · cases h
  | post j =>
    simp only [Form.take] at h
    split at h
    · rename_i j' hw
      cases h
      obtain ⟨_, _, g3, g4⟩ := walk_right (fun m t ht => hfv (.post j) m t (by simpa [Form.view] using ht)) hw
      rw [seeWhile_at g3 (g4 rfl)]
      simp [Form.at, Nat.add_assoc]
    · cases h

theorem see_at (hf : Fit f K o n) {p : Place} {m : Nat} {s : Chars} (h : (f.view p)[m]? = some s) :
    ∃ c, inR s c ∧ see K false (f.at o n p + m) = some (some c) := by
  obtain ⟨c, hc, hr⟩ := hf.view h
  exact ⟨c, hr, by simp [see, hc]⟩

theorem view_nonempty (hf : Fit f K o n) {p : Place} (h : (f.view p).isEmpty = false) : ∃ c, see K false (f.at o n p) = some (some c) := by
  cases hv : f.view p with
  | nil => rw [hv] at h; cases h
  | cons s ts =>
    obtain ⟨c, _, hc⟩ := see_at hf (p := p) (m := 0) (s := s) (by simp [hv])
    exact ⟨c, by simpa using hc⟩

/-- What `sweep` promises. -/
def Sweeps (whole : Bool) (p : Code) : Prop :=
  ∀ {f : Form} {K : Str} {o n : Nat} {ov : Place → Nat} {t0 : List (Nat × Nat)} {a a' : Sw} {b : Tr} {r : Out}, Fit f K o n → Rel f o n ov t0 a b →
    sweep whole p f a = some (a', r) → ∃ b', follow K false whole p b = some (b', r) ∧ Rel f o n ov t0 a' b'

theorem lookup_map_inner {regs : List (Nat × Option SVal)} {h : Option SVal → Option SVal} (q : Nat) :
    ((regs.map fun r => (r.1, h r.2)).lookup q) = (regs.lookup q).map h := by
  induction regs with
  | nil => rfl
  | cons r regs ih =>
    obtain ⟨k, v⟩ := r
    simp only [List.map_cons, List.lookup_cons]
    split <;> simp_all

theorem inner_is {v : Option SVal} {x : Option Val} (f' : Form) (o' n' : Nat) (h : SVal.Is f o n ov v x) : SVal.Is f' o' n' (f.at o n) (v.bind SVal.inner) x := by
  cases v with
  | none => trivial
  | some v => cases v <;> simpa [SVal.inner, SVal.Is] using h

theorem outer_is {v : Option SVal} {x : Option Val} {f' : Form} {o' n' : Nat} (ov : Place → Nat) (h : SVal.Is f' o' n' (f.at o n) v x) :
    SVal.Is f o n ov (v.bind SVal.outer) x := by
  cases v with
  | none => trivial
  | some v => cases v <;> simpa [SVal.outer, SVal.Is] using h

/-- One turn over a character of the middle part. -/
theorem starTurn_right {whole : Bool} {c p : Code} (hc : Sweeps whole c) (hp : Sweeps whole p) {g : Nat} {regs : List (Nat × Option SVal)} {e : Nat × Nat} {a : Sw}
    (h : starTurn (sweep whole c) (sweep whole p) g regs e = some a) {d : Char} (hd : inR [e] d) {o' : Nat} (hk : K[o']? = some d) {ov : Place → Nat} {b : Tr}
    (hi : b.i = o') (hr : ∀ q, SVal.Is ⟨[[e]], [], []⟩ o' 0 ov ((regs.lookup q).join) (b.get q)) :
    ∃ b', (∀ m, followTurns (follow K false whole c) (follow K false whole p) g (m + 1) b = followTurns (follow K false whole c) (follow K false whole p) g m b') ∧
      b'.i = o' + 1 ∧ b'.toks = b.toks ∧ ∀ q, SVal.Is ⟨[[e]], [], []⟩ o' 0 ov (a.get q) (b'.get q) := by
  have hf : Fit ⟨[[e]], [], []⟩ K o' 0 := by
    obtain ⟨hlt, rfl⟩ := List.getElem?_eq_some_iff.mp hk
    refine ⟨K.take o', [K[o']], [], [], K.drop (o' + 1), ?_, by simp; omega, ⟨hd, trivial⟩, by simp, rfl, trivial⟩
    simp only [List.nil_append, List.cons_append]
    rw [← List.drop_eq_getElem_cons hlt, List.take_append_drop]
  have h0 : Rel ⟨[[e]], [], []⟩ o' 0 ov b.toks ⟨.pre 0, regs, []⟩ b := ⟨by simp [hi, Form.at], hr, by simp⟩
  have h1 : Rel ⟨[[e]], [], []⟩ o' 0 ov b.toks _ _ := h0.set g (v := some (.pos (.pre 0))) (w := some (.pos b.i)) (by simp [SVal.Is, Form.at, hi])
  unfold starTurn at h
  split at h
  · rename_i a1 ha1
    obtain ⟨b1, e1, r1⟩ := hc hf h1 ha1
    have fin : ∀ {a2 : Sw} {r : Out}, sweep whole p ⟨[[e]], [], []⟩ a1 = some (a2, r) → (if a2.pt = .pre 1 ∧ a2.toks = [] then some a2 else none) = some a →
        (r = .cont ∨ ∃ v, r = .val v) →
        ∃ b', (∀ m, followTurns (follow K false whole c) (follow K false whole p) g (m + 1) b = followTurns (follow K false whole c) (follow K false whole p) g m b') ∧
          b'.i = o' + 1 ∧ b'.toks = b.toks ∧ ∀ q, SVal.Is ⟨[[e]], [], []⟩ o' 0 ov (a.get q) (b'.get q) := by
      intro a2 r ha2 hq hr
      obtain ⟨b2, e2, r2⟩ := hp hf r1 ha2
      split at hq
      · rename_i hh
        cases hq
        refine ⟨b2, fun m => ?_, ?_, ?_, r2.regs⟩
        · rw [followTurns, e1]
          simp only [e2]
          rcases hr with rfl | ⟨v, rfl⟩ <;> rfl
        · rw [r2.i, hh.1]; rfl
        · rw [r2.toks, hh.2]; simp
      · cases hq
    split at h
    · rename_i a2 v ha2
      exact fin ha2 h (.inr ⟨v, rfl⟩)
    · rename_i a2 ha2
      exact fin ha2 h (.inl rfl)
    · cases h
  · cases h

/-- All turns over the middle part. -/
theorem star_right {whole : Bool} {c p : Code} (hc : Sweeps whole c) (hp : Sweeps whole p) {g : Nat} (hf : Fit f K o n) {a a' : Sw} {b : Tr}
    (hr : Rel f o n ov t0 a b) (hat : a.pt = .pre f.pre.length) (h : star (sweep whole c) (sweep whole p) g f.mid a = some a') :
    ∃ b', (∀ m, followTurns (follow K false whole c) (follow K false whole p) g (m + n) b = followTurns (follow K false whole c) (follow K false whole p) g m b') ∧
      Rel f o n ov t0 a' b' := by
  unfold star at h
  simp only at h
  generalize hr0 : (a.regs.map (·.1)).dedup.map (fun q => (q, (a.get q).bind SVal.inner)) = r0 at h
  generalize hr1 : starKeep (sweep whole c) (sweep whole p) g f.mid (starKeep (sweep whole c) (sweep whole p) g f.mid r0) = r1 at h
  split at h
  · rename_i hall
    cases h
    have hsub : ∀ r ∈ r1, r ∈ r0 := by
      intro r h
      rw [← hr1] at h
      exact List.mem_of_mem_filter (List.mem_of_mem_filter h)
    have hmem : ∀ (l : List (Nat × Option SVal)) q v, l.lookup q = some v → (q, v) ∈ l := by
      intro l q v
      induction l with
      | nil => intro h; cases h
      | cons r l ih =>
        obtain ⟨k, w⟩ := r
        intro h
        rw [List.lookup_cons] at h
        split at h
        · rename_i hk
          cases h
          rw [eq_of_beq hk]; simp
        · exact List.mem_cons_of_mem _ (ih h)
    have start : ∀ q, SVal.Is f o n (f.at o n) ((r1.lookup q).join) (b.get q) := by
      intro q
      cases hl : r1.lookup q with
      | none => trivial
      | some v =>
        have := hsub _ (hmem _ _ _ hl)
        rw [← hr0] at this
        obtain ⟨q', _, e⟩ := List.mem_map.mp this
        cases e
        exact inner_is f o n (hr.regs q)
    have nopos : ∀ {q v}, r1.lookup q = some v → ∀ x, v ≠ some (.pos x) := by
      intro q v hl x hx
      have := hsub _ (hmem _ _ _ hl)
      rw [← hr0] at this
      obtain ⟨q', _, e⟩ := List.mem_map.mp this
      cases e
      revert hx
      cases a.get q with
      | none => simp
      | some v => cases v <;> simp [SVal.inner]
    have indep : ∀ (q : Nat) (x : Option Val) (f1 f2 : Form) (o1 n1 o2 n2 : Nat), SVal.Is f1 o1 n1 (f.at o n) ((r1.lookup q).join) x →
        SVal.Is f2 o2 n2 (f.at o n) ((r1.lookup q).join) x := by
      intro q x f1 f2 o1 n1 o2 n2 h
      cases hl : r1.lookup q with
      | none => trivial
      | some v =>
        rw [hl] at h
        cases v with
        | none => trivial
        | some v =>
          cases v with
          | pos y => exact absurd rfl (nopos hl y)
          | num m => exact h
          | chrs s => exact h
          | old y => exact h
    obtain ⟨b0, P, w, Q, z, hK, ho, h2, hw, hn, h4⟩ := hf.text
    have l1 := fits_length h2
    have key : ∀ j, j ≤ n → ∃ b', (∀ m, followTurns (follow K false whole c) (follow K false whole p) g (m + j) b =
          followTurns (follow K false whole c) (follow K false whole p) g m b') ∧
        b'.i = o + f.pre.length + j ∧ b'.toks = b.toks ∧ ∀ q, SVal.Is f o n (f.at o n) ((r1.lookup q).join) (b'.get q) := by
      intro j
      induction j with
      | zero => intro _; exact ⟨b, fun _ => rfl, by rw [hr.i, hat]; rfl, rfl, start⟩
      | succ j ih =>
        intro hj
        obtain ⟨b1, e1, i1, t1, s1⟩ := ih (by omega)
        have hjw : j < w.length := by omega
        have hk : K[o + f.pre.length + j]? = some w[j] := by
          rw [hK, ← ho, show b0.length + f.pre.length + j = b0.length + (P.length + j) by omega, List.getElem?_append_right (by omega),
            List.getElem?_append_right (by omega), List.getElem?_append_left (by omega),
            show b0.length + (P.length + j) - b0.length - P.length = j by omega]
          simp [hjw]
        obtain ⟨e, he, hd⟩ := hw _ (List.getElem_mem hjw)
        have hte := List.all_eq_true.mp hall e he
        split at hte
        · rename_i a2 ha2
          obtain ⟨b2, e2, i2, t2, s2⟩ := starTurn_right hc hp ha2 (d := w[j]) ⟨e, by simp, hd⟩ hk (ov := f.at o n) i1 (fun q => indep q _ _ _ _ _ _ _ (s1 q))
          refine ⟨b2, fun m => ?_, by rw [i2]; omega, by rw [t2, t1], fun q => ?_⟩
          · rw [show m + (j + 1) = (m + 1) + j by omega, e1, e2]
          · cases hl : r1.lookup q with
            | none => trivial
            | some v =>
              have hg := List.all_eq_true.mp hte (q, v) (hmem _ _ _ hl)
              simp only [beq_iff_eq] at hg
              have := s2 q
              rw [hg] at this
              rw [← hl]
              exact indep q _ _ _ _ _ _ _ this
        · cases hte
    obtain ⟨b', e', i', t', s'⟩ := key n (Nat.le_refl _)
    refine ⟨b', e', ⟨by rw [i']; rfl, fun q => ?_, by rw [t', hr.toks]⟩⟩
    have := outer_is ov (s' q)
    have hl := lookup_map_inner (regs := r1) (h := fun v => v.bind SVal.outer) q
    simp only [Sw.get]
    rw [hl]
    revert this
    cases r1.lookup q with
    | none => intro _; trivial
    | some v => exact id
  · cases h

theorem sweepTurns_right {whole : Bool} {c p : Code} (hc : Sweeps whole c) (hp : Sweeps whole p) {g : Nat} (hf : Fit f K o n) :
    ∀ (m : Nat) (fresh : Bool) {a a' : Sw} {b : Tr} {r : Out}, Rel f o n ov t0 a b →
      sweepTurns (fun a => sweep whole c f a) (fun a => sweep whole p f a) (star (sweep whole c) (sweep whole p) g f.mid) f.pre.length g m fresh a = some (a', r) →
      ∀ m', m + (if fresh then n else 0) ≤ m' →
        ∃ b', followTurns (follow K false whole c) (follow K false whole p) g m' b = some (b', r) ∧ Rel f o n ov t0 a' b' := by
  intro m
  induction m with
  | zero => intro fresh a a' b r _ h; cases h
  | succ m ih =>
    intro fresh a a' b r hr h m' hm
    rw [sweepTurns] at h
    split at h
    · rename_i a1 ha1
      split at ha1
      · rename_i hcond
        obtain ⟨b1, e1, r1⟩ := star_right hc hp hf hr hcond.2 ha1
        rw [hcond.1] at hm
        simp only [if_true] at hm
        obtain ⟨b2, e2, r2⟩ := ih false r1 h (m' - n) (by simp; omega)
        refine ⟨b2, ?_, r2⟩
        rw [show m' = (m' - n) + n by omega, e1, e2]
      · cases ha1
    · obtain ⟨m', rfl⟩ : ∃ k, m' = k + 1 := ⟨m' - 1, by omega⟩
      have hset := hr.set g (v := some (.pos a.pt)) (w := some (.pos b.i)) (by simp [SVal.Is, hr.i])
      rw [followTurns]
      split at h
      · rename_i a1 ha1
        obtain ⟨b1, e1, r1⟩ := hc hf hset ha1
        rw [e1]
        split at h
        · rename_i a2 ha2
          cases h
          obtain ⟨b2, e2, r2⟩ := hp hf r1 ha2
          exact ⟨b2, by simp only [e2], r2⟩
        · rename_i a2 v ha2
          cases h
          obtain ⟨b2, e2, r2⟩ := hp hf r1 ha2
          exact ⟨b2, by simp only [e2], r2⟩
        · rename_i a2 o2 n1 n2 ha2
          obtain ⟨b2, e2, r2⟩ := hp hf r1 ha2
          obtain ⟨b3, e3, r3⟩ := ih fresh r2 h m' (by omega)
          refine ⟨b3, ?_, r3⟩
          simp only [e2]
          cases o2 with
          | brk => exact (n1 rfl).elim
          | ret v => exact (n2 _ rfl).elim
          | val v => exact e3
          | cont => exact e3
        · cases h
      · rename_i a1 v ha1
        cases h
        obtain ⟨b1, e1, r1⟩ := hc hf hset ha1
        exact ⟨b1, by rw [e1], r1⟩
      · rename_i a1 o1 n1 n2 ha1
        cases h
        obtain ⟨b1, e1, r1⟩ := hc hf hset ha1
        refine ⟨b1, ?_, r1⟩
        rw [e1]
        cases o1 with
        | brk => rfl
        | cont => rfl
        | ret v => exact (n2 _ rfl).elim
        | val v =>
          cases v with
          | true => exact (n1 rfl).elim
          | false => rfl
      · cases h

theorem blankSet_has : blankSet.has plain = isWs := by
  funext c
  rw [Bool.eq_iff_iff]
  have e : ∀ d : Char, c = d ↔ c.toNat = d.toNat := fun d => ⟨fun h => by rw [h], char_toNat_inj⟩
  simp only [blankSet, CSet.has, between, isWs, Bool.or_eq_true, Bool.and_eq_true, Nat.ble_eq, beq_iff_eq, e]
  have h1 : ' '.toNat = 32 := rfl
  have h2 : '\t'.toNat = 9 := rfl
  have h3 : '\n'.toNat = 10 := rfl
  have h4 : '\r'.toNat = 13 := rfl
  omega

theorem sweep_right (whole : Bool) (p : Code) : Sweeps whole p := by
  induction p with
  | val v => intro f K o n ov t0 a a' b r hf hr h; cases h; exact ⟨b, rfl, hr⟩
  | any => intro f K o n ov t0 a a' b r hf hr h; cases h
  | havoc q => intro f K o n ov t0 a a' b r hf hr h; cases h
  | advBy q => intro f K o n ov t0 a a' b r hf hr h; cases h
  | tokLen q m => intro f K o n ov t0 a a' b r hf hr h; cases h
  | brk => intro f K o n ov t0 a a' b r hf hr h; cases h; exact ⟨b, rfl, hr⟩
  | cont => intro f K o n ov t0 a a' b r hf hr h; cases h; exact ⟨b, rfl, hr⟩
  | ret v => intro f K o n ov t0 a a' b r hf hr h; cases h; exact ⟨b, rfl, hr⟩
  | more =>
    intro f K o n ov t0 a a' b r hf hr h
    simp only [sweep] at h
    split at h
    · cases h
    · rename_i hv
      cases h
      obtain ⟨c, hc⟩ := view_nonempty hf (p := a.pt) (by simpa using hv)
      exact ⟨b, by simp [follow, hr.i, hc], hr⟩
  | look q =>
    intro f K o n ov t0 a a' b r hf hr h
    cases h
    refine ⟨_, rfl, hr.set q ?_⟩
    cases hv : (f.view a.pt)[0]? with
    | none => trivial
    | some s =>
      obtain ⟨c, hc, hs⟩ := see_at hf hv
      exact ⟨c, hc, by rw [hr.i]; simp at hs; simp [hs]⟩
  | lookN q m =>
    intro f K o n ov t0 a a' b r hf hr h
    simp only [sweep] at h
    simp only [follow]
    split at h
    · rename_i s hs
      cases h
      obtain ⟨c, hc, hs⟩ := see_at hf hs
      rw [hr.i, hs]
      exact ⟨_, rfl, hr.set q ⟨c, hc, rfl⟩⟩
    · split at h
      · rename_i hfar
        cases h
        split
        · exact ⟨_, rfl, hr.set q trivial⟩
        · have : b.i + m ≤ K.length := by
            rw [hr.i]
            have := hf.long
            cases hp : a.pt with
            | pre i => rw [hp] at hfar; simp only [Form.far, decide_eq_true_eq] at hfar; simp only [Form.at]; omega
            | post j => rw [hp] at hfar; simp only [Form.far, decide_eq_true_eq] at hfar; simp only [Form.at]; omega
          rw [if_pos this]
          exact ⟨_, rfl, hr.set q trivial⟩
      · cases h
  | ask q g =>
    intro f K o n ov t0 a a' b r hf hr h
    have hq := hr.regs q
    simp only [sweep] at h
    split at h
    · rename_i m hm
      cases h
      rw [hm] at hq
      simp only [SVal.Is] at hq
      exact ⟨b, by simp [follow, hq], hr⟩
    · cases h
  | comp q p g =>
    intro f K o n ov t0 a a' b r hf hr h
    have hq := hr.regs p
    simp only [sweep] at h
    simp only [follow]
    split at h
    · rename_i m hm
      cases h
      rw [hm] at hq
      simp only [SVal.Is] at hq
      rw [hq]
      exact ⟨_, rfl, hr.set q rfl⟩
    · cases h
      split
      · exact ⟨_, rfl, hr.set q trivial⟩
      · exact ⟨_, rfl, hr.set q trivial⟩
  | put q m => intro f K o n ov t0 a a' b r hf hr h; cases h; exact ⟨_, rfl, hr.set q rfl⟩
  | putc q c => intro f K o n ov t0 a a' b r hf hr h; cases h; exact ⟨_, rfl, hr.set q ⟨c, ⟨(c.toNat, c.toNat), by simp, Nat.le_refl _, Nat.le_refl _⟩, rfl⟩⟩
  | flag q =>
    intro f K o n ov t0 a a' b r hf hr h
    have hq := hr.regs q
    simp only [sweep] at h
    split at h
    · rename_i m hm
      cases h
      rw [hm] at hq
      simp only [SVal.Is] at hq
      exact ⟨b, by simp [follow, hq], hr⟩
    · cases h
  | copy q p => intro f K o n ov t0 a a' b r hf hr h; cases h; exact ⟨_, rfl, hr.set q (hr.regs p)⟩
  | chr q x =>
    intro f K o n ov t0 a a' b r hf hr h
    have hq := hr.regs q
    simp only [sweep] at h
    split at h
    · rename_i s hs
      obtain ⟨v, hv, h⟩ := Option.map_eq_some_iff.mp h
      cases h
      rw [hs] at hq
      obtain ⟨c, hc, hq⟩ := hq
      obtain ⟨h1, h2⟩ := onS_right hc hv
      refine ⟨b, ?_, hr⟩
      simp only [follow, hq, uncode_code, if_pos h1, h2]
    · cases h
  | same p q =>
    intro f K o n ov t0 a a' b r hf hr h
    have hp := hr.regs p
    have hq := hr.regs q
    simp only [sweep] at h
    split at h
    · rename_i s s' hs hs'
      rw [hs] at hp
      rw [hs'] at hq
      obtain ⟨c, ⟨e, he, c1, c2⟩, hp⟩ := hp
      obtain ⟨d, ⟨e', he', d1, d2⟩, hq⟩ := hq
      split at h
      · rename_i hap
        cases h
        have := List.all_eq_true.mp (List.all_eq_true.mp hap e he) e' he'
        simp only [decide_eq_true_eq] at this
        refine ⟨b, ?_, hr⟩
        have hne : code (some c) ≠ code (some d) := by simp only [code]; omega
        simp [follow, hp, hq, hne]
      · split at h
        · rename_i e1
          split at h
          · rename_i hh
            cases h
            rw [hh.2] at he'
            simp only [List.mem_singleton] at he he'
            subst he he'
            refine ⟨b, ?_, hr⟩
            have : code (some c) = code (some d) := by simp only [code]; omega
            simp [follow, hp, hq, this]
          · cases h
        · cases h
    · cases h
  | starts s =>
    intro f K o n ov t0 a a' b r hf hr h
    simp only [sweep] at h
    obtain ⟨v, hv, h⟩ := Option.map_eq_some_iff.mp h
    cases h
    exact ⟨b, by simp [follow, hr.i, matchAll_see (fun m t ht => hf.view ht) hv], hr⟩
  | restStarts s =>
    intro f K o n ov t0 a a' b r hf hr h
    simp only [sweep] at h
    split at h
    · rename_i v hv
      split at h
      · rename_i hw
        cases h
        exact ⟨b, by simp only [follow, hr.i, matchAll_see (fun m t ht => hf.view ht) hv, if_pos hw], hr⟩
      · cases h
    · cases h
  | adv m =>
    intro f K o n ov t0 a a' b r hf hr h
    simp only [sweep] at h
    obtain ⟨p, hp, h⟩ := Option.map_eq_some_iff.mp h
    cases h
    obtain ⟨h1, h2⟩ := plus_at hf hp
    refine ⟨_, ?_, hr.move (i := b.i + m) (by rw [h1, hr.i])⟩
    simp only [follow]
    rw [if_pos (by rw [hr.i]; omega)]
  | advc q =>
    intro f K o n ov t0 a a' b r hf hr h
    have hq := hr.regs q
    simp only [sweep] at h
    split at h
    · rename_i s hs
      split at h
      · rename_i hall
        obtain ⟨p, hp, h⟩ := Option.map_eq_some_iff.mp h
        cases h
        rw [hs] at hq
        obtain ⟨c, ⟨e, he, c1, c2⟩, hq⟩ := hq
        have h128 : c.toNat < 128 := by
          have := List.all_eq_true.mp hall e he
          simp only [decide_eq_true_eq] at this
          omega
        obtain ⟨h1, h2⟩ := plus_at hf hp
        have hlen : charLen (code (some c)) = 1 := by
          have := ascii_len (k := [c]) (by simpa using h128)
          simpa [charLen, uncode_code, blen] using this
        refine ⟨_, ?_, hr.move (i := b.i + 1) (by rw [h1, hr.i])⟩
        simp only [follow, hq, hlen]
        rw [if_pos (by rw [hr.i]; omega)]
      · cases h
    · cases h
  | mark q => intro f K o n ov t0 a a' b r hf hr h; cases h; exact ⟨_, rfl, hr.set q (by simp [SVal.Is, hr.i])⟩
  | goto q =>
    intro f K o n ov t0 a a' b r hf hr h
    have hq := hr.regs q
    simp only [sweep] at h
    split at h
    · rename_i p hp
      obtain ⟨p', hp', h⟩ := Option.map_eq_some_iff.mp h
      cases h
      rw [hp] at hq
      simp only [SVal.Is] at hq
      obtain ⟨h1, h2⟩ := plus_at hf hp'
      refine ⟨_, ?_, hr.move (i := f.at o n p) (by rw [h1]; rfl)⟩
      simp only [follow, hq]
      rw [if_pos (by omega)]
    · cases h
  | tok q =>
    intro f K o n ov t0 a a' b r hf hr h
    have hq := hr.regs q
    simp only [sweep] at h
    split at h
    · rename_i p hp
      cases h
      rw [hp] at hq
      simp only [SVal.Is] at hq
      exact ⟨_, by simp only [follow, hq, hr.i], hr.add _ _⟩
    · cases h
  | tokTo p q =>
    intro f K o n ov t0 a a' b r hf hr h
    have hp := hr.regs p
    have hq := hr.regs q
    simp only [sweep] at h
    split at h
    · rename_i p1 p2 e1 e2
      cases h
      rw [e1] at hp
      rw [e2] at hq
      simp only [SVal.Is] at hp hq
      exact ⟨_, by simp only [follow, hp, hq], hr.add _ _⟩
    · cases h
  | take x =>
    intro f K o n ov t0 a a' b r hf hr h
    simp only [sweep] at h
    obtain ⟨p, hp, h⟩ := Option.map_eq_some_iff.mp h
    cases h
    exact ⟨_, by simp only [follow, hr.i, take_right hf hp, Option.map_some], hr.move rfl⟩
  | space v =>
    intro f K o n ov t0 a a' b r hf hr h
    simp only [sweep] at h
    obtain ⟨p, hp, h⟩ := Option.bind_eq_some_iff.mp h
    have ht := take_right hf hp
    have hset : (if v then CSet.white else blankSet).has plain = if v then isWhite plain else isWs := by
      cases v with
      | true => rfl
      | false => exact blankSet_has
    rw [hset] at ht
    simp only [follow, hr.i, ht, Option.map_some]
    split at h
    · rename_i he
      cases h
      exact ⟨b, by rw [he, if_pos rfl], hr⟩
    · split at h
      · rename_i hb
        cases h
        have := before_at (o := o) (n := n) hb
        simp only [decide_eq_true_eq] at this
        refine ⟨_, by rw [if_neg (by omega)], ?_⟩
        exact (hr.move rfl).add _ _
      · cases h
  | comment cfg =>
    intro f K o n ov t0 a a' b r hf hr h
    simp only [sweep] at h
    split at h
    · rename_i hm
      cases h
      refine ⟨b, ?_, hr⟩
      simp only [follow, hr.i, matchMarker_see (fun m t ht => hf.view ht) hm.1, matchMarker_see (fun m t ht => hf.view ht) hm.2]
    · cases h
  | quoted cfg =>
    intro f K o n ov t0 a a' b r hf hr h
    simp only [sweep] at h
    split at h
    · rename_i s hs
      split at h
      · rename_i hq
        cases h
        obtain ⟨c, hc, hs⟩ := see_at hf hs
        refine ⟨b, ?_, hr⟩
        rw [Nat.add_zero] at hs
        simp only [follow, hr.i, hs]
        rw [if_neg]
        intro hm
        exact apart_right hc (List.all_eq_true.mp hq c hm) rfl
      · cases h
    · cases h
  | guard q =>
    intro f K o n ov t0 a a' b r hf hr h
    have hq := hr.regs q
    simp only [sweep] at h
    split at h
    · rename_i p hp
      rw [hp] at hq
      simp only [SVal.Is] at hq
      split at h
      · rename_i he
        split at h
        · cases h
        · rename_i hv
          obtain ⟨p', hp', h⟩ := Option.map_eq_some_iff.mp h
          cases h
          obtain ⟨h1, h2⟩ := plus_at hf hp'
          obtain ⟨c, hc⟩ := view_nonempty hf (p := a.pt) (by simpa using hv)
          refine ⟨_, ?_, hr.move (i := b.i + 1) (by rw [h1, hr.i])⟩
          simp only [follow, hq, hr.i, he, if_true, hc, Option.map_some]
          rfl
      · split at h
        · rename_i hb
          cases h
          refine ⟨b, ?_, hr⟩
          simp only [follow, hq, hr.i]
          rw [if_neg]
          intro e
          rcases hb with hb | hb
          · have := before_at (o := o) (n := n) hb
            simp only [decide_eq_true_eq] at this
            omega
          · have := before_at (o := o) (n := n) hb
            simp only [decide_eq_true_eq] at this
            omega
        · cases h
    · cases h
  | moved q =>
    intro f K o n ov t0 a a' b r hf hr h
    have hq := hr.regs q
    simp only [sweep] at h
    split at h
    · rename_i p hp
      rw [hp] at hq
      simp only [SVal.Is] at hq
      obtain ⟨v, hv, h⟩ := Option.map_eq_some_iff.mp h
      cases h
      exact ⟨b, by simp only [follow, hq, hr.i, before_at hv], hr⟩
    · cases h
  | seq p q hp hq =>
    intro f K o n ov t0 a a' b r hf hr h
    simp only [sweep] at h
    simp only [follow]
    split at h
    · rename_i a1 v ha1
      obtain ⟨b1, e1, r1⟩ := hp hf hr ha1
      rw [e1]
      exact hq hf r1 h
    · rename_i hx
      obtain ⟨b1, e1, r1⟩ := hp hf hr h
      refine ⟨b1, ?_, r1⟩
      rw [e1]
      cases r with
      | val v => exact absurd h (hx _ _)
      | brk => rfl
      | cont => rfl
      | ret v => rfl
  | ite c p q hc hp hq =>
    intro f K o n ov t0 a a' b r hf hr h
    simp only [sweep] at h
    simp only [follow]
    split at h
    · rename_i a1 ha1
      obtain ⟨b1, e1, r1⟩ := hc hf hr ha1
      rw [e1]
      exact hp hf r1 h
    · rename_i a1 ha1
      obtain ⟨b1, e1, r1⟩ := hc hf hr ha1
      rw [e1]
      exact hq hf r1 h
    · rename_i h1 h2
      obtain ⟨b1, e1, r1⟩ := hc hf hr h
      refine ⟨b1, ?_, r1⟩
      rw [e1]
      cases r with
      | val v =>
        cases v with
        | true => exact absurd h (h1 _)
        | false => exact absurd h (h2 _)
      | brk => rfl
      | cont => rfl
      | ret v => rfl
  | loop g peel c p hc hp =>
    intro f K o n ov t0 a a' b r hf hr h
    simp only [sweep] at h
    simp only [follow]
    have := hf.long
    exact sweepTurns_right hc hp hf _ true hr h _ (by simp; omega)
  | scope lo p hp =>
    intro f K o n ov t0 a a' b r hf hr h
    simp only [sweep] at h
    simp only [follow]
    split at h
    · rename_i a1 v ha1
      cases h
      obtain ⟨b1, e1, r1⟩ := hp hf hr ha1
      exact ⟨b1, by rw [e1], r1⟩
    · rename_i a1 v ha1
      cases h
      obtain ⟨b1, e1, r1⟩ := hp hf hr ha1
      exact ⟨b1, by rw [e1], r1⟩
    · rename_i a1 o1 n1 n2 ha1
      cases h
      obtain ⟨b1, e1, r1⟩ := hp hf hr ha1
      refine ⟨b1, ?_, r1⟩
      rw [e1]
      cases o1 with
      | val v => exact (n1 _ rfl).elim
      | ret v => exact (n2 _ rfl).elim
      | brk => rfl
      | cont => rfl
    · cases h

end

end Oaks.Lc
