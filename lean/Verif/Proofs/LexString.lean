import Verif.Proofs.LexScan

/-! String literals. -/
namespace Oaks
open Spec

/-- What follows the opening quote: `m` is consumed. -/
def Closes (q : Char) (esc : Option Char) (r m : Str) (closed : Bool) : Prop :=
  if closed then ∃ body rest, r = body ++ q :: rest ∧ LitBody q esc body ∧ m = body ++ [q]
  else m = r ∧ ∀ body rest, LitBody q esc body → r ≠ body ++ q :: rest

theorem literal_of_closes {q : Char} {esc : Option Char} {r m : Str} {closed : Bool} (h : Closes q esc r m closed) :
    Literal q esc (q :: r) (q :: m) closed := by
  cases closed with
  | true =>
    obtain ⟨body, rest, rfl, h2, rfl⟩ := h
    exact ⟨body, rest, by simp, h2, by simp⟩
  | false =>
    obtain ⟨rfl, h⟩ := h
    exact ⟨m, rfl, rfl, h⟩

section
variable {q : Char} {esc : Option Char}

theorem closes_nil : Closes q esc [] [] false := by
  refine ⟨rfl, ?_⟩
  intro body rest _ h
  have := congrArg List.length h
  simp at this

theorem closes_quote (s : Str) : Closes q esc (q :: s) [q] true := ⟨[], s, rfl, .nil, rfl⟩

theorem closes_plain {c : Char} {s m : Str} {b : Bool} (h1 : c ≠ q) (h2 : some c ≠ esc) (h : Closes q esc s m b) :
    Closes q esc (c :: s) (c :: m) b := by
  cases b with
  | true =>
    obtain ⟨body, rest, rfl, h3, rfl⟩ := h
    exact ⟨c :: body, rest, rfl, .plain h1 h2 h3, rfl⟩
  | false =>
    obtain ⟨rfl, h⟩ := h
    refine ⟨rfl, ?_⟩
    intro body rest hb he
    cases hb with
    | nil => simp at he; exact h1 he.1
    | plain _ _ hb => simp at he; exact h _ rest hb he.2
    | escaped hes hb => simp at he; exact h2 (by rw [he.1, hes])

theorem closes_plains {p s m : Str} {b : Bool} (hp : ∀ c ∈ p, c ≠ q ∧ some c ≠ esc) (h : Closes q esc s m b) :
    Closes q esc (p ++ s) (p ++ m) b := by
  induction p with
  | nil => exact h
  | cons c p ih =>
    exact closes_plain (hp c (by simp)).1 (hp c (by simp)).2 (ih (fun x hx => hp x (by simp [hx])))

theorem closes_escaped {e c : Char} {s m : Str} {b : Bool} (he : esc = some e) (hq : esc ≠ some q) (h : Closes q esc s m b) :
    Closes q esc (e :: c :: s) (e :: c :: m) b := by
  cases b with
  | true =>
    obtain ⟨body, rest, rfl, h3, rfl⟩ := h
    exact ⟨e :: c :: body, rest, rfl, .escaped he h3, rfl⟩
  | false =>
    obtain ⟨rfl, h⟩ := h
    refine ⟨rfl, ?_⟩
    intro body rest hb hh
    cases hb with
    | nil => simp at hh; exact hq (by rw [he, hh.1])
    | plain _ h2 hb => simp at hh; exact h2 (by rw [← hh.1, he])
    | escaped hes hb => simp at hh; exact h _ rest hb hh.2.2

theorem closes_escape_end {e : Char} (he : esc = some e) (hq : esc ≠ some q) : Closes q esc [e] [e] false := by
  refine ⟨rfl, ?_⟩
  intro body rest hb hh
  cases hb with
  | nil => simp at hh; exact hq (by rw [he, hh.1])
  | plain _ h2 hb => simp at hh
  | escaped hes hb => simp at hh

end

section
variable {src : Source} {t : Str} (hs : Supplied src t) {toks : List Tok} {st : Lex} {l r : Str}
include hs

/-- The general path. -/
theorem slowLoop_at (q : Char) (esc : Option Char) (fuel : Nat) (h : LexAt src t l r toks st) (hf : blen r < fuel) :
    ∃ st' b m r', StringCfg.slowLoop src q esc fuel st = .ok (st', b) ∧ r = m ++ r' ∧ LexAt src t (l ++ m) r' toks st' ∧
      (esc ≠ some q → Closes q esc r m b) ∧ (esc = some q → b = false ∧ r' = []) := by
  induction fuel generalizing l r st with
  | zero => omega
  | succ fuel ih =>
    obtain ⟨st1, h1, h2⟩ := peek_at hs h
    unfold StringCfg.slowLoop
    simp only [h1, run_bind_ok]
    cases r with
    | nil => exact ⟨st1, false, [], [], rfl, rfl, by simpa using h2, fun _ => closes_nil, fun _ => ⟨rfl, rfl⟩⟩
    | cons c s =>
      simp only [List.head?_cons]
      have hcp := utf8Size_pos c
      have hadv := advance_char hs h2
      by_cases hce : some c = esc
      · rw [if_pos hce]
        obtain ⟨st2, k1, k2⟩ := peek_at hs hadv
        simp only [k1, run_bind_ok]
        cases s with
        | nil =>
          simp only [List.head?_nil]
          obtain ⟨st', b, m, r', g1, g2, g3, g4, g5⟩ := ih k2 (by simp at hf ⊢; omega)
          obtain ⟨rfl, rfl⟩ := List.append_eq_nil_iff.mp g2.symm
          have hb : esc ≠ some q → b = false := by
            intro hq
            cases b with
            | false => rfl
            | true =>
              obtain ⟨body, rest, hh, _⟩ := g4 hq
              have := congrArg List.length hh
              simp at this
          refine ⟨st', b, [c], [], g1, rfl, by simpa using g3, ?_, fun hq => ⟨(g5 hq).1, rfl⟩⟩
          intro hq
          rw [hb hq]
          exact closes_escape_end hce.symm hq
        | cons d s =>
          simp only [List.head?_cons]
          have hdp := utf8Size_pos d
          obtain ⟨st', b, m, r', g1, g2, g3, g4, g5⟩ := ih (advance_char hs k2) (by simp at hf; omega)
          exact ⟨st', b, c :: d :: m, r', g1, by rw [g2]; simp, by simpa using g3,
            fun hq => closes_escaped hce.symm hq (g4 hq), g5⟩
      · rw [if_neg hce]
        by_cases hcq : c = q
        · rw [if_pos hcq]
          subst hcq
          exact ⟨_, true, [c], s, rfl, rfl, hadv, fun _ => closes_quote s, fun hq => absurd hq.symm hce⟩
        · rw [if_neg hcq]
          obtain ⟨st', b, m, r', g1, g2, g3, g4, g5⟩ := ih hadv (by simp at hf; omega)
          exact ⟨st', b, c :: m, r', g1, by rw [g2]; simp, by simpa using g3,
            fun hq => closes_plain hcq hce (g4 hq), g5⟩

omit hs in
theorem asByte_eq_iff {c d : Char} (hc : c.toNat < 128) (hd : d.toNat < 128) : asByte c = asByte d ↔ c = d := by
  constructor
  · intro h
    have h1 := ofNat_eq_iff hc (asByte d)
    have h2 : (asByte d).toNat = d.toNat := by simp [asByte, UInt8.toNat_ofNat']; omega
    have h3 : (UInt8.ofNat c.toNat == asByte d) = true := by simpa [asByte] using h
    rw [h3, h2] at h1
    have := char_eq_iff c d
    rw [← h1] at this
    simpa using this
  · rintro rfl; rfl

omit hs in
/-- Where one of two ASCII bytes is found first. -/
theorem findTwo {q e : Char} (hq : q.toNat < 128) (he : e.toNat < 128) (s : Str) :
    (Simd.findFirstOf4 (bytes s) (asByte q) (asByte e) (asByte q) (asByte e) = none ∧ ∀ c ∈ s, c ≠ q ∧ c ≠ e) ∨
    (∃ a x b, s = a ++ x :: b ∧ Simd.findFirstOf4 (bytes s) (asByte q) (asByte e) (asByte q) (asByte e) = some (blen a) ∧
      (x = q ∨ x = e) ∧ ∀ c ∈ a, c ≠ q ∧ c ≠ e) := by
  simp only [Simd.findFirstOf4, Simd.findLoop_eq _ _ (fun _ => rfl), List.drop_zero, Nat.zero_add, Option.map_id']
  induction s with
  | nil => left; simp
  | cons c s ih =>
    by_cases hx : c = q ∨ c = e
    · right
      have hc : c.toNat < 128 := by rcases hx with rfl | rfl <;> assumption
      refine ⟨[], c, s, rfl, ?_, hx, by simp⟩
      rw [bytes_cons, encode_ascii (by omega), List.cons_append, List.findIdx?_cons]
      have : UInt8.ofNat c.toNat = asByte q ∨ UInt8.ofNat c.toNat = asByte e := by
        rcases hx with rfl | rfl
        · exact .inl rfl
        · exact .inr rfl
      rcases this with h | h <;> simp [h]
    · have hne : c ≠ q ∧ c ≠ e := ⟨fun h => hx (.inl h), fun h => hx (.inr h)⟩
      have hbytes : ∀ b ∈ String.utf8EncodeChar c, (b == asByte q || b == asByte e || b == asByte q || b == asByte e) = false := by
        intro b hb
        by_cases hc : c.toNat < 128
        · rw [encode_ascii (by omega)] at hb
          simp only [List.mem_singleton] at hb
          have h1 : b ≠ asByte q := by rw [hb]; exact fun h => hne.1 ((asByte_eq_iff hc hq).mp h)
          have h2 : b ≠ asByte e := by rw [hb]; exact fun h => hne.2 ((asByte_eq_iff hc he).mp h)
          simp [h1, h2]
        · have hh := encode_high (c := c) (by omega) b hb
          have hlow : ∀ d : Char, d.toNat < 128 → b ≠ asByte d := by
            rintro d hd rfl
            have : (asByte d).toNat = d.toNat := by simp [asByte, UInt8.toNat_ofNat']; omega
            omega
          simp [hlow q hq, hlow e he]
      have hnone : (String.utf8EncodeChar c).findIdx? (fun x => x == asByte q || x == asByte e || x == asByte q || x == asByte e) = none := by
        rw [List.findIdx?_eq_none_iff]; exact hbytes
      rw [bytes_cons, List.findIdx?_append, hnone]
      rcases ih with ⟨g1, g2⟩ | ⟨a, x, b, g1, g2, g3, g4⟩
      · left
        rw [g1]
        exact ⟨rfl, by
          intro d hd
          rcases List.mem_cons.mp hd with hd | hd
          · rw [hd]; exact hne
          · exact g2 d hd⟩
      · right
        refine ⟨c :: a, x, b, by rw [g1]; rfl, ?_, g3, ?_⟩
        · rw [g2]; simp [Nat.add_comm]
        · intro d hd
          rcases List.mem_cons.mp hd with hd | hd
          · rw [hd]; exact hne
          · exact g4 d hd

omit hs in
theorem index_append {a : Str} {x : Char} {b : Str} (hx : x.toNat < 128) : index (bytes (a ++ x :: b)) (blen a) = .ok (asByte x) := by
  unfold index
  rw [bytes_append, List.getElem?_append_right (by simp [length_bytes]), length_bytes, Nat.sub_self, bytes_cons,
    encode_ascii (by omega)]
  rfl

/-- The fast path; `e = q` stands for "no escape character". -/
theorem fastLoop_at (q e : Char) (hq : q.toNat < 128) (he : e.toNat < 128) (fuel : Nat) (h : LexAt src t l r toks st)
    (hf : blen r < fuel) :
    ∃ st' b m r', StringCfg.fastLoop src (asByte q) (asByte e) fuel st = .ok (st', b) ∧ r = m ++ r' ∧
      LexAt src t (l ++ m) r' toks st' ∧ Closes q (if e = q then none else some e) r m b := by
  induction fuel generalizing l r st with
  | zero => omega
  | succ fuel ih =>
    obtain ⟨st1, ch, rest, h1, h2, h3, h4⟩ := rest_at hs h
    have hqs : q.utf8Size = 1 := utf8Size_ascii (by omega)
    have hes : e.utf8Size = 1 := utf8Size_ascii (by omega)
    unfold StringCfg.fastLoop
    simp only [h1, run_bind_ok]
    by_cases hch : ch = []
    · rw [if_pos hch]
      have hr : r = [] := by
        by_cases hr : r = []
        · exact hr
        · exact absurd hch (h3 hr)
      subst hr
      exact ⟨st1, false, [], [], rfl, rfl, by simpa using h4, closes_nil⟩
    · rw [if_neg hch]
      have hchp := blen_pos hch
      have hplain : ∀ c, c ≠ q ∧ c ≠ e → c ≠ q ∧ some c ≠ (if e = q then none else some e) := by
        rintro c ⟨h1, h2⟩
        refine ⟨h1, ?_⟩
        by_cases hqe : e = q
        · simp [hqe]
        · simp [hqe, h2]
      subst h2
      simp only [blen_append] at hf
      rcases findTwo hq he ch with ⟨f1, f2⟩ | ⟨a, x, b, f0, f1, f2, f3⟩
      · simp only [f1]
        obtain ⟨st', bb, m, r', g1, g2, g3, g4⟩ := ih (advance_at hs h4) (by omega)
        exact ⟨st', bb, ch ++ m, r', g1, by rw [g2]; simp, by simpa using g3, closes_plains (fun c hc => hplain c (f2 c hc)) g4⟩
      · have hx : x.toNat < 128 := by rcases f2 with rfl | rfl <;> assumption
        have hxs : x.utf8Size = 1 := utf8Size_ascii (by omega)
        simp only [f1]
        subst f0
        have hat : LexAt src t (l ++ a) (x :: (b ++ rest)) toks (st1.advance src (blen a)) :=
          advance_at hs (by simpa using h4)
        have hat2 : LexAt src t (l ++ a ++ [x]) (b ++ rest) toks ((st1.advance src (blen a)).advance src 1) := by
          have := advance_char hs hat
          rwa [hxs] at this
        simp only [index_append hx, run_bind_ok]
        simp at hf
        by_cases hxq : x = q
        · rw [if_pos (by rw [hxq])]
          subst hxq
          refine ⟨_, true, a ++ [x], b ++ rest, rfl, by simp, by simpa using hat2, ?_⟩
          have := closes_plains (esc := if e = x then none else some e) (fun c hc => hplain c (f3 c hc)) (closes_quote (b ++ rest))
          simpa using this
        · have hxe : x = e := f2.resolve_left hxq
          rw [if_neg (fun hh => hxq ((asByte_eq_iff hx hq).mp hh))]
          have heq : ¬ e = q := fun hh => hxq (hxe.trans hh)
          subst hxe
          simp only [heq, if_false] at hplain ih ⊢
          have hqn : (some x : Option Char) ≠ some q := by simpa using heq
          obtain ⟨st2, k1, k2⟩ := peek_at hs hat2
          simp only [k1, run_bind_ok]
          cases hbr : b ++ rest with
          | nil =>
            rw [hbr] at k2
            simp only [List.head?_nil]
            obtain ⟨st', bb, m, r', g1, g2, g3, g4⟩ := ih k2 (by simp; omega)
            obtain ⟨rfl, rfl⟩ := List.append_eq_nil_iff.mp g2.symm
            have hbb : bb = false := by
              cases bb with
              | false => rfl
              | true =>
                obtain ⟨body, rest, hh, _⟩ := g4
                have := congrArg List.length hh
                simp at this
            subst hbb
            refine ⟨st', false, a ++ [x], [], g1, by simp [hbr], by simpa using g3, ?_⟩
            have := closes_plains (fun c hc => hplain c (f3 c hc)) (closes_escape_end (e := x) rfl hqn)
            simpa [hbr] using this
          | cons d s =>
            rw [hbr] at k2
            simp only [List.head?_cons]
            have hdp := utf8Size_pos d
            have hlen := congrArg blen hbr
            simp at hlen
            obtain ⟨st', bb, m, r', g1, g2, g3, g4⟩ := ih (advance_char hs k2) (by omega)
            refine ⟨st', bb, a ++ x :: d :: m, r', g1, by simp [hbr, g2], by simpa using g3, ?_⟩
            have := closes_plains (fun c hc => hplain c (f3 c hc)) (closes_escaped (e := x) (c := d) rfl hqn g4)
            simpa [hbr] using this

/-- What a config treats as its escape character: on the fast path an escape equal to the quote is none. -/
theorem string_at (h : LexAt src t l r toks st) (cfg : StringCfg) (kind : Nat) :
    ∃ st' b m r' new, cfg.scan src st kind = .ok (st', b) ∧ r = m ++ r' ∧ LexAt src t (l ++ m) r' (toks ++ new) st' ∧
      ((b = true ∧ (∃ q s, r = q :: s ∧ q ∈ cfg.quotes ∧ (cfg.escape ≠ some q → ∃ closed, Literal q cfg.escape r m closed)) ∧ m ≠ [] ∧
          new = [⟨kind, blen l, blen l + blen m⟩]) ∨
        (b = false ∧ (∀ q s, r = q :: s → q ∉ cfg.quotes) ∧ m = [] ∧ new = [])) := by
  obtain ⟨st1, h1, h2⟩ := peek_at hs h
  unfold StringCfg.scan
  simp only [h1, run_bind_ok]
  cases r with
  | nil => exact ⟨st1, false, [], [], [], rfl, rfl, by simpa using h2, .inr ⟨rfl, by simp, rfl, rfl⟩⟩
  | cons q s =>
    simp only [List.head?_cons]
    by_cases hq : q ∈ cfg.quotes
    · rw [if_pos hq]
      have hadv := advance_char hs h2
      have hlen := h.len hs
      have hfuel : blen s < src.length + 1 := by simp at hlen; omega
      by_cases hfast : (charAscii q && (cfg.escape.map charAscii).getD true) = true
      · rw [if_pos hfast]
        simp only [Bool.and_eq_true, charAscii, decide_eq_true_eq] at hfast
        have hcase : ∃ e : Char, e.toNat < 128 ∧ (cfg.escape.map asByte).getD (asByte q) = asByte e ∧
            (cfg.escape ≠ some q → (if e = q then none else some e) = cfg.escape) := by
          cases hesc : cfg.escape with
          | none => exact ⟨q, hfast.1, rfl, by simp⟩
          | some e =>
            refine ⟨e, by simpa [hesc, charAscii] using hfast.2, rfl, ?_⟩
            intro hne
            rw [if_neg (by simpa using hne)]
        obtain ⟨e, he1, he2, he3⟩ := hcase
        obtain ⟨st2, b, m, r', g1, g2, g3, g4⟩ := fastLoop_at hs q e hfast.1 he1 (src.length + 1) hadv hfuel
        rw [he2]
        simp only [g1, run_bind_ok, run_pure]
        refine ⟨_, true, q :: m, r', _, rfl, by rw [g2]; simp, by simpa using addToken_at g3 _ _ _,
          .inl ⟨rfl, ⟨q, s, rfl, hq, ?_⟩, by simp, ?_⟩⟩
        · intro hne
          rw [he3 hne] at g4
          exact ⟨b, literal_of_closes g4⟩
        · rw [h.pos, g3.pos]; simp [Nat.add_assoc]
      · rw [if_neg hfast]
        obtain ⟨st2, b, m, r', g1, g2, g3, g4, _⟩ := slowLoop_at hs q cfg.escape (src.length + 1) hadv hfuel
        simp only [g1, run_bind_ok, run_pure]
        refine ⟨_, true, q :: m, r', _, rfl, by rw [g2]; simp, by simpa using addToken_at g3 _ _ _,
          .inl ⟨rfl, ⟨q, s, rfl, hq, fun hne => ⟨b, literal_of_closes (g4 hne)⟩⟩, by simp, ?_⟩⟩
        rw [h.pos, g3.pos]; simp [Nat.add_assoc]
    · rw [if_neg hq]
      refine ⟨st1, false, [], q :: s, [], rfl, rfl, by simpa using h2, .inr ⟨rfl, ?_, rfl, rfl⟩⟩
      intro q' s' hh
      cases hh
      exact hq

end
end Oaks
