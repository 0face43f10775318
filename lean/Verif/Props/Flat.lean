import Verif.Proofs.Flat

/-! # C77: parsers with one node -/

namespace Oaks.Props
open Oaks Oaks.Spec

/-- Kind and length of a token. -/
def kindLen (t : Tok) : Nat × Nat := (t.kind, t.stop - t.start)

/-- How many bytes the tokens cover. -/
def tokBytes (toks : List Tok) : Nat := (toks.map (fun t => t.stop - t.start)).sum

private theorem kl_map (toks : List Tok) : toks.map Tok.kl = toks.map kindLen := rfl
private theorem drop_kl (f : Nat → Bool) (toks : List Tok) :
    (toks.map kindLen).dropWhile (fun t => f t.1) = (toks.dropWhile (fun t => f t.kind)).map kindLen := by
  rw [List.dropWhile_map]; rfl
private theorem filter_kl (f : Nat → Bool) (toks : List Tok) :
    (toks.map kindLen).filter (fun t => f t.1) = (toks.filter (fun t => f t.kind)).map kindLen := by
  rw [List.filter_map]; rfl
private theorem bytes_kl (toks : List Tok) : ((toks.map kindLen).map (·.2)).sum = tokBytes toks := by
  rw [List.map_map]; rfl

/-- With `bump`: the parser ends, reports nothing, and below the root are the tokens in order with their kinds and lengths, from the
first one that is not ignored.

Missing for C77: ignored tokens before the first other one (see `C77_leading`). -/
theorem C77_bump_partial {p : FlatParser} (hb : p.bumps = true) {toks : List Tok} {n : Nat} (hl : tokBytes toks < 2 ^ 32) :
    ∃ w cs, p.parse toks n = .ok (.node p.root w cs, []) ∧
      leavesOfList cs = (toks.dropWhile (fun t => p.ign t.kind)).map kindLen ∧
      w = tokBytes (toks.dropWhile (fun t => p.ign t.kind)) := by
  obtain ⟨cs, h1, h2⟩ := p.parse_at (toks := toks) (n := n) hl
  have hk : p.kept (toks.map Tok.kl) = (toks.dropWhile (fun t => p.ign t.kind)).map kindLen := by
    unfold FlatParser.kept
    rw [kl_map, drop_kl]
    exact List.filter_eq_self.mpr (by simp [hb])
  rw [hk, bytes_kl] at h1
  exact ⟨_, cs, h1, by rw [h2, hk], rfl⟩

/-- A text that does not begin with ignored tokens is there completely. -/
theorem C77_bump_all {p : FlatParser} (hb : p.bumps = true) {toks : List Tok} {n : Nat} (hl : tokBytes toks < 2 ^ 32)
    (hh : ∀ t, toks.head? = some t → p.ign t.kind = false) :
    ∃ cs, p.parse toks n = .ok (.node p.root (tokBytes toks) cs, []) ∧ leavesOfList cs = toks.map kindLen := by
  obtain ⟨w, cs, h1, h2, h3⟩ := C77_bump_partial (n := n) hb hl
  have : toks.dropWhile (fun t => p.ign t.kind) = toks := by
    cases toks with
    | nil => rfl
    | cons a b => rw [List.dropWhile_cons_of_neg]; simp [hh a rfl]
  rw [this] at h2 h3
  exact ⟨cs, h3 ▸ h1, h2⟩

example : ∃ cs, (FlatParser.mk (· == 0) 9 true).parse [⟨1, 0, 2⟩, ⟨0, 2, 3⟩, ⟨2, 3, 7⟩] 7 = .ok (.node 9 7 cs, []) ∧
    leavesOfList cs = [(1, 2), (0, 1), (2, 4)] := C77_bump_all rfl (by decide) (by decide)

/-- With `bump` or with `advance`, the ignored tokens a text begins with are not below the root: the root is shorter than the text. -/
theorem C77_leading {p : FlatParser} {a : Tok} {toks : List Tok} {n : Nat} (hl : tokBytes (a :: toks) < 2 ^ 32)
    (ha : p.ign a.kind = true) (h0 : a.start < a.stop) :
    ∃ w cs, p.parse (a :: toks) n = .ok (.node p.root w cs, []) ∧ w < tokBytes (a :: toks) := by
  obtain ⟨cs, h1, _⟩ := p.parse_at (toks := a :: toks) (n := n) hl
  refine ⟨_, cs, h1, ?_⟩
  have hd : ∀ l : List (Nat × Nat), ((l.dropWhile (fun t => p.ign t.1)).map (·.2)).sum ≤ (l.map (·.2)).sum := by
    intro l
    have := congrArg (fun l => (l.map (·.2)).sum) (List.takeWhile_append_dropWhile (p := fun t : Nat × Nat => p.ign t.1) (l := l))
    simp only [List.map_append, List.sum_append] at this
    omega
  have h2 := FlatParser.sum_filter_le (((a :: toks).map Tok.kl).dropWhile (fun t => p.ign t.1)) (fun t => p.bumps || p.ign t.1)
  have h3 := hd (toks.map Tok.kl)
  have h4 : ((toks.map Tok.kl).map (·.2)).sum = tokBytes toks := bytes_kl toks
  unfold FlatParser.kept
  have h5 : (List.map Tok.kl (a :: toks)).dropWhile (fun t => p.ign t.1) = (toks.map Tok.kl).dropWhile (fun t => p.ign t.1) := by
    rw [List.map_cons]; exact List.dropWhile_cons_of_pos (p := fun t : Nat × Nat => p.ign t.1) ha
  rw [h5] at h2 ⊢
  have : tokBytes (a :: toks) = (a.stop - a.start) + tokBytes toks := by simp [tokBytes]
  omega

example : ∃ w cs, (FlatParser.mk (· == 0) 9 true).parse [⟨0, 0, 2⟩, ⟨2, 2, 3⟩] 3 = .ok (.node 9 w cs, []) ∧ w < 3 :=
  C77_leading (by decide) rfl (by decide)

/-- With `advance`, what is below the root are the ignored tokens behind the first other one, and nothing else. -/
theorem C77_advance {p : FlatParser} (hb : p.bumps = false) {toks : List Tok} {n : Nat} (hl : tokBytes toks < 2 ^ 32) :
    ∃ w cs, p.parse toks n = .ok (.node p.root w cs, []) ∧
      leavesOfList cs = ((toks.dropWhile (fun t => p.ign t.kind)).filter (fun t => p.ign t.kind)).map kindLen ∧
      w = tokBytes ((toks.dropWhile (fun t => p.ign t.kind)).filter (fun t => p.ign t.kind)) := by
  obtain ⟨cs, h1, h2⟩ := p.parse_at (toks := toks) (n := n) hl
  have hk : p.kept (toks.map Tok.kl) = ((toks.dropWhile (fun t => p.ign t.kind)).filter (fun t => p.ign t.kind)).map kindLen := by
    unfold FlatParser.kept
    rw [kl_map, drop_kl, hb]
    exact filter_kl p.ign _
  rw [hk, bytes_kl] at h1
  exact ⟨_, cs, h1, by rw [h2, hk], rfl⟩

example : ∃ w cs, (FlatParser.mk (· == 0) 9 false).parse [⟨1, 0, 2⟩, ⟨0, 2, 3⟩, ⟨2, 3, 7⟩] 7 = .ok (.node 9 w cs, []) ∧
    leavesOfList cs = [(0, 1)] ∧ w = 1 := C77_advance rfl (by decide)

/-- So with `advance` no name, number, string or mark of any text is in its tree. -/
theorem C77_lost {p : FlatParser} (hb : p.bumps = false) {toks : List Tok} {n : Nat} (hl : tokBytes toks < 2 ^ 32) :
    ∃ w cs, p.parse toks n = .ok (.node p.root w cs, []) ∧ ∀ x ∈ leavesOfList cs, p.ign x.1 = true := by
  obtain ⟨w, cs, h1, h2, _⟩ := C77_advance (n := n) hb hl
  refine ⟨w, cs, h1, ?_⟩
  intro x hx
  rw [h2, List.mem_map] at hx
  obtain ⟨t, ht, rfl⟩ := hx
  exact (List.mem_filter.mp ht).2

/-- And where no kind is ignored (Clojure), every text has the same tree: an empty root. -/
theorem C77_empty {p : FlatParser} (hb : p.bumps = false) (hi : ∀ k, p.ign k = false) {toks : List Tok} {n : Nat}
    (hl : tokBytes toks < 2 ^ 32) : ∃ cs, p.parse toks n = .ok (.node p.root 0 cs, []) ∧ leavesOfList cs = [] := by
  obtain ⟨w, cs, h1, h2, h3⟩ := C77_advance (n := n) hb hl
  have : (toks.dropWhile (fun t => p.ign t.kind)).filter (fun t => p.ign t.kind) = [] := by simp [hi]
  rw [this] at h2 h3
  subst h3
  exact ⟨cs, h1, h2⟩

example : ∃ cs, (FlatParser.mk (fun _ => false) 9 false).parse [⟨1, 0, 2⟩, ⟨0, 2, 3⟩, ⟨2, 3, 7⟩] 7 = .ok (.node 9 0 cs, []) ∧
    leavesOfList cs = [] := C77_empty rfl (fun _ => rfl) (by decide)

end Oaks.Props
