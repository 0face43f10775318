import Verif.Proofs.LexChainRightA
import Verif.Proofs.LexChainRightB
import Verif.Props.LexForms

/-! C95: words of any length without blanks between them are tokens of the lexers. -/
namespace Oaks.Props
open Spec Lc Forms Chains

/-- Each lexer ends the words as the table says. -/
private theorem chainLangs_right : ∀ r ∈ chainLangs, r.right = true := by
  simp only [chainLangs, List.forall_mem_cons]
  exact ⟨javaChain_right, goChain_right, kotlinChain_right, phpChain_right, typescriptChain_right, csharpChain_right,
    swiftChain_right, dartChain_right, dChain_right, solidityChain_right, valaChain_right, hlslChain_right,
    objectiveCChain_right, pascalChain_right, delphiChain_right, adaChain_right, vhdlChain_right, fortranChain_right,
    ocamlChain_right, elmChain_right, perlChain_right, powershellChain_right, smalltalkChain_right, sqlChain_right,
    verilogChain_right, wolframChain_right, nimChain_right, vlangChain_right, leanChain_right, idlChain_right,
    graphqlChain_right, protobufChain_right, watChain_right, haskellChain_right, coqChain_right,
    purescriptChain_right, crystalChain_right, nixChain_right, cssChain_right, dhallChain_right, texChain_right,
    matlabChain_right, actionscriptChain_right, jChain_right, cChain_right, cppChain_right, luaChain_right,
    zigChain_right, prologChain_right, wgslChain_right, juliaChain_right, nginxChain_right, witComponentChain_right,
    fun _ h => nomatch h⟩

/-- The second word may come right after the first: a blank after a word, a word after a blank, a sign after a name, number or
quote, or what may come after a sign or an operator. -/
def ChainLang.Next (r : ChainLang) (w v : Str) : Prop :=
  ∃ d ds, v = d :: ds ∧
    (r.forms.Has (w, d) ∨
     (∃ b ∈ r.forms.lang.blanks, w = [b] ∧ ∃ e, r.forms.Has (v, e)) ∨
     (∃ f ∈ r.ends, f.1.Has w ∧ d ∈ f.2) ∨
     (∃ c ∈ r.own signs, w = [c] ∧ inR (r.after c) d) ∨
     (w ∈ r.long ∧ inR r.afterLong d))

/-- Each word may come right after the one before; the last one is a blank. -/
def ChainLang.Chained (r : ChainLang) : List Str → Prop
  | [] => True
  | [w] => ∃ b ∈ r.forms.lang.blanks, w = [b]
  | w :: v :: x => r.Next w v ∧ r.Chained (v :: x)

private theorem chain_forms : ∀ r ∈ chainLangs, r.forms ∈ formLangs := by
  have h : chainLangs.map (·.forms) = formLangs := rfl
  intro r hr
  rw [← h]
  exact List.mem_map.mpr ⟨r, hr, rfl⟩

private theorem has_mem {r : ChainLang} {f : Form} (h : r.has f = true) : ∃ k ∈ r.forms.forms, k.1 = f := by
  obtain ⟨k, h1, h2⟩ := List.any_eq_true.mp h
  exact ⟨k, h1, by simpa using h2⟩

private theorem ends_has {r : ChainLang} {e : Form × List Char} (h : e ∈ r.ends) : ∃ k ∈ r.forms.forms, k.1 = e.1 := by
  simp only [ChainLang.ends, List.mem_append, List.mem_map] at h
  rcases h with ⟨f, hf, rfl⟩ | ⟨f, hf, rfl⟩
  · exact has_mem (List.mem_filter.mp hf).2
  · exact has_mem (List.mem_filter.mp hf).2

private theorem chained_next {r : ChainLang} {y z : List Str} {w v : Str} (h : r.Chained (y ++ w :: v :: z)) : r.Next w v := by
  induction y with
  | nil => exact h.1
  | cons a y ih => cases y with
    | nil => exact ih h.2
    | cons b y => exact ih h.2

private theorem chained_last {r : ChainLang} {y : List Str} {w : Str} (h : r.Chained (y ++ [w])) : ∃ b ∈ r.forms.lang.blanks, w = [b] := by
  induction y with
  | nil => exact h
  | cons a y ih => cases y with
    | nil => exact ih h.2
    | cons b y => exact ih h.2

private theorem chainToks_spans {x : List Str} (hx : ∀ w ∈ x, ∀ c ∈ w, c.toNat < 128) (o : Nat) :
    (chainToks o x).map (fun t => (t.start, t.stop)) = spans o x := by
  induction x generalizing o with
  | nil => rfl
  | cons w x ih =>
    have h1 := ascii_len (hx w (by simp))
    simp [chainToks, spans, abs, h1, ih (fun v hv => hx v (by simp [hv]))]

/-- Code without blanks: names, numbers and quotes of any length with signs right after them, signs right after signs, and words
with blanks as in C94, in any order the rules of `Spec/LexChain.lean` allow. The words are the tokens, whatever the source.
Missing: operators whose first character is no sign of the rules right after a word, the other forms of C94 without a blank after
them, and the exceptions of the table. -/
theorem C95_chains_partial {r : ChainLang} (hr : r ∈ chainLangs) {x : List Str} (hx : r.Chained x) {src : Source}
    (h : r.forms.lang.Reads src x.flatten) (u : Uni) (ω : Nat → Nat) :
    ∃ toks, scanAll src u ω r.forms.lang.code = .ok toks ∧
      toks.map (fun t => (t.start, t.stop)) = spans 0 x ++ if r.forms.lang.eof then [(blen x.flatten, blen x.flatten)] else [] := by
  have hc := chainLangs_right r hr
  obtain ⟨m, hm, hq, hend, inB, good, hblank, hlast, hform, hword⟩ := form_facts (chain_forms r hr)
  simp only [ChainLang.right, hm, Bool.and_eq_true, List.all_eq_true, Bool.or_eq_true, List.isEmpty_iff, decide_eq_true_eq] at hc
  obtain ⟨⟨hends, hsigns⟩, hlong⟩ := hc
  have next : ∀ w v, r.Next w v → (w ≠ [] ∧ ∀ c ∈ w, c.toNat < 128) ∧
      m.cutTo r.forms.lang.whole w.length (w ++ v.take 1) false w.length = some [(0, w.length)] := by
    rintro w v ⟨d, ds, rfl, h1 | ⟨b, hb, rfl, e, h1⟩ | ⟨f, hf1, hw, hd⟩ | ⟨c, hc, rfl, hd⟩ | ⟨hc, hd⟩⟩
    · obtain ⟨g1, g2, g3⟩ := good _ h1
      exact ⟨⟨g1, g2⟩, by simpa using g3⟩
    · exact ⟨⟨by simp, by simpa using (hlast b hb).1⟩, by simpa using hblank b hb _ h1⟩
    · obtain ⟨k, hk1, hk2⟩ := ends_has hf1
      obtain ⟨hne, ha⟩ := hform k hk1 w (by rw [hk2]; exact hw)
      refine ⟨⟨hne, ha⟩, ?_⟩
      rcases hends f hf1 with (g0 | g0) | ⟨g1, g2⟩
      · rw [g0] at hd; cases hd
      · simpa using one_right g0 ⟨(d.toNat, d.toNat), List.mem_map.mpr ⟨d, hd, rfl⟩, Nat.le_refl _, Nat.le_refl _⟩ hw hne
      · by_cases hdot : d = '.'
        · subst hdot
          rcases g2 with g2 | g2
          · exact absurd hd g2
          · simpa using one_right g2 ⟨_, List.mem_singleton_self _, Nat.le_refl _, Nat.le_refl _⟩ hw hne
        · have hmem : d ∈ f.2.filter fun c => decide (c ≠ '.') := List.mem_filter.mpr ⟨hd, by simpa using hdot⟩
          rcases g1 with g1 | g1
          · rw [g1] at hmem; cases hmem
          · simpa using one_right g1 ⟨(d.toNat, d.toNat), List.mem_map.mpr ⟨d, hmem, rfl⟩, Nat.le_refl _, Nat.le_refl _⟩ hw hne
    · have hc' := List.mem_filter.mp hc
      simp only [Bool.and_eq_true, decide_eq_true_eq] at hc'
      rcases hsigns c hc with h0 | h0
      · rw [h0] at hd; obtain ⟨_, h, _⟩ := hd; cases h
      · exact ⟨⟨by simp, hword _ hc'.2.1 hc'.2.2⟩, by simpa using blank_right h0 hd⟩
    · have hc' := List.mem_filter.mp hc
      simp only [Bool.and_eq_true, decide_eq_true_eq] at hc'
      have hne : w ≠ [] := by
        rintro rfl
        exact absurd hc'.2.1.1 (by decide)
      rcases hlong w hc with h0 | h0
      · rw [h0] at hd; obtain ⟨_, h, _⟩ := hd; cases h
      · exact ⟨⟨hne, hword _ hc'.1 hc'.2.2⟩, by simpa using fixed_right h0 hd hne⟩
  have hasc : ∀ w ∈ x, w ≠ [] ∧ ∀ c ∈ w, c.toNat < 128 := by
    intro w hw
    obtain ⟨y, z, rfl⟩ := List.append_of_mem hw
    cases z with
    | nil =>
      obtain ⟨b, hb, rfl⟩ := chained_last hx
      exact ⟨by simp, by simpa using (hlast b hb).1⟩
    | cons v z => exact (next w v (chained_next hx)).1
  have hl : ChainRight m r.forms.lang.whole x := by
    refine ⟨hasc, fun y w v z e => ?_, fun y w e => ?_⟩
    · subst e
      exact (next w v (chained_next hx)).2
    · subst e
      obtain ⟨b, hb, rfl⟩ := chained_last hx
      exact (hlast b hb).2
  have hp : r.forms.lang.whole = true → Piece src x.flatten := by
    intro hw
    rcases h.2 hw with rfl | rfl
    · exact strSource_piece _
    · refine textSource_piece fun c hc => ?_
      obtain ⟨w, hw, hc⟩ := List.mem_flatten.mp hc
      exact (hasc w hw).2 c hc
  refine ⟨_, chains_sound (u := u) (supply_linked h.1.1 h.1.2 (longChunks_zero _ _) (cutsAligned_zero h.1.1)) hp hm hq hend hl rfl ω, ?_⟩
  rw [List.map_append, chainToks_spans fun w hw => (hasc w hw).2]
  congr 1
  split <;> simp [abs]

/-- C: `1+2` is one token, whatever the source; neither `1` nor `+` is one. -/
theorem C95_c_witness {src : Source} (h : AnySource src ['1', '+', '2', '\n']) (u : Uni) (ω : Nat → Nat) :
    ∃ toks, scanAll src u ω HandLex.C.run_ = .ok toks ∧ toks.map (fun t => (t.start, t.stop)) = [(0, 3), (3, 4)] := by
  have hc : cChain ∈ chainLangs := by simp [chainLangs]
  obtain ⟨m, hm, hq, hend, _, _, _, hlast, _, _⟩ := form_facts (chain_forms _ hc)
  have key : (match partsOf HandLex.C.run_ with
    | none => false
    | some m => decide (m.cutTo false 3 ['1', '+', '2', '\n'] false 3 = some [(0, 3)])) = true := by decide +kernel
  rw [show partsOf HandLex.C.run_ = some m from hm] at key
  have hl : ChainRight m false [['1', '+', '2'], ['\n']] := by
    refine ⟨by decide, fun y w v z e => ?_, fun y w e => ?_⟩
    · have hy : y = [] := by
        have := congrArg List.length e
        simp at this
        exact List.length_eq_zero_iff.mp (by omega)
      subst hy
      simp only [List.nil_append, List.cons.injEq] at e
      obtain ⟨rfl, rfl, rfl⟩ := e
      exact of_decide_eq_true key
    · have e' := congrArg List.getLast? e
      simp at e'
      subst e'
      exact (hlast '\n' (by decide +kernel)).2
  refine ⟨_, chains_sound (u := u) (supply_linked h.1 h.2 (longChunks_zero _ _) (cutsAligned_zero h.1)) (by intro h; cases h) hm hq hend hl rfl ω, ?_⟩
  decide +kernel

/-! ### Cases -/

/-- Java: `k…k==f("b…b",1);` and a line break, with `n + 1` letters in the name and `n` in the quote. -/
private def tight (n : Nat) : List Str :=
  [List.replicate (n + 1) 'k', ['=', '='], ['f'], ['('], '"' :: List.replicate n 'b' ++ ['"'], [','], ['1'], [')'], [';'], ['\n']]

example (n : Nat) : javaChain.Chained (tight n) := by
  have hk : anyName.Has (List.replicate (n + 1) 'k') :=
    ⟨['k'], List.replicate n 'k', [], by simp [List.replicate_succ], ⟨⟨(97, 122), by decide⟩, trivial⟩,
      fun c hc => by rw [List.eq_of_mem_replicate hc]; exact ⟨(97, 122), by decide⟩, trivial⟩
  have hf : anyName.Has ['f'] := ⟨['f'], [], [], rfl, ⟨⟨(97, 122), by decide⟩, trivial⟩, fun c hc => (nomatch hc), trivial⟩
  have h1 : integer.Has ['1'] := ⟨['1'], [], [], rfl, ⟨⟨(49, 57), by decide⟩, trivial⟩, fun c hc => (nomatch hc), trivial⟩
  have hq : (quote '"' inDouble).Has ('"' :: List.replicate n 'b' ++ ['"']) :=
    has_rep (f := quote '"' inDouble) (a := ['"']) (b := ['"']) (c := 'b') n ⟨⟨(34, 34), by decide⟩, trivial⟩ ⟨(93, 126), by decide⟩
      ⟨⟨(34, 34), by decide⟩, trivial⟩
  have named : ∀ {w : Str}, anyName.Has w → ∀ {d : Char} (ds : Str), d ∈ ['=', '('] → javaChain.Next w (d :: ds) := fun hw d ds hd =>
    ⟨d, ds, rfl, .inr (.inr (.inl ⟨(anyName, _), List.mem_append_left _ (List.mem_map_of_mem (by decide +kernel)), hw,
      (by decide +kernel : ∀ d ∈ ['=', '('], d ∈ (javaChain.own afterWord).filter fun c => decide ((anyName, c) ∉ javaChain.joined)) d hd⟩))⟩
  have sign : ∀ (c : Char) {d : Char} (ds : Str), (c, d) ∈ [('(', '"'), (',', '1'), (')', ';')] → javaChain.Next [c] (d :: ds) := by
    intro c d ds h
    have key : ∀ e ∈ [('(', '"'), (',', '1'), (')', ';')], e.1 ∈ javaChain.own signs ∧
        (javaChain.after e.1).any (fun k => decide (k.1 ≤ e.2.toNat) && decide (e.2.toNat ≤ k.2)) = true := by decide +kernel
    obtain ⟨g1, g2⟩ := key _ h
    obtain ⟨k, hk, g3⟩ := List.any_eq_true.mp g2
    simp only [Bool.and_eq_true, decide_eq_true_eq] at g3
    exact ⟨d, ds, rfl, .inr (.inr (.inr (.inl ⟨c, g1, rfl, k, hk, g3⟩)))⟩
  refine ⟨named hk _ (by simp), ⟨'f', [], rfl, .inr (.inr (.inr (.inr ⟨by decide +kernel, (97, 122), by decide +kernel, by decide⟩)))⟩, named hf _ (by simp), sign _ _ (by simp), ⟨',', [], rfl, .inr (.inr (.inl ?_))⟩,
    sign _ _ (by simp), ⟨')', [], rfl, .inr (.inr (.inl ?_))⟩, sign _ _ (by simp), ⟨'\n', [], rfl, .inl (.inl (by decide +kernel))⟩, '\n', by decide +kernel, rfl⟩
  · exact ⟨(quote '"' inDouble, _), List.mem_append_right _ (List.mem_map_of_mem (by decide +kernel)), hq, by decide +kernel⟩
  · exact ⟨(integer, _), List.mem_append_left _ (List.mem_map_of_mem (by decide +kernel)), h1, by decide +kernel⟩

/-- How many languages, signs and longer operators there are. -/
example : chainLangs.length = 53 ∧ (chainLangs.map fun r => (r.own signs).length).sum = 986 ∧ (chainLangs.map fun r => r.long.length).sum = 608 := by decide +kernel

end Oaks.Props
