import Verif.Spec.DiskVfs
import Verif.Proofs.Lsp
import Mathlib.Data.List.Basic
import Mathlib.Data.List.Induction
import Mathlib.Data.List.Forall2
import Mathlib.Data.List.TakeWhile
import Mathlib.Tactic.SplitIfs

/-! Paths, places and the calls of the disk file system. -/

namespace Oaks.Dsk
open Oaks.Spec Spec

theorem splitSlash_ne_nil (s : Str) : splitSlash s ≠ [] := by
  cases s with
  | nil => simp [splitSlash]
  | cons c s =>
    simp only [splitSlash]
    split
    · simp
    · split <;> simp

theorem splitSlash_cons {c : Char} (h : c ≠ '/') (s : Str) :
    ∃ p ps, splitSlash s = p :: ps ∧ splitSlash (c :: s) = (c :: p) :: ps := by
  cases hs : splitSlash s with
  | nil => exact absurd hs (splitSlash_ne_nil s)
  | cons p ps => exact ⟨p, ps, rfl, by simp only [splitSlash, if_neg h, hs]⟩

theorem splitSlash_append (a b : Str) : splitSlash (a ++ '/' :: b) = splitSlash a ++ splitSlash b := by
  induction a with
  | nil => simp [splitSlash]
  | cons c a ih =>
    by_cases h : c = '/'
    · subst h; simp only [List.cons_append, splitSlash, if_true, ih]
    · obtain ⟨p, ps, h1, h2⟩ := splitSlash_cons h a
      obtain ⟨p', ps', h1', h2'⟩ := splitSlash_cons h (a ++ '/' :: b)
      rw [List.cons_append, h2, h2']
      rw [ih, h1] at h1'
      simp only [List.cons_append, List.cons.injEq] at h1'
      simp [h1'.1, h1'.2]

theorem components_append (a b : Str) : components (a ++ '/' :: b) = components a ++ components b := by
  simp only [components, splitSlash_append, List.filter_append]

@[simp] theorem components_nil : components [] = [] := by decide

theorem components_slash (s : Str) : components ('/' :: s) = components s := by
  have := components_append [] s
  simpa using this

theorem components_final (a : Str) : components (a ++ ['/']) = components a := by
  have := components_append a []
  simpa using this

theorem components_join {a b : Str} (h : isAbs b = false) :
    components (joinPath a b) = components a ++ components b := by
  unfold joinPath
  rw [if_neg (by simp [h])]
  split
  · rename_i ha
    rcases ha with rfl | ha
    · simp
    · obtain ⟨a', rfl⟩ : ∃ a', a = a' ++ ['/'] := by
        rw [List.getLast?_eq_some_iff] at ha; exact ha
      rw [List.append_assoc, List.singleton_append, components_append, components_final]
  · exact components_append a b

theorem components_one {n : Str} (h : IsName n) : components n = [n] := by
  unfold components
  rw [splitSlash_name h.2.2]
  simp [h.1, h.2.1]

theorem segs_components {s : Str} {ns : List Str} (h : Segs s ns) : components s = ns := by
  induction h with
  | nil => simp
  | slash _ ih => rw [components_slash, ih]
  | @dot s ns hs _ ih =>
    rcases hs with rfl | hs
    · rw [← ih]; decide
    · obtain ⟨t, rfl⟩ : ∃ t, s = '/' :: t := by
        cases s with
        | nil => simp at hs
        | cons c t => simp at hs; exact ⟨t, by rw [hs]⟩
      rw [show '.' :: '/' :: t = ['.'] ++ '/' :: t from rfl, components_append, ← ih, components_slash]
      rfl
  | @name n s ns hn hs _ ih =>
    rcases hs with rfl | hs
    · rw [List.append_nil, components_one hn, ← ih]; simp
    · obtain ⟨t, rfl⟩ : ∃ t, s = '/' :: t := by
        cases s with
        | nil => simp at hs
        | cons c t => simp at hs; exact ⟨t, by rw [hs]⟩
      rw [components_append, components_one hn, ← ih, components_slash]; rfl

theorem isAbs_iff {s : Str} : isAbs s = true ↔ s.head? = some '/' := by simp [isAbs]
theorem isAbs_false {s : Str} : isAbs s = false ↔ s.head? ≠ some '/' := by simp [isAbs]

theorem isAbs_join {a b : Str} (ha : a.head? = some '/') : isAbs (joinPath a b) = true := by
  unfold joinPath
  split
  · assumption
  · cases a with
    | nil => simp at ha
    | cons c a =>
      split
      · simpa [isAbs] using ha
      · simpa [isAbs] using ha

theorem isAbs_join_rel {a b : Str} (ha : a.head? ≠ some '/') (hb : b.head? ≠ some '/') :
    isAbs (joinPath a b) = false := by
  unfold joinPath
  rw [if_neg (by rw [isAbs_iff]; exact hb)]
  cases a with
  | nil => simpa [isAbs] using hb
  | cons c a =>
    split
    · simpa [isAbs] using ha
    · simpa [isAbs] using ha

/-- What a URI names, in terms of the path text made from it. -/
theorem names_path {v : DiskVfs} {u : Str} {p : Place} (h : Names v u p) :
    v.start (v.path u) ++ components (v.path u) = p ∧ ['.', '.'] ∉ components (v.path u) ∧
      (v.start (v.path u) = [] ∨ v.start (v.path u) = v.cwd) := by
  cases h with
  | abs h1 h2 =>
    have := segs_components h2.1
    simp only [DiskVfs.path, isAbs_iff.2 h1, if_true, DiskVfs.start]
    exact ⟨by simpa using this, by rw [this]; exact h2.2, by simp⟩
  | rooted h1 h2 h3 h4 =>
    have e1 := segs_components h3.1
    have e2 := segs_components h4.1
    have hc : components (joinPath v.root u) = _ ++ _ := components_join (isAbs_false.2 h1)
    rw [e1, e2] at hc
    simp only [DiskVfs.path, isAbs_false.2 h1, Bool.false_eq_true, if_false, DiskVfs.start, isAbs_join h2, if_true]
    exact ⟨by simpa using hc, by rw [hc]; simp [h3.2, h4.2], by simp⟩
  | relative h1 h2 h3 h4 =>
    have e1 := segs_components h3.1
    have e2 := segs_components h4.1
    have hc : components (joinPath v.root u) = _ ++ _ := components_join (isAbs_false.2 h1)
    rw [e1, e2] at hc
    simp only [DiskVfs.path, isAbs_false.2 h1, Bool.false_eq_true, if_false, DiskVfs.start, isAbs_join_rel h2 h1]
    exact ⟨by rw [hc]; simp, by rw [hc]; simp [h3.2, h4.2], by simp⟩

theorem endsInName_path {v : DiskVfs} {u : Str} (h : EndsInName u) : EndsInName (v.path u) := by
  obtain ⟨w, n, rfl, hn, hw⟩ := h
  unfold DiskVfs.path
  split
  · exact ⟨w, n, rfl, hn, hw⟩
  · rename_i ha
    unfold joinPath
    rw [if_neg ha]
    split
    · rename_i hr
      refine ⟨v.root ++ w, n, by simp, hn, ?_⟩
      rcases hw with rfl | hw
      · simpa using hr
      · right; simp [hw]
    · refine ⟨v.root ++ '/' :: w, n, by simp, hn, ?_⟩
      right
      rcases hw with rfl | hw
      · simp
      · rw [List.getLast?_append, List.getLast?_cons, hw]; simp

theorem endsInName_facts {u : Str} (h : EndsInName u) :
    u ≠ [] ∧ wantsDir u = false ∧ components u ≠ [] := by
  obtain ⟨w, n, rfl, hn, hw⟩ := h
  have hs : (splitSlash (w ++ n)).getLast? = some n ∧ components (w ++ n) ≠ [] := by
    rcases hw with rfl | hw
    · rw [List.nil_append, splitSlash_name hn.2.2, components_one hn]; simp
    · rw [List.getLast?_eq_some_iff] at hw
      obtain ⟨w', rfl⟩ := hw
      rw [List.append_assoc, List.singleton_append, splitSlash_append, components_append, splitSlash_name hn.2.2,
        components_one hn]
      simp
  refine ⟨by simp [hn.1], ?_, hs.2⟩
  simp [wantsDir, hs.1, hn.1, hn.2.1]

/-! ### Places -/

@[simp] theorem look_root (d : Disk) : look d [] = some .dir := by simp [look]

theorem look_cons (d : Disk) (q p : Place) (e : Entry) (h : p ≠ []) :
    look ((q, e) :: d) p = if q = p then some e else look d p := by
  simp only [look, if_neg h, List.find?_cons]
  by_cases hq : q = p <;> simp [hq]

theorem look_filter (d : Disk) (q p : Place) :
    look (d.filter fun e => decide (e.1 ≠ q)) p = if p = q ∧ p ≠ [] then none else look d p := by
  by_cases hp : p = []
  · simp [hp]
  · simp only [look, if_neg hp, List.find?_filter]
    by_cases hq : p = q
    · subst hq
      simp [hp]
    · have : (fun e : Place × Entry => !decide (e.1 = q) && decide (e.1 = p)) = fun e => decide (e.1 = p) := by
        funext e
        by_cases he : e.1 = p
        · simp [he, hq]
        · simp [he]
      simp only [hq, false_and, if_false]
      simp [this]

theorem look_mem {d : Disk} {p : Place} {e : Entry} (hp : p ≠ []) (h : look d p = some e) : (p, e) ∈ d := by
  simp only [look, if_neg hp] at h
  cases hf : d.find? (fun x => decide (x.1 = p)) with
  | none => simp [hf] at h
  | some x =>
    have h1 := List.mem_of_find?_eq_some hf
    have h2 := List.find?_some hf
    simp [hf] at h h2
    rw [← h2, ← h]; exact h1

theorem look_of_mem {d : Disk} {p : Place} (hp : p ≠ []) (h : p ∈ d.map Prod.fst) : look d p ≠ none := by
  simp only [look, if_neg hp]
  simp only [List.mem_map] at h
  obtain ⟨x, hx, rfl⟩ := h
  simp only [ne_eq, Option.map_eq_none_iff, List.find?_eq_none, not_forall]
  exact ⟨x, hx, by simp⟩

theorem look_eq_of_mem {d : Disk} (hn : (d.map Prod.fst).Nodup) {p : Place} {e : Entry} (hp : p ≠ [])
    (h : (p, e) ∈ d) : look d p = some e := by
  induction d with
  | nil => simp at h
  | cons x d ih =>
    obtain ⟨q, f⟩ := x
    rw [look_cons _ _ _ _ hp]
    simp only [List.map_cons, List.nodup_cons] at hn
    simp only [List.mem_cons, Prod.mk.injEq] at h
    rcases h with ⟨rfl, rfl⟩ | h
    · simp
    · rw [if_neg, ih hn.2 h]
      rintro rfl
      exact hn.1 (List.mem_map.2 ⟨_, h, rfl⟩)

/-- What is above something is a directory. -/
theorem above_dir {v : DiskVfs} {d : Disk} (g : Good v d) {p q : Place} (h : look d (p ++ q) ≠ none)
    (hq : q ≠ []) : look d p = some .dir := by
  induction q using List.reverseRecOn with
  | nil => exact absurd rfl hq
  | append_singleton q c ih =>
    have hne : p ++ (q ++ [c]) ≠ [] := by simp
    cases hl : look d (p ++ (q ++ [c])) with
    | none => exact absurd hl h
    | some e =>
      have := (g.below _ (look_mem hne hl)).2
      simp only [← List.append_assoc, List.dropLast_concat] at this
      by_cases hq' : q = []
      · subst hq'; simpa using this
      · exact ih (by rw [this]; simp) hq'

/-- Going down by names that are no `..`. -/
theorem walk_some {d : Disk} {p r : Place} {ns : List Str} (hd : ['.', '.'] ∉ ns) (h : walk d p ns = some r) :
    r = p ++ ns ∧ ∀ q t, ns = q ++ t → t ≠ [] → look d (p ++ q) = some .dir := by
  induction ns generalizing p with
  | nil =>
    simp only [walk, Option.some.injEq] at h
    refine ⟨by simp [h], ?_⟩
    intro q t hqt ht
    simp at hqt; exact absurd hqt.2 ht
  | cons c ns ih =>
    simp only [List.mem_cons, not_or] at hd
    rw [walk] at h
    split at h
    · rename_i hp
      rw [if_neg (Ne.symm hd.1)] at h
      obtain ⟨h1, h2⟩ := ih hd.2 h
      refine ⟨by simp [h1], ?_⟩
      intro q t hqt ht
      cases q with
      | nil => simpa using hp
      | cons c' q =>
        simp only [List.cons_append, List.cons.injEq] at hqt
        have := h2 q t hqt.2 ht
        rw [← hqt.1]
        simpa using this
    · cases h

theorem walk_of {d : Disk} {p : Place} {ns : List Str} (hd : ['.', '.'] ∉ ns)
    (h : ∀ q t, ns = q ++ t → t ≠ [] → look d (p ++ q) = some .dir) : walk d p ns = some (p ++ ns) := by
  induction ns generalizing p with
  | nil => simp [walk]
  | cons c ns ih =>
    simp only [List.mem_cons, not_or] at hd
    rw [walk, if_pos (by simpa using h [] (c :: ns) rfl (by simp)), if_neg (Ne.symm hd.1),
      ih hd.2]
    · simp
    · intro q t hqt ht
      have := h (c :: q) t (by simp [hqt]) ht
      simpa using this

/-- The walk fails only when there is nothing at the end. -/
theorem walk_or {v : DiskVfs} {d : Disk} (g : Good v d) {p : Place} {ns : List Str} (hd : ['.', '.'] ∉ ns) :
    walk d p ns = some (p ++ ns) ∨ walk d p ns = none ∧ look d (p ++ ns) = none := by
  by_cases hl : look d (p ++ ns) = none
  · cases hw : walk d p ns with
    | none => right; exact ⟨rfl, hl⟩
    | some r => left; rw [(walk_some hd hw).1]
  · left
    apply walk_of hd
    intro q t hqt ht
    apply above_dir g (q := t) _ ht
    rw [List.append_assoc, ← hqt]; exact hl

theorem stat_file {v : DiskVfs} {d : Disk} (g : Good v d) {u : Str} {p : Place} (h : FileName v u p) :
    v.stat d (v.path u) = look d p := by
  obtain ⟨h1, h2, _⟩ := names_path h.1
  obtain ⟨e1, e2, _⟩ := endsInName_facts (endsInName_path (v := v) h.2)
  unfold DiskVfs.stat DiskVfs.locate
  rw [if_neg e1]
  rcases walk_or g (p := v.start (v.path u)) h2 with hw | ⟨hw, hl⟩
  · rw [hw]; simp [e2, h1]
  · rw [hw, ← h1, hl]

/-! ### Changing the disk -/

theorem good_cons {v : DiskVfs} {d : Disk} (g : Good v d) {p : Place} {n : Str} {e : Entry}
    (hp : look d p = some .dir) (hn : IsName n ∧ n ≠ ['.', '.']) (hno : look d (p ++ [n]) = none)
    (hpn : ∀ m ∈ p, IsName m ∧ m ≠ ['.', '.']) :
    Good v ((p ++ [n], e) :: d) := by
  have key : ∀ x, look d x = some .dir → look ((p ++ [n], e) :: d) x = some .dir := by
    intro x hx
    by_cases hx0 : x = []
    · simp [hx0]
    · rw [look_cons _ _ _ _ hx0, if_neg, hx]
      rintro rfl
      rw [hno] at hx; cases hx
  constructor
  · simp only [List.map_cons, List.nodup_cons]
    exact ⟨fun h => look_of_mem (by simp) h hno, g.once⟩
  · intro x hx
    simp only [List.mem_cons] at hx
    rcases hx with rfl | hx
    · exact ⟨by simp, by simpa using key _ hp⟩
    · exact ⟨(g.below x hx).1, key _ (g.below x hx).2⟩
  · intro x hx m hm
    simp only [List.mem_cons] at hx
    rcases hx with rfl | hx
    · simp only [List.mem_append, List.mem_singleton] at hm
      rcases hm with hm | rfl
      · exact hpn m hm
      · exact hn
    · exact g.named x hx m hm
  · exact key _ g.cwd

theorem names_of_look {v : DiskVfs} {d : Disk} (g : Good v d) {p : Place} {e : Entry} (h : look d p = some e) :
    ∀ m ∈ p, IsName m ∧ m ≠ ['.', '.'] := by
  intro m hm
  by_cases hp : p = []
  · simp [hp] at hm
  · exact g.named _ (look_mem hp h) m hm

/-- Making directories: nothing that was there changes, what is new is a directory on the way, and
unless a file is in the way all of the way is there. -/
theorem makeDirs_facts {v : DiskVfs} {d : Disk} (g : Good v d) {p : Place} {ns : List Str}
    (hp : look d p = some .dir) (hd : ∀ n ∈ ns, IsName n ∧ n ≠ ['.', '.']) :
    Good v (makeDirs d p ns) ∧
    (∀ x, look d x ≠ none → look (makeDirs d p ns) x = look d x) ∧
    (∀ x, look d x = none → look (makeDirs d p ns) x = none ∨
      look (makeDirs d p ns) x = some .dir ∧ ∃ q, q <+: ns ∧ x = p ++ q) ∧
    ((∀ q, q <+: ns → ¬ IsFile d (p ++ q)) → ∀ q, q <+: ns → look (makeDirs d p ns) (p ++ q) = some .dir) := by
  induction ns generalizing d p with
  | nil =>
    rw [makeDirs]
    refine ⟨g, fun _ _ => rfl, fun x hx => .inl hx, ?_⟩
    intro _ q hq
    rw [List.prefix_nil] at hq
    simpa [hq] using hp
  | cons c ns ih =>
    have hc := hd c (by simp)
    rw [makeDirs, if_neg hc.2]
    cases hl : look d (p ++ [c]) with
    | none =>
      have g' := good_cons (e := .dir) g hp hc hl (names_of_look g hp)
      have hlc : ∀ x, x ≠ p ++ [c] → look ((p ++ [c], .dir) :: d) x = look d x := by
        intro x hx
        by_cases hx0 : x = []
        · simp [hx0]
        · rw [look_cons _ _ _ _ hx0, if_neg (Ne.symm hx)]
      have hlp : look ((p ++ [c], .dir) :: d) (p ++ [c]) = some .dir := by
        rw [look_cons _ _ _ _ (by simp), if_pos rfl]
      obtain ⟨h1, h2, h3, h4⟩ := ih g' hlp (fun n hn => hd n (by simp [hn]))
      refine ⟨h1, ?_, ?_, ?_⟩
      · intro x hx
        have hne : x ≠ p ++ [c] := by intro hxe; exact hx (hxe ▸ hl)
        show look (makeDirs _ _ _) x = _
        rw [h2 x (by rw [hlc x hne]; exact hx), hlc x hne]
      · intro x hx
        by_cases hxe : x = p ++ [c]
        · right
          refine ⟨?_, [c], by simp, hxe⟩
          show look (makeDirs _ _ _) x = _
          rw [hxe, h2 _ (by rw [hlp]; simp), hlp]
        · rcases h3 x (by rw [hlc x hxe]; exact hx) with h | ⟨h, q, hq, hxq⟩
          · exact .inl h
          · right
            exact ⟨h, c :: q, by simpa using hq, by rw [hxq]; simp⟩
      · intro hf q hq
        cases q with
        | nil =>
          have : look d p ≠ none := by rw [hp]; simp
          show look (makeDirs _ _ _) _ = _
          have hne : p ≠ p ++ [c] := by simp
          rw [List.append_nil, h2 p (by rw [hlc p hne]; exact this), hlc p hne, hp]
        | cons c' q =>
          have hq' := List.cons_prefix_cons.1 hq
          rw [hq'.1]
          have := h4 (by
            intro q' hq'' hfile
            obtain ⟨e, he, hne⟩ := hfile
            by_cases hx : p ++ [c] ++ q' = p ++ [c]
            · rw [hx, hlp] at he; simp at he; exact hne he.symm
            · rw [hlc _ hx] at he
              exact hf (c :: q') (by simpa using hq'') ⟨e, by simpa using he, hne⟩) q hq'.2
          simpa using this
    | some e =>
      cases e with
      | dir =>
        obtain ⟨h1, h2, h3, h4⟩ := ih g hl (fun n hn => hd n (by simp [hn]))
        refine ⟨h1, h2, ?_, ?_⟩
        · intro x hx
          rcases h3 x hx with h | ⟨h, q, hq, hxq⟩
          · exact .inl h
          · right
            exact ⟨h, c :: q, by simpa using hq, by rw [hxq]; simp⟩
        · intro hf q hq
          cases q with
          | nil =>
            have : look d p ≠ none := by rw [hp]; simp
            show look (makeDirs _ _ _) _ = _
            rw [List.append_nil, h2 p this, hp]
          | cons c' q =>
            have hq' := List.cons_prefix_cons.1 hq
            rw [hq'.1]
            have := h4 (by
              intro q' hq'' hfile
              exact hf (c :: q') (by simpa using hq'') (by simpa using hfile)) q hq'.2
            simpa using this
      | text s =>
        refine ⟨g, fun _ _ => rfl, fun x hx => .inl hx, ?_⟩
        intro hf
        exact absurd ⟨_, hl, by simp⟩ (hf [c] (by simp))
      | binary n =>
        refine ⟨g, fun _ _ => rfl, fun x hx => .inl hx, ?_⟩
        intro hf
        exact absurd ⟨_, hl, by simp⟩ (hf [c] (by simp))

theorem look_putFile (d : Disk) (p x : Place) (s : Str) (hp : p ≠ []) :
    look (putFile d p s) x = if x = p then some (.text s) else look d x := by
  by_cases hx : x = []
  · subst hx; simp [Ne.symm hp]
  · rw [putFile, look_cons _ _ _ _ hx, look_filter]
    by_cases h : p = x
    · simp [h]
    · simp [h, Ne.symm h]

theorem good_filter {v : DiskVfs} {d : Disk} (g : Good v d) {p : Place} (hp : look d p ≠ some .dir) :
    Good v (d.filter fun e => decide (e.1 ≠ p)) := by
  have key : ∀ x, look d x = some .dir → look (d.filter fun e => decide (e.1 ≠ p)) x = some .dir := by
    intro x hx
    rw [look_filter, if_neg, hx]
    rintro ⟨rfl, _⟩
    exact hp hx
  constructor
  · exact g.once.sublist ((List.filter_sublist).map _)
  · intro e he
    have := (List.mem_filter.1 he).1
    exact ⟨(g.below e this).1, key _ (g.below e this).2⟩
  · intro e he
    exact g.named e ((List.mem_filter.1 he).1)
  · exact key _ g.cwd

theorem good_putFile {v : DiskVfs} {d : Disk} (g : Good v d) {p : Place} {s : Str} (hp0 : p ≠ [])
    (hp : look d p ≠ some .dir) (hup : look d p.dropLast = some .dir)
    (hn : IsName (p.getLast hp0) ∧ p.getLast hp0 ≠ ['.', '.']) : Good v (putFile d p s) := by
  have hsplit := List.dropLast_concat_getLast hp0
  have g1 := good_filter g hp
  have h := good_cons (e := .text s) g1 (p := p.dropLast) (n := p.getLast hp0)
    (by
      rw [look_filter, if_neg, hup]
      rintro ⟨h, _⟩
      have := congrArg List.length h
      have h0 : 0 < p.length := List.length_pos_iff.2 hp0
      rw [List.length_dropLast] at this
      omega) hn (by rw [hsplit, look_filter, if_pos ⟨rfl, hp0⟩]) (names_of_look g hup)
  rw [hsplit] at h
  exact h

/-- Is a file in the way or a directory at the end? -/
theorem open_or {d : Disk} (p : Place) : Open d p ∨ look d p = some .dir ∨ ∃ q, q <+: p ∧ q ≠ p ∧ IsFile d q := by
  by_cases h1 : look d p = some .dir
  · exact .inr (.inl h1)
  · by_cases h2 : ∃ q, q <+: p ∧ q ≠ p ∧ IsFile d q
    · exact .inr (.inr h2)
    · left
      exact ⟨h1, fun q a b c => h2 ⟨q, a, b, c⟩⟩

theorem start_dir {v : DiskVfs} {d : Disk} (g : Good v d) {s : Str} : look d (v.start s) = some .dir := by
  unfold DiskVfs.start
  split
  · simp
  · exact g.cwd

theorem components_isName {s n : Str} (h : n ∈ components s) : IsName n := by
  have key : ∀ s : Str, ∀ n ∈ splitSlash s, '/' ∉ n := by
    intro s
    induction s with
    | nil => intro n hn; simp [splitSlash] at hn; simp [hn]
    | cons c s ih =>
      intro n hn
      by_cases hc : c = '/'
      · simp only [splitSlash, if_pos hc, List.mem_cons] at hn
        rcases hn with rfl | hn
        · simp
        · exact ih n hn
      · obtain ⟨p, ps, h1, h2⟩ := splitSlash_cons hc s
        rw [h2] at hn
        rw [h1] at ih
        simp only [List.mem_cons] at hn
        rcases hn with rfl | hn
        · simp only [List.mem_cons, not_or]
          exact ⟨Ne.symm hc, ih p (by simp)⟩
        · exact ih n (by simp [hn])
  simp only [components, List.mem_filter, decide_eq_true_eq] at h
  exact ⟨h.2.1, h.2.2, key s n h.1⟩

/-- Prefixes of a place reached from a directory. -/
theorem prefix_split {a b q : Place} (h : q <+: a ++ b) (hq : q ≠ a ++ b) :
    (q <+: a ∧ q ≠ a) ∨ ∃ q', q' <+: b ∧ q' ≠ b ∧ q = a ++ q' := by
  obtain ⟨t, ht⟩ := h
  rw [List.append_eq_append_iff] at ht
  rcases ht with ⟨r, h1, h2⟩ | ⟨r, h1, h2⟩
  · by_cases hr : r = []
    · subst hr
      right
      refine ⟨[], by simp, ?_, by simpa using h1.symm⟩
      rintro rfl
      exact hq (by simpa using h1.symm)
    · left
      refine ⟨⟨r, h1.symm⟩, ?_⟩
      intro he
      rw [he] at h1
      exact hr (by simpa using h1)
  · right
    refine ⟨r, ⟨t, h2.symm⟩, ?_, h1⟩
    rintro rfl
    exact hq h1

theorem dir_above {v : DiskVfs} {d : Disk} (g : Good v d) {p q : Place} (h : look d p ≠ none) (hq : q <+: p)
    (hne : q ≠ p) : look d q = some .dir := by
  obtain ⟨t, rfl⟩ := hq
  exact above_dir g h (by rintro rfl; simp at hne)

theorem prefix_dropLast {α} {q l : List α} (h : q <+: l) (hne : q ≠ l) : q <+: l.dropLast := by
  obtain ⟨t, rfl⟩ := h
  have ht : t ≠ [] := by rintro rfl; simp at hne
  rw [List.dropLast_append_of_ne_nil ht]
  exact List.prefix_append _ _

/-- Everything about `write_file` under a URI that names a place for a file. -/
theorem writeFile_facts {v : DiskVfs} {d : Disk} (g : Good v d) {u c : Str} {p : Place} (h : FileName v u p) :
    Good v (v.writeFile d u c) ∧
    (Open d p → ∀ x, look (v.writeFile d u c) x =
      if x = p then some (.text c) else if x <+: p then some .dir else look d x) ∧
    (¬ Open d p → ∀ x, look (v.writeFile d u c) x = look d x) := by
  obtain ⟨h1, h2, _⟩ := names_path h.1
  obtain ⟨e1, e2, e3⟩ := endsInName_facts (endsInName_path (v := v) h.2)
  have hs := start_dir g (s := v.path u)
  have hnames : ∀ n ∈ components (v.path u), IsName n ∧ n ≠ ['.', '.'] := by
    intro n hn
    refine ⟨components_isName hn, ?_⟩
    rintro rfl
    exact h2 hn
  have hw : v.writeFile d u c = v.fsWrite (makeDirs d (v.start (v.path u)) (components (v.path u)).dropLast) (v.path u) c := rfl
  rw [hw]
  clear hw
  generalize hst : v.start (v.path u) = st at *
  generalize hcs : components (v.path u) = cs at *
  subst h1
  obtain ⟨g1, f2, f3, f4⟩ := makeDirs_facts g hs (ns := cs.dropLast)
    (fun n hn => hnames n (List.dropLast_subset _ hn))
  generalize hd1 : makeDirs d st cs.dropLast = d1 at *
  have hne : st ++ cs ≠ [] := by simp [e3]
  have hwrite : v.fsWrite d1 (v.path u) c = match walk d1 st cs with
      | none => d1
      | some p => if look d1 p = some .dir then d1 else putFile d1 p c := by
    unfold DiskVfs.fsWrite
    rw [if_neg (by simp [e1, e2]), hst, hcs]
    rfl
  by_cases ho : Open d (st ++ cs)
  · have hdirs : ∀ q, q <+: cs → q ≠ cs → look d1 (st ++ q) = some .dir := by
      intro q hq hqc
      refine f4 ?_ q (prefix_dropLast hq hqc)
      intro q' hq' hf
      refine ho.2 (st ++ q') ?_ ?_ hf
      · obtain ⟨t, ht⟩ := hq'.trans (List.dropLast_prefix cs)
        exact ⟨t, by rw [List.append_assoc, ht]⟩
      · intro he
        have := List.append_cancel_left he
        subst this
        have := hq'.length_le
        rw [List.length_dropLast] at this
        have := List.length_pos_iff.2 e3
        omega
    have hwalk : walk d1 st cs = some (st ++ cs) := by
      apply walk_of h2
      intro q t hqt ht
      exact hdirs q ⟨t, hqt.symm⟩ (by rintro rfl; simp at hqt; exact ht hqt)
    have hnd : look d1 (st ++ cs) ≠ some .dir := by
      intro hd
      cases hl : look d (st ++ cs) with
      | some e =>
        rw [f2 _ (by rw [hl]; simp), hl] at hd
        exact ho.1 (by rw [hl, hd])
      | none =>
        rcases f3 _ hl with h | ⟨_, q, hq, hqe⟩
        · rw [h] at hd; cases hd
        · have := List.append_cancel_left hqe
          rw [← this] at hq
          have := hq.length_le
          rw [List.length_dropLast] at this
          have := List.length_pos_iff.2 e3
          omega
    have hres : v.fsWrite d1 (v.path u) c = putFile d1 (st ++ cs) c := by
      rw [hwrite, hwalk]; simp [hnd]
    rw [hres]
    refine ⟨?_, ?_, fun h => absurd ho h⟩
    · apply good_putFile g1 hne hnd
      · rw [List.dropLast_append_of_ne_nil e3]
        refine hdirs cs.dropLast (List.dropLast_prefix _) ?_
        intro he
        have := congrArg List.length he
        rw [List.length_dropLast] at this
        have := List.length_pos_iff.2 e3
        omega
      · rw [List.getLast_append_of_ne_nil _ e3]
        exact hnames _ (List.getLast_mem e3)
    · intro _ x
      rw [look_putFile _ _ _ _ hne]
      by_cases hx : x = st ++ cs
      · simp [hx]
      · rw [if_neg hx, if_neg hx]
        by_cases hpre : x <+: st ++ cs
        · rw [if_pos hpre]
          rcases prefix_split hpre hx with ⟨ha, hb⟩ | ⟨q', ha, hb, rfl⟩
          · have hdx : look d x = some .dir := dir_above g (by rw [hs]; simp) ha hb
            rw [f2 x (by rw [hdx]; simp), hdx]
          · exact hdirs q' ha hb
        · rw [if_neg hpre]
          cases hl : look d x with
          | some e => rw [f2 x (by rw [hl]; simp), hl]
          | none =>
            rcases f3 x hl with h | ⟨_, q, hq, hqe⟩
            · exact h
            · exfalso
              apply hpre
              obtain ⟨t, ht⟩ := hq.trans (List.dropLast_prefix cs)
              exact ⟨t, by rw [hqe, List.append_assoc, ht]⟩
  · have hsame : ∀ x, look d1 x = look d x := by
      intro x
      cases hl : look d x with
      | some e => rw [f2 x (by rw [hl]; simp), hl]
      | none =>
        rcases f3 x hl with h | ⟨hdx, q, hq, hqe⟩
        · exact h
        · exfalso
          have hxp : x <+: st ++ cs ∧ x ≠ st ++ cs := by
            constructor
            · obtain ⟨t, ht⟩ := hq.trans (List.dropLast_prefix cs)
              exact ⟨t, by rw [hqe, List.append_assoc, ht]⟩
            · intro he
              rw [hqe] at he
              have := List.append_cancel_left he
              subst this
              have := hq.length_le
              rw [List.length_dropLast] at this
              have := List.length_pos_iff.2 e3
              omega
          rcases open_or (d := d) (st ++ cs) with h | h | ⟨y, hy1, hy2, e, he, hed⟩
          · exact ho h
          · have := dir_above g (by rw [h]; simp) hxp.1 hxp.2
            rw [this] at hl; cases hl
          · rcases List.prefix_or_prefix_of_prefix hxp.1 hy1 with hxy | hyx
            · by_cases hxy' : x = y
              · rw [hxy', he] at hl; cases hl
              · have := dir_above g (by rw [he]; simp) hxy hxy'
                rw [this] at hl; cases hl
            · by_cases hxy' : y = x
              · rw [← hxy', he] at hl; cases hl
              · have := dir_above g1 (by rw [hdx]; simp) hyx hxy'
                rw [f2 y (by rw [he]; simp), he] at this
                exact hed (by simpa using this)
    have hres : v.fsWrite d1 (v.path u) c = d1 := by
      rw [hwrite]
      cases hwk : walk d1 st cs with
      | none => rfl
      | some r =>
        obtain ⟨hr, hall⟩ := walk_some h2 hwk
        subst hr
        simp only
        rw [if_pos]
        rcases open_or (d := d) (st ++ cs) with h | h | ⟨y, hy1, hy2, e, he, hed⟩
        · exact absurd h ho
        · rw [hsame, h]
        · exfalso
          rcases prefix_split hy1 hy2 with ⟨ha, hb⟩ | ⟨q', ha, hb, rfl⟩
          · have := dir_above g (by rw [hs]; simp) ha hb
            rw [he] at this
            exact hed (by simpa using this)
          · obtain ⟨t, rfl⟩ := ha
            have := hall q' t rfl (by rintro rfl; simp at hb)
            rw [hsame, he] at this
            exact hed (by simpa using this)
    rw [hres]
    exact ⟨g1, fun h => absurd h ho, fun _ => hsame⟩

open Classical in
/-- Everything about `remove_file`. -/
theorem removeFile_facts {v : DiskVfs} {d : Disk} (g : Good v d) {u : Str} {p : Place} (h : FileName v u p) :
    Good v (v.removeFile d u) ∧
    ∀ x, look (v.removeFile d u) x = if x = p ∧ IsFile d p then none else look d x := by
  obtain ⟨h1, h2, _⟩ := names_path h.1
  obtain ⟨e1, e2, e3⟩ := endsInName_facts (endsInName_path (v := v) h.2)
  have hp0 : p ≠ [] := by rw [← h1]; simp [e3]
  have hloc : v.locate d (v.path u) = walk d (v.start (v.path u)) (components (v.path u)) := by
    unfold DiskVfs.locate
    rw [if_neg e1]
    cases walk d (v.start (v.path u)) (components (v.path u)) with
    | none => rfl
    | some r => simp [e2]
  unfold DiskVfs.removeFile
  rw [hloc]
  rcases walk_or g (p := v.start (v.path u)) h2 with hw | ⟨hw, hl⟩
  · rw [hw, h1]
    simp only
    by_cases hd : look d p = some .dir
    · rw [if_pos hd]
      refine ⟨g, fun x => ?_⟩
      rw [if_neg]
      rintro ⟨_, e, he, hed⟩
      rw [hd] at he
      exact hed (by simpa using he.symm)
    · rw [if_neg hd]
      refine ⟨good_filter g hd, fun x => ?_⟩
      rw [look_filter]
      by_cases hx : x = p
      · subst hx
        rw [if_pos ⟨rfl, hp0⟩]
        cases hl : look d x with
        | none => split <;> rfl
        | some e =>
          rw [if_pos ⟨rfl, e, hl, fun he => hd (by rw [hl, he])⟩]
      · rw [if_neg (by simp [hx]), if_neg (by simp [hx])]
  · rw [hw]
    refine ⟨g, fun x => ?_⟩
    simp only
    by_cases hx : x = p
    · rw [hx, ← h1, hl]
      split <;> rfl
    · rw [if_neg (by simp [hx])]

/-! ### Listing a directory -/

theorem segs_all (s : Str) : Segs s (components s) := by
  induction hn : s.length using Nat.strongRecOn generalizing s with
  | _ k ih =>
    subst hn
    cases s with
    | nil => simpa using Segs.nil
    | cons c t =>
      by_cases hc : c = '/'
      · subst hc
        rw [components_slash]
        exact .slash (ih _ (by simp) t rfl)
      · have hsplit : c :: t = (c :: t.takeWhile (· ≠ '/')) ++ t.dropWhile (· ≠ '/') := by
          simp [List.takeWhile_append_dropWhile]
        have hno : '/' ∉ c :: t.takeWhile (· ≠ '/') := by
          simp only [List.mem_cons, not_or]
          refine ⟨Ne.symm hc, fun hm => ?_⟩
          have := List.mem_takeWhile_imp hm
          simp at this
        have hhead : t.dropWhile (· ≠ '/') = [] ∨ (t.dropWhile (· ≠ '/')).head? = some '/' := by
          cases hd : t.dropWhile (· ≠ '/') with
          | nil => exact .inl rfl
          | cons x xs =>
            right
            have := List.head_dropWhile_not (p := (· ≠ '/')) (l := t) (by rw [hd]; simp)
            simp only [hd, List.head_cons] at this
            simpa using this
        have hlen : (t.dropWhile (· ≠ '/')).length < (c :: t).length := by
          have := (List.dropWhile_suffix (l := t) (· ≠ '/')).length_le
          rw [List.length_cons]; omega
        have hrest := ih _ hlen (t.dropWhile (· ≠ '/')) rfl
        have hcomp : components (c :: t) = components (c :: t.takeWhile (· ≠ '/')) ++ components (t.dropWhile (· ≠ '/')) := by
          rw [hsplit]
          rcases hhead with h | h
          · rw [h]; simp
          · cases hd : t.dropWhile (· ≠ '/') with
            | nil => simp
            | cons x xs =>
              rw [hd] at h
              simp only [List.head?_cons, Option.some.injEq] at h
              subst h
              rw [components_append, components_slash]
        rw [hcomp, hsplit]
        by_cases hdot : c :: t.takeWhile (· ≠ '/') = ['.']
        · rw [hdot]
          have h0 : components ['.'] = [] := by decide
          rw [h0]
          exact .dot hhead hrest
        · have hname : IsName (c :: t.takeWhile (· ≠ '/')) := ⟨by simp, hdot, hno⟩
          rw [components_one hname]
          exact .name hname hhead hrest

theorem name_not_abs {n : Str} (h : IsName n) : isAbs n = false := by
  rw [isAbs_false]
  cases n with
  | nil => simp
  | cons c n =>
    have := h.2.2
    simp only [List.mem_cons, not_or] at this
    simp only [List.head?_cons, ne_eq, Option.some.injEq]
    exact fun e => this.1 e.symm

theorem endsInName_join {a n : Str} (h : IsName n) : EndsInName (joinPath a n) := by
  unfold joinPath
  rw [if_neg (by simp [name_not_abs h])]
  split
  · rename_i ha
    exact ⟨a, n, rfl, h, ha⟩
  · exact ⟨a ++ ['/'], n, by simp, h, by simp⟩

theorem components_joinNames {ns : List Str} (h : ∀ n ∈ ns, IsName n) : components (joinNames ns) = ns := by
  induction ns with
  | nil => simp [joinNames]
  | cons n ns ih =>
    cases ns with
    | nil => simpa [joinNames] using components_one (h n (by simp))
    | cons m ns =>
      rw [joinNames, components_append, components_one (h n (by simp)), ih (fun x hx => h x (by simp [hx]))]
      · rfl
      · simp

theorem joinNames_last {ns : List Str} {n : Str} (h : IsName n) : EndsInName (joinNames (ns ++ [n])) := by
  induction ns with
  | nil => exact ⟨[], n, by simp [joinNames], h, by simp⟩
  | cons m ns ih =>
    obtain ⟨w, n', hw, hn', hlast⟩ := ih
    have hcons : joinNames (m :: ns ++ [n]) = m ++ '/' :: joinNames (ns ++ [n]) := by
      cases ns with
      | nil => simp [joinNames]
      | cons k ns => simp [joinNames]
    rw [hcons, hw]
    refine ⟨m ++ '/' :: w, n', by simp, hn', ?_⟩
    right
    rcases hlast with rfl | hlast
    · simp
    · rw [List.getLast?_append, List.getLast?_cons, hlast]; simp

theorem joinNames_rel {ns : List Str} (h : ∀ n ∈ ns, IsName n) : isAbs (joinNames ns) = false := by
  cases ns with
  | nil => simp [joinNames, isAbs]
  | cons n ns =>
    have hn := name_not_abs (h n (by simp))
    have hne := (h n (by simp)).1
    cases n with
    | nil => exact absurd rfl hne
    | cons c n =>
      cases ns with
      | nil => simpa [joinNames] using hn
      | cons m ns => simpa [joinNames, isAbs] using hn

/-- The URI made for an entry names the entry. -/
theorem entry_uri {v : DiskVfs} {u : Str} {p : Place} (h : Names v u p) {n : Str} (hn : IsName n)
    (hnd : n ≠ ['.', '.']) : FileName v (v.uri (joinPath (v.path u) n)) (p ++ [n]) := by
  obtain ⟨h1, h2, _⟩ := names_path h
  have hc : components (joinPath (v.path u) n) = components (v.path u) ++ [n] := by
    rw [components_join (name_not_abs hn), components_one hn]
  by_cases ha : isAbs (v.path u) = true
  · have habs := isAbs_join (b := n) (isAbs_iff.1 ha)
    have hu : v.uri (joinPath (v.path u) n) = joinPath (v.path u) n := by
      unfold DiskVfs.uri; rw [if_pos habs]
    rw [hu]
    refine ⟨?_, endsInName_join hn⟩
    have hp : p ++ [n] = components (joinPath (v.path u) n) := by
      rw [hc, ← h1]
      simp [DiskVfs.start, ha]
    rw [hp]
    refine .abs (isAbs_iff.1 habs) ⟨segs_all _, ?_⟩
    rw [hc]
    simp [h2, Ne.symm hnd]
  · rw [Bool.not_eq_true] at ha
    cases h with
    | abs a1 a2 => rw [DiskVfs.path, if_pos (isAbs_iff.2 a1), isAbs_iff.2 a1] at ha; cases ha
    | rooted a1 a2 a3 a4 =>
      rw [DiskVfs.path, isAbs_false.2 a1] at ha
      simp only [Bool.false_eq_true, if_false] at ha
      rw [isAbs_join a2] at ha; cases ha
    | @relative ns rs a1 a2 a3 a4 =>
      have hpath : v.path u = joinPath v.root u := by rw [DiskVfs.path, isAbs_false.2 a1]; simp
      have hcp : components (v.path u) = rs ++ ns := by
        rw [hpath, components_join (isAbs_false.2 a1), segs_components a3.1, segs_components a4.1]
      have hrel := isAbs_join_rel (isAbs_false.1 ha) (isAbs_false.1 (name_not_abs hn))
      have hnsn : ∀ m ∈ ns ++ [n], IsName m := by
        intro m hm
        simp only [List.mem_append, List.mem_singleton] at hm
        rcases hm with hm | rfl
        · rw [← segs_components a3.1] at hm; exact components_isName hm
        · exact hn
      have hu : v.uri (joinPath (v.path u) n) = joinNames (ns ++ [n]) := by
        unfold DiskVfs.uri stripPrefix
        rw [hrel, hc, hcp, segs_components a4.1]
        simp only [Bool.false_eq_true, if_false]
        rw [if_pos]
        · simp
        · rw [List.isPrefixOf_iff_prefix]; simp
      rw [hu]
      refine ⟨?_, joinNames_last hn⟩
      have := Names.relative (v := v) (u := joinNames (ns ++ [n])) (ns := ns ++ [n]) (rs := rs)
        (isAbs_false.1 (joinNames_rel hnsn)) a2 ?_ a4
      · simpa using this
      · have hs := segs_all (joinNames (ns ++ [n]))
        rw [components_joinNames hnsn] at hs
        exact ⟨hs, by simp [a3.2, Ne.symm hnd]⟩

theorem mem_namesIn {v : DiskVfs} {d : Disk} (g : Good v d) {p : Place} {n : Str} :
    n ∈ namesIn d p ↔ look d (p ++ [n]) ≠ none := by
  constructor
  · intro h
    simp only [namesIn, List.mem_filterMap] at h
    obtain ⟨e, he, h⟩ := h
    cases hl : e.1.getLast? with
    | none => simp [hl] at h
    | some m =>
      simp only [hl] at h
      split at h
      · rename_i hd
        simp only [Option.some.injEq] at h
        subst h
        rw [List.getLast?_eq_some_iff] at hl
        obtain ⟨w, hw⟩ := hl
        rw [hw, List.dropLast_concat] at hd
        subst hd
        rw [← hw]
        exact look_of_mem (g.below e he).1 (List.mem_map.2 ⟨e, he, rfl⟩)
      · cases h
  · intro h
    cases hl : look d (p ++ [n]) with
    | none => exact absurd hl h
    | some e =>
      have := look_mem (by simp) hl
      simp only [namesIn, List.mem_filterMap]
      exact ⟨_, this, by simp⟩

theorem nodup_namesIn {d : Disk} (h : (d.map Prod.fst).Nodup) (p : Place) : (namesIn d p).Nodup := by
  induction d with
  | nil => simp [namesIn]
  | cons e d ih =>
    simp only [List.map_cons, List.nodup_cons] at h
    have ih := ih h.2
    unfold namesIn at *
    rw [List.filterMap_cons]
    cases hl : e.1.getLast? with
    | none => simpa using ih
    | some m =>
      simp only
      by_cases hd : e.1.dropLast = p
      · rw [if_pos hd]
        simp only [List.nodup_cons]
        refine ⟨fun hm => ?_, ih⟩
        simp only [List.mem_filterMap] at hm
        obtain ⟨f, hf, hfm⟩ := hm
        cases hl' : f.1.getLast? with
        | none => simp [hl'] at hfm
        | some m' =>
          simp only [hl'] at hfm
          split at hfm
          · rename_i hd'
            simp only [Option.some.injEq] at hfm
            subst hfm
            rw [List.getLast?_eq_some_iff] at hl hl'
            obtain ⟨w, hw⟩ := hl
            obtain ⟨w', hw'⟩ := hl'
            rw [hw, List.dropLast_concat] at hd
            rw [hw', List.dropLast_concat] at hd'
            apply h.1
            rw [hw, hd, ← hd', ← hw']
            exact List.mem_map.2 ⟨f, hf, rfl⟩
          · cases hfm
      · rw [if_neg hd]; exact ih

theorem path_ne_nil {v : DiskVfs} {u : Str} (h : u ≠ [] ∨ v.root ≠ []) : v.path u ≠ [] := by
  unfold DiskVfs.path joinPath
  split
  · rename_i ha
    rintro rfl
    simp [isAbs] at ha
  · split
    · rcases h with h | h <;> simp [h]
    · simp

theorem locate_dir {v : DiskVfs} {d : Disk} (g : Good v d) {u : Str} {p : Place} (h : Names v u p)
    (hu : u ≠ [] ∨ v.root ≠ []) (hd : look d p = some .dir) : v.locate d (v.path u) = some p := by
  obtain ⟨h1, h2, _⟩ := names_path h
  unfold DiskVfs.locate
  rw [if_neg (path_ne_nil hu)]
  rcases walk_or g (p := v.start (v.path u)) h2 with hw | ⟨hw, hl⟩
  · rw [hw, h1]; simp [hd]
  · rw [h1, hd] at hl; cases hl

theorem path_append (v : DiskVfs) {u : Str} (hu : u ≠ []) (s : Str) : v.path (u ++ s) = v.path u ++ s := by
  obtain ⟨c, u, rfl⟩ := List.exists_cons_of_ne_nil hu
  have ha : isAbs (c :: u ++ s) = isAbs (c :: u) := rfl
  unfold DiskVfs.path
  rw [ha]
  split
  · rfl
  · unfold joinPath
    rw [ha]
    split
    · rfl
    · split <;> simp

theorem start_append (v : DiskVfs) {u : Str} (hu : u ≠ []) (s : Str) : v.start (u ++ s) = v.start u := by
  obtain ⟨c, u, rfl⟩ := List.exists_cons_of_ne_nil hu
  rfl

theorem path_ne (v : DiskVfs) {u : Str} (hu : u ≠ []) : v.path u ≠ [] := by
  unfold DiskVfs.path joinPath
  repeat' split
  all_goals simp [hu]

theorem walk_append (d : Disk) : ∀ (a b : List Str) (p : Place), walk d p (a ++ b) = (walk d p a).bind fun q => walk d q b
  | [], _, _ => rfl
  | c :: a, b, p => by
    rw [List.cons_append, walk, walk]
    split
    · exact walk_append d a b _
    · rfl

theorem locate_up {v : DiskVfs} {d : Disk} (g : Good v d) {u n : Str} {p : Place} (h : Names v u p) (hu : u ≠ []) (hn : IsName n)
    (hn2 : n ≠ ['.', '.']) :
    v.stat d (v.path (u ++ "/../".toList ++ n)) = if look d p = some .dir then look d (p.dropLast ++ [n]) else none := by
  obtain ⟨h1, h2, _⟩ := names_path h
  have e : v.path (u ++ "/../".toList ++ n) = v.path u ++ '/' :: (['.', '.'] ++ '/' :: n) := by
    rw [List.append_assoc, path_append v hu]
    rfl
  have hup : IsName ['.', '.'] := by unfold IsName; decide
  have hc : components (v.path u ++ '/' :: (['.', '.'] ++ '/' :: n)) = components (v.path u) ++ [['.', '.'], n] := by
    rw [components_append, components_append, components_one hup, components_one hn]
    rfl
  have hwd : wantsDir (v.path u ++ '/' :: (['.', '.'] ++ '/' :: n)) = false :=
    (endsInName_facts ⟨v.path u ++ '/' :: (['.', '.'] ++ ['/']), n, by simp, hn, .inr (by simp)⟩).2.1
  rw [e]
  unfold DiskVfs.stat DiskVfs.locate
  rw [if_neg (by simp [path_ne v hu]), start_append v (path_ne v hu), hc, walk_append, hwd]
  rcases walk_or g (p := v.start (v.path u)) h2 with hw | ⟨hw, hl⟩
  · rw [hw, h1]
    simp only [Option.bind_some, walk, if_true]
    by_cases hd : look d p = some .dir
    · have hd' : look d p.dropLast = some .dir := by
        by_cases hp : p = []
        · subst hp; simp
        · exact dir_above g (by rw [hd]; simp) (List.dropLast_prefix p) (by
            intro he
            have := congrArg List.length he
            have := List.length_pos_iff.2 hp
            simp at *
            omega)
      simp only [if_pos hd, if_pos hd', if_neg hn2, Bool.false_and, Bool.false_eq_true, if_false]
    · simp only [if_neg hd]
  · rw [h1] at hl
    rw [hw]
    simp [hl]

theorem locate_slash {v : DiskVfs} {d : Disk} (g : Good v d) {u : Str} {p : Place} (h : FileName v u p) :
    v.stat d (v.path (u ++ ['/'])) = if look d p = some .dir then some .dir else none := by
  have hu : u ≠ [] := (endsInName_facts h.2).1
  obtain ⟨h1, h2, _⟩ := names_path h.1
  have hwd : wantsDir (v.path u ++ ['/']) = true := by
    unfold wantsDir
    rw [splitSlash_append]
    simp [splitSlash]
  rw [path_append v hu]
  unfold DiskVfs.stat DiskVfs.locate
  rw [if_neg (by simp), start_append v (path_ne v hu), components_final, hwd]
  rcases walk_or g (p := v.start (v.path u)) h2 with hw | ⟨hw, hl⟩
  · rw [hw, h1]
    by_cases hd : look d p = some .dir
    · simp [hd]
    · simp [hd]
  · rw [h1] at hl
    rw [hw]
    simp [hl]

theorem write_slash {v : DiskVfs} {d : Disk} (g : Good v d) {u c : Str} {p : Place} (h : FileName v u p) (q : Place) (e : Entry)
    (he : e ≠ .dir) : look (v.writeFile d (u ++ ['/']) c) q = some e ↔ look d q = some e := by
  have hu : u ≠ [] := (endsInName_facts h.2).1
  obtain ⟨h1, h2, _⟩ := names_path h.1
  have hwd : wantsDir (v.path u ++ ['/']) = true := by
    unfold wantsDir
    rw [splitSlash_append]
    simp [splitSlash]
  unfold DiskVfs.writeFile
  simp only []
  unfold DiskVfs.fsWrite
  rw [path_append v hu, if_pos (.inr hwd), start_append v (path_ne v hu), components_final]
  obtain ⟨_, f1, f2, _⟩ := makeDirs_facts g (p := v.start (v.path u)) (ns := (components (v.path u)).dropLast) (start_dir g) (by
    intro n hn
    have hm := List.dropLast_subset _ hn
    exact ⟨components_isName hm, fun e => h2 (e ▸ hm)⟩)
  constructor
  · intro hq
    by_cases hl : look d q = none
    · rcases f2 q hl with f | ⟨f, _⟩
      · rw [f] at hq; cases hq
      · rw [f] at hq; cases hq; exact absurd rfl he
    · rw [← f1 q hl]; exact hq
  · intro hq
    rw [f1 q (by rw [hq]; simp)]; exact hq

end Oaks.Dsk
