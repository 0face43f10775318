import Verif.Spec.Golden

/-! Tests against files. -/
namespace Oaks
open Spec

namespace Golden

/-! ### Names -/

theorem lastDot_iff {name a b : Str} : lastDot name = some (a, b) ↔ name = a ++ '.' :: b ∧ a ≠ [] ∧ '.' ∉ b := by
  unfold lastDot
  constructor
  · intro h
    split at h
    · cases h
    · rename_i c before hd
      split at h
      · cases h
      · rename_i hb
        simp only [Option.some.injEq, Prod.mk.injEq] at h
        obtain ⟨rfl, rfl⟩ := h
        have hc : c = '.' := by
          have := List.head?_dropWhile_not (fun c => !(c == '.')) name.reverse
          rw [hd] at this
          simpa using this
        have := List.takeWhile_append_dropWhile (p := fun c => !(c == '.')) (l := name.reverse)
        rw [hd, hc] at this
        refine ⟨?_, by simpa using hb, ?_⟩
        · have h2 := congrArg List.reverse this
          rw [List.reverse_reverse] at h2
          exact h2.symm.trans (by simp)
        · intro hm
          rw [List.mem_reverse] at hm
          have := List.all_eq_true.mp (List.all_takeWhile (p := fun c => !(c == '.')) (l := name.reverse)) _ hm
          simp at this
  · rintro ⟨rfl, ha, hb⟩
    have hr : (a ++ '.' :: b).reverse = b.reverse ++ '.' :: a.reverse := by simp
    have hp : ∀ c ∈ b.reverse, (!(c == '.')) = true := by
      intro c hc
      have : c ≠ '.' := fun h => hb (by simpa [h] using hc)
      simp [this]
    rw [hr, List.dropWhile_append_of_pos hp, List.takeWhile_append_of_pos hp]
    simp [ha]

theorem isOutput_iff (name : Str) : isOutput name = true ↔ ResultName name := by
  simp [isOutput, ResultName]

theorem mem_find {exts : List Str} {d : Files} {p : FPath} : p ∈ findFiles exts d ↔ p ∈ d.map (·.1) ∧ TestName exts p.name := by
  unfold findFiles TestName extension
  rw [List.mem_filter]
  refine and_congr_right fun _ => ?_
  cases h : lastDot p.name with
  | none =>
    simp only [Option.map_none, Bool.false_eq_true, false_iff]
    rintro ⟨⟨a, b, h1, h2, h3, _⟩, _⟩
    rw [lastDot_iff.mpr ⟨h1, h2, h3⟩] at h
    cases h
  | some x =>
    obtain ⟨a, b⟩ := x
    have hi := lastDot_iff.mp h
    simp only [Option.map_some, Bool.and_eq_true, Bool.not_eq_true', ← isOutput_iff, List.contains_iff_mem, Bool.not_eq_true]
    refine and_congr_left fun _ => ⟨fun hm => ⟨a, b, hi.1, hi.2.1, hi.2.2, hm⟩, ?_⟩
    rintro ⟨a', b', h1, h2, h3, h4⟩
    have := lastDot_iff.mpr ⟨h1, h2, h3⟩
    rw [h] at this
    cases this
    exact h4

theorem testName_split {exts : List Str} {name : Str} (h : TestName exts name) : ∃ a b, lastDot name = some (a, b) ∧ name = a ++ '.' :: b := by
  obtain ⟨⟨a, b, h1, h2, h3, _⟩, _⟩ := h
  exact ⟨a, b, lastDot_iff.mpr ⟨h1, h2, h3⟩, h1⟩

theorem expected_eq {exts : List Str} {p : FPath} (h : TestName exts p.name) (t : Tester R) : t.expected p = beside p ('.' :: t.suffix) := by
  obtain ⟨a, b, hl, hn⟩ := testName_split h
  simp only [Tester.expected, withExtension, extension, hl, beside, Option.map_some, Option.getD_some, FPath.mk.injEq, true_and]
  rw [hn]
  simp

theorem legacy_output (p : FPath) : ResultName (withExtension p "expected.json".toList).name := by
  refine ⟨".expected.json".toList, by simp, ?_⟩
  unfold withExtension
  split
  · exact ⟨p.name, rfl⟩
  · rename_i a _ _; exact ⟨a, rfl⟩

/-- The tester is one of the three. -/
def Tester.Known (t : Tester R) : Prop := t.suffix ∈ ["lexed.json".toList, "parsed.json".toList, "built.json".toList]

theorem Tester.Known.output {t : Tester R} (h : t.Known) (n : Str) : ResultName (n ++ '.' :: t.suffix) := by
  refine ⟨'.' :: t.suffix, ?_, _, rfl⟩
  simp only [Known, List.mem_cons, List.not_mem_nil, or_false] at h
  rcases h with h | h | h <;> rw [h] <;> decide

theorem legacy_ne {exts : List Str} {t : Tester R} (h : t.Known) {p q : FPath} (hq : TestName exts q.name) :
    withExtension p "expected.json".toList ≠ t.expected q := by
  intro he
  rw [expected_eq hq] at he
  have hn : ∃ a, a ++ ".expected.json".toList = q.name ++ '.' :: t.suffix := by
    have := congrArg FPath.name he
    unfold withExtension at this
    split at this
    · exact ⟨p.name, this⟩
    · rename_i a _ _; exact ⟨a, this⟩
  obtain ⟨a, ha⟩ := hn
  have := congrArg List.reverse ha
  simp only [Tester.Known, List.mem_cons, List.not_mem_nil, or_false] at h
  rcases h with h | h | h <;> rw [h] at this <;> simp at this

theorem expected_inj {exts : List Str} (t : Tester R) {p q : FPath} (hp : TestName exts p.name) (hq : TestName exts q.name)
    (h : t.expected p = t.expected q) : p = q := by
  rw [expected_eq hp, expected_eq hq] at h
  cases p; cases q
  simp [beside] at h
  simp [h]

/-! ### Files -/

theorem get_put (d : Files) (p q : FPath) (s : Str) : Files.get (Files.put d p s) q = if p = q then some s else Files.get d q := by
  induction d with
  | nil => simp [Files.put, Files.get]
  | cons x d ih =>
    obtain ⟨r, s'⟩ := x
    unfold Files.put
    by_cases h : r = p
    · subst h
      simp only [if_true, Files.get]
      split <;> rfl
    · simp only [if_neg h, Files.get, ih]
      by_cases h' : r = q
      · subst h'; simp [Ne.symm h]
      · simp [h']

theorem get_filter (d : Files) (p q : FPath) : Files.get (d.filter fun x => !(x.1 = p)) q = if p = q then none else Files.get d q := by
  induction d with
  | nil => simp [Files.get]
  | cons x d ih =>
    obtain ⟨r, s'⟩ := x
    by_cases h : r = p
    · subst h
      rw [List.filter_cons_of_neg (by simp), ih]
      by_cases h' : r = q
      · simp [h']
      · simp [h', Files.get]
    · rw [List.filter_cons_of_pos (by simpa using h)]
      simp only [Files.get, ih]
      by_cases h' : r = q
      · subst h'; simp [Ne.symm h]
      · simp [h']

theorem mem_keys {d : Files} {p : FPath} : p ∈ d.map (·.1) ↔ ∃ s, Files.get d p = some s := by
  induction d with
  | nil => simp [Files.get]
  | cons x d ih =>
    obtain ⟨r, s'⟩ := x
    simp only [List.map_cons, List.mem_cons, ih, Files.get]
    by_cases h : r = p
    · simp [h]
    · simp [h, Ne.symm h]

theorem find_put {exts : List Str} (d : Files) {p : FPath} (s : Str) (h : ResultName p.name) :
    findFiles exts (Files.put d p s) = findFiles exts d := by
  have hp : ∀ e, (exts.contains e && !isOutput p.name) = false := by
    intro e; rw [(isOutput_iff _).mpr h]; simp only [Bool.not_true, Bool.and_false]
  unfold findFiles
  induction d with
  | nil =>
    simp only [Files.put, List.map_cons, List.map_nil]
    rw [List.filter_cons_of_neg]
    split <;> simp only [hp, Bool.false_eq_true, not_false_iff]
  | cons x d ih =>
    obtain ⟨r, s'⟩ := x
    unfold Files.put
    split
    · rename_i h'; subst h'; rfl
    · simp only [List.map_cons, List.filter_cons, ih]

theorem find_filter {exts : List Str} (d : Files) {p : FPath} (h : ResultName p.name) :
    findFiles exts (d.filter fun x => !(x.1 = p)) = findFiles exts d := by
  have hp : ∀ e, (exts.contains e && !isOutput p.name) = false := by
    intro e; rw [(isOutput_iff _).mpr h]; simp only [Bool.not_true, Bool.and_false]
  unfold findFiles
  induction d with
  | nil => rfl
  | cons x d ih =>
    obtain ⟨r, s'⟩ := x
    by_cases h' : r = p
    · subst h'
      rw [List.filter_cons_of_neg (by simp), ih, List.map_cons, List.filter_cons_of_neg]
      split <;> simp only [hp, Bool.false_eq_true, not_false_iff]
    · rw [List.filter_cons_of_pos (by simpa using h')]
      simp only [List.map_cons, List.filter_cons, ih]

/-- Only files of results have changed, and not those of expected results other than of `p`. -/
structure Kept (exts : List Str) (t : Tester R) (p : FPath) (d d' : Files) : Prop where
  find : findFiles exts d' = findFiles exts d
  get : ∀ q, ¬ ResultName q.name → d'.get q = d.get q
  other : ∀ q, TestName exts q.name → q ≠ p → d'.get (t.expected q) = d.get (t.expected q)

theorem Kept.refl (exts : List Str) (t : Tester R) (p : FPath) (d : Files) : Kept exts t p d d := ⟨rfl, fun _ _ => rfl, fun _ _ _ => rfl⟩

theorem Kept.trans {exts : List Str} {t : Tester R} {p : FPath} {d d' d'' : Files} (h : Kept exts t p d d') (h' : Kept exts t p d' d'') :
    Kept exts t p d d'' :=
  ⟨h'.find.trans h.find, fun q hq => (h'.get q hq).trans (h.get q hq), fun q h1 h2 => (h'.other q h1 h2).trans (h.other q h1 h2)⟩

theorem put_kept {exts : List Str} {t : Tester R} (ht : t.Known) {p : FPath} (hp : TestName exts p.name) (d : Files) (s : Str) :
    Kept exts t p d (d.put (t.expected p) s) := by
  have ho : ResultName (t.expected p).name := by rw [expected_eq hp]; exact ht.output _
  refine ⟨find_put d s ho, fun q hq => ?_, fun q hq hne => ?_⟩
  · rw [get_put, if_neg]
    rintro rfl
    exact hq ho
  · rw [get_put, if_neg]
    intro h
    exact hne (expected_inj t hp hq h).symm

theorem migrate_kept {exts : List Str} {t : Tester R} (ht : t.Known) {p : FPath} (hp : TestName exts p.name) (d : Files) :
    Kept exts t p d (t.migrate d p) := by
  unfold Tester.migrate
  split
  · exact Kept.refl ..
  · unfold Files.rename
    split
    · exact Kept.refl ..
    · refine Kept.trans (d' := d.filter fun x => !(x.1 = withExtension p "expected.json".toList)) ?_ (put_kept ht hp _ _)
      refine ⟨find_filter d (legacy_output p), fun q hq => ?_, fun q hq hne => ?_⟩
      · rw [get_filter, if_neg]
        rintro rfl
        exact hq (legacy_output p)
      · rw [get_filter, if_neg (legacy_ne ht hq)]

theorem migrate_here {t : Tester R} {p : FPath} {d : Files} {s : Str} (h : d.get (t.expected p) = some s) : t.migrate d p = d := by
  simp [Tester.migrate, h]

/-! ### One test -/

variable [DecidableEq R]

theorem compare_kept {exts : List Str} {t : Tester R} (ht : t.Known) {p : FPath} (hp : TestName exts p.name) (force : Bool) (d : Files) (r : R) :
    Kept exts t p d (t.compare force d p r).2 := by
  unfold Tester.compare
  split
  · split
    · exact Kept.refl ..
    · split <;> exact Kept.refl ..
  · dsimp only
    split <;> exact put_kept ht hp d _

/-- If it passes, the expected result is the one it had. -/
theorem compare_pass {t : Tester R} (hl : ∀ r, t.dec (t.enc r) = some r) {force : Bool} {d : Files} {p : FPath} {r : R}
    (h : (t.compare force d p r).1 = .ok ()) : ∃ s, (t.compare force d p r).2.get (t.expected p) = some s ∧ t.dec s = some r := by
  unfold Tester.compare at h ⊢
  split
  · rename_i s hs
    rw [hs] at h
    simp only at h
    cases hd : t.dec s with
    | none => rw [hd] at h; cases h
    | some e =>
      rw [hd] at h
      simp only at h ⊢
      split at h
      · rename_i hr; subst hr; rw [if_pos rfl]; exact ⟨s, hs, hd⟩
      · cases h
  · dsimp only
    refine ⟨t.enc r, ?_, hl r⟩
    split <;> rw [get_put, if_pos rfl]

/-- If there is an expected result, nothing is written, and it passes if it is that one. -/
theorem compare_present {t : Tester R} {d : Files} {p : FPath} {r : R} {s : Str} (h : d.get (t.expected p) = some s) :
    (t.compare false d p r).2 = d ∧ ((t.compare false d p r).1 = .ok () ↔ t.dec s = some r) := by
  unfold Tester.compare
  rw [h]
  simp only
  cases hd : t.dec s with
  | none => simp
  | some e =>
    simp only [Option.some.injEq]
    split
    · rename_i hr; simp [hr]
    · rename_i hr; simp [Ne.symm hr]

/-! ### All tests -/

theorem all_settle {exts : List Str} {t : Tester R} (ht : t.Known) (hl : ∀ r, t.dec (t.enc r) = some r) {force : Bool} {f : Str → R}
    {ps : List FPath} {d d' : Files} (hps : ∀ p ∈ ps, TestName exts p.name) (h : t.testAll force (fun s => .done (f s)) ps d = .ok (.ok (), d')) :
    findFiles exts d' = findFiles exts d ∧ (∀ q, ¬ ResultName q.name → d'.get q = d.get q) ∧
    (∀ q, TestName exts q.name → q ∉ ps → d'.get (t.expected q) = d.get (t.expected q)) ∧
    ∀ p ∈ ps, ∃ text s, d'.get p = some text ∧ d'.get (t.expected p) = some s ∧ t.dec s = some (f text) := by
  induction ps generalizing d with
  | nil =>
    cases h
    exact ⟨rfl, fun _ _ => rfl, fun _ _ _ => rfl, by simp⟩
  | cons p ps ih =>
    have hp := hps p (by simp)
    rw [Tester.testAll] at h
    unfold Tester.testFile at h
    cases hg : d.get p with
    | none => rw [hg] at h; cases h
    | some text =>
      rw [hg] at h
      simp only at h
      generalize hc : t.compare force (t.migrate d p) p (f text) = c at h
      obtain ⟨o, d1⟩ := c
      cases o with
      | error e => cases h
      | ok u =>
        simp only at h
        obtain ⟨i1, i2, i3, i4⟩ := ih (fun q hq => hps q (by simp [hq])) h
        have hk : Kept exts t p d d1 := by
          have := (migrate_kept ht hp d).trans (compare_kept ht hp force (t.migrate d p) (f text))
          rwa [hc] at this
        have hs := compare_pass hl (t := t) (force := force) (d := t.migrate d p) (p := p) (r := f text) (by rw [hc])
        rw [hc] at hs
        refine ⟨i1.trans hk.find, fun q hq => (i2 q hq).trans (hk.get q hq), fun q hq hm => ?_, fun q hq => ?_⟩
        · rw [List.mem_cons, not_or] at hm
          exact (i3 q hq hm.2).trans (hk.other q hq hm.1)
        · by_cases hm : q ∈ ps
          · exact i4 q hm
          · obtain rfl : q = p := by simpa [hm] using hq
            obtain ⟨s, h1, h2⟩ := hs
            refine ⟨text, s, ?_, ?_, h2⟩
            · rw [i2 q hp.2, hk.get q hp.2, hg]
            · rw [i3 q hp hm]; exact h1

theorem all_check {t : Tester R} {g : Str → R} {ps : List FPath} {d : Files}
    (h : ∀ p ∈ ps, ∃ text s, d.get p = some text ∧ d.get (t.expected p) = some s) :
    ∃ o, t.testAll false (fun s => .done (g s)) ps d = .ok (o, d) ∧
      (o = .ok () ↔ ∀ p ∈ ps, ∀ text s, d.get p = some text → d.get (t.expected p) = some s → t.dec s = some (g text)) := by
  induction ps with
  | nil => exact ⟨_, rfl, by simp⟩
  | cons p ps ih =>
    obtain ⟨o, h1, h2⟩ := ih (fun q hq => h q (by simp [hq]))
    obtain ⟨text, s, hg, he⟩ := h p (by simp)
    rw [Tester.testAll]
    unfold Tester.testFile
    rw [hg]
    simp only
    rw [migrate_here he]
    obtain ⟨c1, c2⟩ := compare_present (t := t) (r := g text) he
    generalize hc : t.compare false d p (g text) = c at c1 c2
    obtain ⟨o', d1⟩ := c
    dsimp only at c1 c2
    subst c1
    cases o' with
    | error e =>
      refine ⟨_, rfl, ?_⟩
      simp only [reduceCtorEq, false_iff]
      intro hall
      have := c2.mpr (hall p (by simp) text s hg he)
      cases this
    | ok u =>
      refine ⟨o, h1, h2.trans ?_⟩
      constructor
      · intro hall q hq text' s' hg' he'
        rcases List.mem_cons.mp hq with rfl | hq
        · rw [hg] at hg'; rw [he] at he'; cases hg'; cases he'
          exact c2.mp rfl
        · exact hall q hq text' s' hg' he'
      · intro hall q hq; exact hall q (by simp [hq])

theorem all_forced {exts : List Str} {t : Tester R} (ht : t.Known) {f : Str → R} {ps : List FPath} {d : Files} (hps : ∀ p ∈ ps, TestName exts p.name)
    (h : ∀ p ∈ ps, ∃ text, d.get p = some text) : ∃ d', t.testAll true (fun s => .done (f s)) ps d = .ok (.ok (), d') := by
  induction ps generalizing d with
  | nil => exact ⟨d, rfl⟩
  | cons p ps ih =>
    have hp := hps p (by simp)
    obtain ⟨text, hg⟩ := h p (by simp)
    rw [Tester.testAll]
    unfold Tester.testFile
    rw [hg]
    simp only
    have hk := (migrate_kept ht hp d).trans (compare_kept ht hp true (t.migrate d p) (f text))
    have hc : (t.compare true (t.migrate d p) p (f text)).1 = .ok () := by
      unfold Tester.compare; cases (t.migrate d p).get (t.expected p) <;> simp
    generalize t.compare true (t.migrate d p) p (f text) = c at hk hc
    obtain ⟨o, d1⟩ := c
    dsimp only at hk hc
    subst hc
    simp only
    refine ih (fun q hq => hps q (by simp [hq])) fun q hq => ?_
    obtain ⟨x, hx⟩ := h q (by simp [hq])
    exact ⟨x, by rw [hk.get q (hps q (by simp [hq])).2, hx]⟩

theorem rename_none {d : Files} {old new : FPath} (h : d.get old = none) : d.rename old new = d := by
  simp [Files.rename, h]

/-- No expected result and none with an old name. -/
def Tester.fresh (t : Tester R) (d : Files) (p : FPath) : Prop :=
  d.get (t.expected p) = none ∧ d.get (withExtension p "expected.json".toList) = none

omit [DecidableEq R] in
theorem migrate_fresh {t : Tester R} {d : Files} {p : FPath} (h : t.fresh d p) : t.migrate d p = d := by
  rw [Tester.migrate, h.1, rename_none h.2]
  rfl

theorem compare_fresh {t : Tester R} {d : Files} {p : FPath} (h : t.fresh d p) (r : R) :
    t.compare false d p r = (if t.strict then .error (.regenerated (t.expected p)) else .ok (), d.put (t.expected p) (t.enc r)) := by
  unfold Tester.compare
  rw [h.1]
  cases t.strict <;> simp

theorem all_fresh {exts : List Str} {t : Tester R} (ht : t.Known) (hs : t.strict = false) (hl : ∀ r, t.dec (t.enc r) = some r) {f : Str → R}
    {ps : List FPath} {d : Files} (hps : ∀ p ∈ ps, TestName exts p.name)
    (h : ∀ p ∈ ps, (∃ text, d.get p = some text ∧ d.get (withExtension p "expected.json".toList) = none ∧
      ∀ s, d.get (t.expected p) = some s → t.dec s = some (f text))) :
    ∃ d', t.testAll false (fun s => .done (f s)) ps d = .ok (.ok (), d') := by
  induction ps generalizing d with
  | nil => exact ⟨d, rfl⟩
  | cons p ps ih =>
    have hp := hps p (by simp)
    obtain ⟨text, hg, hold, hex⟩ := h p (by simp)
    rw [Tester.testAll]
    unfold Tester.testFile
    rw [hg]
    cases he : d.get (t.expected p) with
    | some s =>
      simp only
      rw [migrate_here he]
      obtain ⟨c1, c2⟩ := compare_present (t := t) (r := f text) he
      replace c2 := c2.mpr (hex s he)
      generalize t.compare false d p (f text) = c at c1 c2
      obtain ⟨o, d1⟩ := c
      dsimp only at c1 c2
      subst c1 c2
      simp only
      exact ih (fun q hq => hps q (by simp [hq])) fun q hq => h q (by simp [hq])
    | none =>
      have hf : t.fresh d p := ⟨he, hold⟩
      simp only
      rw [migrate_fresh hf, compare_fresh hf, hs]
      simp only [Bool.false_eq_true, if_false]
      have hk := put_kept ht hp d (t.enc (f text))
      refine ih (fun q hq => hps q (by simp [hq])) fun q hq => ?_
      obtain ⟨x, h1, h2, h3⟩ := h q (by simp [hq])
      have hqt := hps q (by simp [hq])
      refine ⟨x, by rw [hk.get q hqt.2, h1], ?_, fun s hs' => ?_⟩
      · rw [get_put, if_neg, h2]
        exact (legacy_ne ht hp).symm
      · by_cases hqp : q = p
        · subst hqp
          rw [get_put, if_pos rfl] at hs'
          rw [h1] at hg
          cases hg; cases hs'
          exact hl _
        · rw [hk.other q hqt hqp] at hs'
          exact h3 s hs'

omit [DecidableEq R] in
theorem fresh_put {exts : List Str} {t : Tester R} (ht : t.Known) {p q : FPath} (hp : TestName exts p.name) (hq : TestName exts q.name)
    (hne : q ≠ p) {d : Files} (s : Str) (h : t.fresh d p) : t.fresh (d.put (t.expected q) s) p :=
  ⟨by rw [(put_kept ht hq d s).other p hp (Ne.symm hne), h.1], by rw [get_put, if_neg (legacy_ne ht hq).symm, h.2]⟩

omit [DecidableEq R] in
theorem fresh_migrate {exts : List Str} {t : Tester R} (ht : t.Known) {p q : FPath} (hp : TestName exts p.name) (hq : TestName exts q.name)
    (hne : q ≠ p) {d : Files} (h : t.fresh d p) : t.fresh (t.migrate d q) p := by
  unfold Tester.migrate
  split
  · exact h
  · unfold Files.rename
    split
    · exact h
    · refine fresh_put ht hp hq hne _ ⟨?_, ?_⟩ <;> rw [get_filter] <;> split <;> first | rfl | exact h.1 | exact h.2

theorem fresh_compare {exts : List Str} {t : Tester R} (ht : t.Known) {p q : FPath} (hp : TestName exts p.name) (hq : TestName exts q.name)
    (hne : q ≠ p) {d : Files} (force : Bool) (r : R) (h : t.fresh d p) : t.fresh (t.compare force d q r).2 p := by
  unfold Tester.compare
  split
  · split
    · exact h
    · split <;> exact h
  · dsimp only
    split <;> exact fresh_put ht hp hq hne _ h

theorem all_strict {exts : List Str} {t : Tester R} (ht : t.Known) (hs : t.strict = true) {f : Str → R} {ps : List FPath} {d d' : Files}
    (hps : ∀ p ∈ ps, TestName exts p.name) {p : FPath} (hm : p ∈ ps) (hf : t.fresh d p) :
    t.testAll false (fun s => .done (f s)) ps d ≠ .ok (.ok (), d') := by
  induction ps generalizing d with
  | nil => simp at hm
  | cons q ps ih =>
    intro h
    have hq := hps q (by simp)
    have hp := hps p hm
    rw [Tester.testAll] at h
    unfold Tester.testFile at h
    cases hg : d.get q with
    | none => rw [hg] at h; cases h
    | some text =>
      rw [hg] at h
      simp only at h
      by_cases hqp : q = p
      · subst hqp
        rw [migrate_fresh hf, compare_fresh hf, hs] at h
        cases h
      · have hf' := fresh_compare ht hp hq hqp false (f text) (fresh_migrate ht hp hq hqp hf)
        generalize t.compare false (t.migrate d q) q (f text) = c at h hf'
        obtain ⟨o, d1⟩ := c
        cases o with
        | error e => cases h
        | ok u => exact ih (fun x hx => hps x (by simp [hx])) (by simpa [Ne.symm hqp] using hm) hf' h

/-! ### What is compared -/

theorem map_inj {f : α → β} (hf : Function.Injective f) : ∀ {l l' : List α}, l.map f = l'.map f → l = l'
  | [], [], _ => rfl
  | [], _ :: _, h => by simp at h
  | _ :: _, [], h => by simp at h
  | a :: l, b :: l', h => by
    simp only [List.map_cons, List.cons.injEq] at h
    rw [hf h.1, map_inj hf h.2]

theorem lexer_seen (ign : Nat → Bool) (text : Str) (out out' : Except Str (List Tok) × List Str) :
    lexerResult ign text out = lexerResult ign text out' ↔ lexerSeen ign out = lexerSeen ign out' := by
  have key : ∀ out, lexerResult ign text out = ⟨(lexerSeen ign out).2.isEmpty, (lexerSeen ign out).1.length,
      (lexerSeen ign out).1.map (tokenData text), (lexerSeen ign out).2⟩ := by
    rintro ⟨o, ms⟩
    cases o with
    | error e => simp [lexerResult, lexerSeen]
    | ok ts =>
      have : (ts.filter fun t => !ign t.kind) = ts.filter fun t => decide (ign t.kind = false) := by
        congr 1; funext t; cases ign t.kind <;> rfl
      simp only [lexerResult, lexerSeen, this]
      cases ms <;> simp
  have inj : Function.Injective (tokenData text) := by
    rintro ⟨k, a, b⟩ ⟨k', a', b'⟩ h
    simp only [tokenData, TokenData.mk.injEq] at h
    simp [h.1, h.2.2.1, h.2.2.2]
  rw [key, key]
  constructor
  · intro h
    simp only [LexerResult.mk.injEq] at h
    exact Prod.ext (map_inj inj h.2.2.1) h.2.2.2
  · intro h; rw [h]

theorem totals_eq (cs : List Green) : leafTotals cs = leavesHere cs := by
  induction cs with
  | nil => rfl
  | cons c cs ih =>
    cases c with
    | node k n ds => rw [leafTotals, ih]; rfl
    | leaf k n m =>
      rw [leafTotals, ih]
      simp only [leavesHere, List.filter_cons, if_true, List.length_cons, List.map_cons, List.sum_cons, Green.len]
      rw [Nat.add_comm n]

theorem totals_zero {cs : List Green} (h : (leafTotals cs).1 = 0) : leafTotals cs = (0, 0) := by
  induction cs with
  | nil => rfl
  | cons c cs ih =>
    cases c with
    | node k n ds => exact ih h
    | leaf k n m => simp [leafTotals] at h

mutual
/-- What `to_ast` says of the nodes, from the root on. -/
def astOutline : Ast → List (Nat × Nat × Nat × Nat × Nat)
  | .mk (.kind k) cs n _ => (k, n, astCount cs, astLeaves cs) :: astOutlines cs
  | .mk (.leaves _) _ _ _ => []
  | .mk .error _ _ _ => []
def astOutlines : List Ast → List (Nat × Nat × Nat × Nat × Nat)
  | [] => []
  | c :: cs => astOutline c ++ astOutlines cs
def astCount : List Ast → Nat
  | [] => 0
  | .mk (.kind _) _ _ _ :: cs => astCount cs + 1
  | .mk (.leaves _) _ _ _ :: cs => astCount cs
  | .mk .error _ _ _ :: cs => astCount cs
def astLeaves : List Ast → Nat × Nat
  | [] => (0, 0)
  | .mk (.kind _) _ _ _ :: cs => astLeaves cs
  | .mk (.leaves k) _ n _ :: _ => (k, n)
  | .mk .error _ _ _ :: cs => astLeaves cs
end

theorem leavesChild_count (cs : List Green) : astCount (leavesChild cs) = 0 ∧ astLeaves (leavesChild cs) = leavesHere cs ∧
    astOutlines (leavesChild cs) = [] := by
  unfold leavesChild
  rw [← totals_eq]
  split
  · simp [astCount, astLeaves, astOutlines, astOutline]
  · rename_i h
    simp [astCount, astLeaves, astOutlines, totals_zero (cs := cs) (by omega)]

theorem astNodes_app (cs : List Green) (as : List Ast) : astCount (astNodes cs ++ as) = nodesHere cs + astCount as ∧
    astLeaves (astNodes cs ++ as) = astLeaves as := by
  induction cs with
  | nil => simp [astNodes, nodesHere]
  | cons c cs ih =>
    cases c with
    | node k n ds => simp [astNodes, toAst, astCount, astLeaves, nodesHere, ih]; omega
    | leaf k n m => simp [astNodes, nodesHere, ih]

theorem astOutlines_append (a b : List Ast) : astOutlines (a ++ b) = astOutlines a ++ astOutlines b := by
  induction a with
  | nil => simp [astOutlines]
  | cons x a ih => simp [astOutlines, ih]

mutual
theorem outline_ast (k n : Nat) (cs : List Green) : astOutline (toAst (.node k n cs)) = outline (.node k n cs) := by
  have h := leavesChild_count cs
  have h' := astNodes_app cs (leavesChild cs)
  rw [toAst, astOutline, outline, h'.1, h'.2, h.1, h.2.1, astOutlines_append, h.2.2, outlines_ast cs]
  simp
theorem outlines_ast : (cs : List Green) → astOutlines (astNodes cs) = outlineList cs
  | [] => by simp [astNodes, astOutlines, outlineList]
  | .leaf _ _ _ :: cs => by simp [astNodes, outlineList, outline, outlines_ast cs]
  | .node k n ds :: cs => by
    rw [astNodes, outlineList, ← outline_ast k n ds, ← outlines_ast cs]
    simp [astOutlines]
end

theorem nodesHere_leaf (k n : Nat) (m : Option Nat) (cs : List Green) : nodesHere (.leaf k n m :: cs) = nodesHere cs := rfl
theorem nodesHere_node (k n : Nat) (ds cs : List Green) : nodesHere (.node k n ds :: cs) = nodesHere cs + 1 := by
  simp [nodesHere]

mutual
theorem ast_outline (k n : Nat) (cs : List Green) (k' n' : Nat) (cs' : List Green) (r r' : List (Nat × Nat × Nat × Nat × Nat))
    (h : outline (.node k n cs) ++ r = outline (.node k' n' cs') ++ r') : toAst (.node k n cs) = toAst (.node k' n' cs') ∧ r = r' := by
  simp only [outline, List.cons_append, List.cons.injEq, Prod.mk.injEq] at h
  obtain ⟨⟨rfl, rfl, h1, h2⟩, h3⟩ := h
  obtain ⟨g1, g2⟩ := asts_outline cs cs' r r' h1 h3
  have hl : leavesChild cs = leavesChild cs' := by
    unfold leavesChild
    rw [totals_eq, totals_eq, h2]
  exact ⟨by rw [toAst, toAst, g1, hl], g2⟩
theorem asts_outline : (cs cs' : List Green) → (r r' : List (Nat × Nat × Nat × Nat × Nat)) → nodesHere cs = nodesHere cs' →
    outlineList cs ++ r = outlineList cs' ++ r' → astNodes cs = astNodes cs' ∧ r = r'
  | [], cs', r, r', hn, h => by
    induction cs' with
    | nil => exact ⟨rfl, by simpa [outlineList] using h⟩
    | cons c cs' ih =>
      cases c with
      | leaf k n m =>
        rw [nodesHere_leaf] at hn
        obtain ⟨g1, g2⟩ := ih hn (by simpa [outlineList, outline] using h)
        exact ⟨by simp [astNodes, ← g1], g2⟩
      | node k n ds => rw [nodesHere_node] at hn; simp [nodesHere] at hn
  | .leaf k n m :: cs, cs', r, r', hn, h => by
    obtain ⟨g1, g2⟩ := asts_outline cs cs' r r' hn (by simpa [outlineList, outline] using h)
    exact ⟨by simp [astNodes, g1], g2⟩
  | .node k n ds :: cs, cs', r, r', hn, h => by
    induction cs' with
    | nil => rw [nodesHere_node] at hn; simp [nodesHere] at hn
    | cons c cs' ih =>
      cases c with
      | leaf k n m =>
        obtain ⟨g1, g2⟩ := ih hn (by simpa [outlineList, outline] using h)
        exact ⟨by rw [g1]; simp [astNodes], g2⟩
      | node k' n' ds' =>
        rw [outlineList, outlineList, List.append_assoc, List.append_assoc] at h
        obtain ⟨g1, g2⟩ := ast_outline k n ds k' n' ds' _ _ h
        rw [nodesHere_node, nodesHere_node] at hn
        obtain ⟨g3, g4⟩ := asts_outline cs cs' r r' (by omega) g2
        exact ⟨by rw [astNodes, astNodes, g3]; simp [g1], g4⟩
end

/-- Two trees look the same to the tester when they have the same outline. -/
theorem toAst_iff (k n : Nat) (cs : List Green) (k' n' : Nat) (cs' : List Green) :
    toAst (.node k n cs) = toAst (.node k' n' cs') ↔ outline (.node k n cs) = outline (.node k' n' cs') := by
  constructor
  · intro h
    rw [← outline_ast, ← outline_ast, h]
  · intro h
    exact (ast_outline k n cs k' n' cs' [] [] (by rw [h])).1

end Golden
end Oaks
