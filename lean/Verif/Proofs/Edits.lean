import Verif.Proofs.Rope

/-! Batches of edits on strings and ropes. -/

namespace Oaks
open Spec

def editLe (a b : Edit) : Bool := decide (a.start ≤ b.start)

theorem editLe_pre : TotalPre editLe :=
  ⟨fun a b => by simp [editLe]; omega, fun a b c => by simp [editLe]; omega⟩

theorem spliced_start_ge {o : Nat} {s n : Str} {es : List Edit} (h : Spliced o s es n) :
    ∀ e ∈ es, o ≤ e.start := by
  induction h with
  | nil => simp
  | cons h1 h2 _ ih =>
    intro f hf
    rw [List.mem_cons] at hf
    rcases hf with rfl | hf
    · omega
    · have := ih f hf; omega

theorem spliced_sorted {o : Nat} {s n : Str} {es : List Edit} (h : Spliced o s es n) :
    es.Pairwise (fun a b => editLe a b = true) := by
  induction h with
  | nil => simp
  | cons h1 h2 hs ih =>
    refine List.pairwise_cons.mpr ⟨?_, ih⟩
    intro f hf
    have := spliced_start_ge hs f hf
    simp [editLe]; omega

theorem spliced_nil {o : Nat} {s n : Str} (h : Spliced o s [] n) : s = n := by
  generalize he : ([] : List Change) = es at h
  cases h with
  | nil => rfl
  | cons => cases he

theorem sortEdits_eq {edits sorted : List Edit} (hs : SameChanges edits sorted)
    (hp : sorted.Pairwise (fun a b => editLe a b = true)) : sortEdits edits = sorted := by
  refine sortBy_unique editLe_pre hp (fun a => ?_)
  have h := hs a.start
  unfold sameKey
  have hf : (fun y : Edit => editLe a y && editLe y a) = fun y => y.start == a.start := by
    funext y
    rw [Bool.eq_iff_iff]
    simp [editLe]; omega
  rw [hf]; exact h.symm

theorem editRangeLoop_spec {o : Nat} {s new : Str} {es : List Edit} (h : Spliced o s es new) :
    ∀ (frm to n : Nat) (delta : Int), es ≠ [] → delta = (n : Int) - o → to ≤ n →
      ∃ gap mid mid' suf, s = gap ++ mid ++ suf ∧ new = gap ++ mid' ++ suf ∧
        editRangeLoop es frm to delta =
          .ok (min frm (o + blen gap), n + blen gap + blen mid') := by
  induction h with
  | nil => intro _ _ _ _ h; exact absurd rfl h
  | @cons o gap del rest new e es h1 h2 hs ih =>
    intro frm to n delta _ hd hto
    simp only [editRangeLoop]
    rw [checkedSub_ok (by omega)]
    have hstart : ((e.start : Int) + delta).toNat = n + blen gap := by omega
    rw [if_neg (by omega), hstart]
    simp only [run_bind_ok]
    by_cases hes : es = []
    · subst hes
      cases hs
      refine ⟨gap, del, e.text, rest, rfl, rfl, ?_⟩
      simp [editRangeLoop]; omega
    · obtain ⟨gap2, mid2, mid2', suf, hs1, hs2, hr⟩ :=
        ih (min frm e.start) (max to (n + blen gap + blen e.text)) (n + blen gap + blen e.text)
          (delta + (blen e.text : Int) - ((e.stop - e.start : Nat) : Int)) hes (by omega) (by omega)
      refine ⟨gap, del ++ gap2 ++ mid2, e.text ++ gap2 ++ mid2', suf, by simp [hs1], by simp [hs2], ?_⟩
      rw [hr]
      simp; omega

theorem strReplace_ok (l m r rep : Str) :
    strReplace (l ++ m ++ r) (blen l) (blen l + blen m) rep = .ok (l ++ rep ++ r) := by
  unfold strReplace
  rw [if_pos (by omega)]
  rw [strGet_ok' (l := []) (m := l) (r := m ++ r) (by simp) (by simp) (by simp)]
  rw [strFrom_eq_some.mpr ⟨l ++ m, rfl, by simp⟩]

theorem strApplyRev_spec {o : Nat} {s new : Str} {es : List Edit} (h : Spliced o s es new) :
    ∀ p : Str, blen p = o → strApplyRev (p ++ s) es = .ok (p ++ new) := by
  induction h with
  | nil => intro p _; rfl
  | @cons o gap del rest new e es h1 h2 hs ih =>
    intro p hp
    have := ih (p ++ gap ++ del) (by simp; omega)
    simp only [strApplyRev]
    rw [show p ++ (gap ++ del ++ rest) = p ++ gap ++ del ++ rest by simp, this, run_bind_ok]
    have := strReplace_ok (p ++ gap) del new e.text
    rw [show blen (p ++ gap) = e.start by simp; omega, h2] at this
    rw [this]; simp

theorem Table.applyRev_spec {o : Nat} {s new : Str} {es : List Edit} (h : Spliced o s es new) :
    ∀ (t : Table) (p : Str), t.WF → t.text = p ++ s → blen p = o →
      ∃ t', t.applyRev es = .ok t' ∧ t'.WF ∧ t'.text = p ++ new := by
  induction h with
  | nil => intro t p h1 h2 _; exact ⟨t, rfl, h1, h2⟩
  | @cons o gap del rest new e es h1 h2 hs ih =>
    intro t p hw ht hp
    obtain ⟨t1, hr, hw1, ht1⟩ := ih t (p ++ gap ++ del) hw (by simp [ht]) (by simp; omega)
    obtain ⟨t2, hr2, hw2, ht2⟩ := hw1.replaceRange_spec (l := p ++ gap) (m := del) (r := new) e.text ht1
    rw [show blen (p ++ gap) = e.start by simp; omega, h2] at hr2
    exact ⟨t2, by simp [Table.applyRev, hr, hr2], hw2, by simp [ht2]⟩

/-- The range a batch reports. -/
def editRange (oldLen : Nat) (edits : List Edit) : Run (Nat × Nat) :=
  if edits = [] then .ok (oldLen, oldLen) else editRangeLoop (sortEdits edits) oldLen 0 0

theorem sortEdits_ne {edits : List Edit} (h : edits ≠ []) : sortEdits edits ≠ [] := by
  intro he
  have := length_sortBy (le := fun a b : Edit => decide (a.start ≤ b.start)) (l := edits)
  unfold sortEdits at he
  rw [he] at this
  cases edits with
  | nil => exact h rfl
  | cons a l => simp at this

theorem editRange_spec {old new : Str} {edits : List Edit} (h : Batch old edits new) :
    ∃ a b, editRange (blen old) edits = .ok (a, b) ∧ ChangedWithin old new a b := by
  obtain ⟨sorted, hsame, hspl⟩ := h
  have hsort := sortEdits_eq hsame (spliced_sorted hspl)
  unfold editRange
  by_cases he : edits = []
  · subst he
    simp [sortEdits, sortBy] at hsort
    subst hsort
    cases hspl
    exact ⟨blen old, blen old, by simp, old, [], [], [], by simp, by simp, rfl, by simp⟩
  · rw [if_neg he]
    have hne := sortEdits_ne he
    rw [hsort] at hne ⊢
    obtain ⟨gap, mid, mid', suf, h1, h2, h3⟩ :=
      editRangeLoop_spec hspl (blen old) 0 0 0 hne (by omega) (by omega)
    refine ⟨_, _, h3, gap, mid, mid', suf, h1, h2, ?_, by omega⟩
    have := congrArg blen h1
    simp at this; omega

theorem textApplyEdits_spec {old new : Str} {edits : List Edit} (h : Batch old edits new) :
    ∃ r, editRange (blen old) edits = .ok r ∧ textApplyEdits old edits = .ok (new, r) := by
  obtain ⟨a, b, hr, _⟩ := editRange_spec h
  refine ⟨_, hr, ?_⟩
  obtain ⟨sorted, hsame, hspl⟩ := h
  have hsort := sortEdits_eq hsame (spliced_sorted hspl)
  unfold editRange at hr
  unfold textApplyEdits
  by_cases he : edits = []
  · subst he
    simp [sortEdits, sortBy] at hsort
    subst hsort
    cases hspl
    simp at hr ⊢
    exact hr
  · rw [if_neg he] at hr ⊢
    have := strApplyRev_spec hspl [] rfl
    simp only [List.nil_append] at this
    rw [hsort] at hr
    simp [hr, hsort, this]

theorem Table.applyEdits_spec {t : Table} (hw : t.WF) {new : Str} {edits : List Edit}
    (h : Batch t.text edits new) :
    ∃ t' r, editRange (blen t.text) edits = .ok r ∧ t.applyEdits edits = .ok (t', r) ∧ t'.WF ∧
      t'.text = new := by
  obtain ⟨a, b, hr, _⟩ := editRange_spec h
  obtain ⟨sorted, hsame, hspl⟩ := h
  have hsort := sortEdits_eq hsame (spliced_sorted hspl)
  have hr' := hr
  unfold editRange at hr
  unfold Table.applyEdits
  by_cases he : edits = []
  · subst he
    simp [sortEdits, sortBy] at hsort
    subst hsort
    refine ⟨t, (a, b), hr', ?_, hw, (spliced_nil hspl)⟩
    simp at hr ⊢
    simpa [hw.len_eq] using hr
  · rw [if_neg he] at hr ⊢
    obtain ⟨t', h1, h2, h3⟩ := Table.applyRev_spec hspl t [] hw rfl rfl
    rw [hsort] at hr
    exact ⟨t', (a, b), hr', by simp [hw.len_eq, hr, hsort, h1], h2, by simpa using h3⟩

/-! ### valid edits form a batch -/

theorem spliced_of_sorted {es : List Edit} : ∀ {o : Nat} {s : Str} {pre : Str}, blen pre = o →
    (∀ e ∈ es, o ≤ e.start ∧ e.start ≤ e.stop ∧ Boundary (pre ++ s) e.start ∧
      Boundary (pre ++ s) e.stop) →
    es.Pairwise (fun e f => e.stop ≤ f.start) → ∃ n, Spliced o s es n := by
  induction es with
  | nil => intro o s pre _ _ _; exact ⟨s, .nil o s⟩
  | cons e es ih =>
    intro o s pre hp hb hpw
    rw [List.pairwise_cons] at hpw
    obtain ⟨h1, h2, ⟨l1, r1, hs1, hl1⟩, ⟨l2, r2, hs2, hl2⟩⟩ := hb e (by simp)
    obtain ⟨gap, hg, hs⟩ := append_split_of_le hs1 (by omega)
    rw [hs1] at hs2
    obtain ⟨del, hd, hr⟩ := append_split_of_le hs2 (by omega)
    obtain ⟨n, hn⟩ := ih (o := e.stop) (s := r2) (pre := l2) hl2 (by
      intro f hf
      obtain ⟨g1, g2, g3, g4⟩ := hb f (by simp [hf])
      have : pre ++ s = l2 ++ r2 := by rw [hs1, hs2]
      rw [this] at g3 g4
      exact ⟨hpw.1 f hf, g2, g3, g4⟩) hpw.2
    refine ⟨gap ++ e.text ++ n, ?_⟩
    have : s = gap ++ del ++ r2 := by rw [hs, hr]; simp
    rw [this]
    refine .cons ?_ ?_ hn
    · rw [hg] at hl1; simp at hl1; omega
    · rw [hd] at hl2; simp at hl2; omega

theorem batch_of_valid {old : Str} {edits : List Edit} (h : ValidEdits old edits) :
    ∃ new, Batch old edits new := by
  have hperm := sortBy_perm editLe edits
  have hdis : (sortBy editLe edits).Pairwise
      (fun e f => (e.stop ≤ f.start ∨ f.stop ≤ e.start) ∧ e.start ≠ f.start) :=
    (List.Perm.pairwise_iff (by
      intro a b hab; exact ⟨hab.1.symm, hab.2.symm⟩) hperm).mpr h.disjoint
  have hb : ∀ e ∈ sortBy editLe edits, Boundary old e.start ∧ Boundary old e.stop ∧ e.start ≤ e.stop :=
    fun e he => h.bounds e (mem_sortBy.mp he)
  have hpw : (sortBy editLe edits).Pairwise (fun e f => e.stop ≤ f.start) := by
    have h3 := List.Pairwise.and hdis (sortBy_sorted editLe_pre edits)
    refine List.Pairwise.imp_of_mem ?_ h3
    intro e f he hf hef
    simp [editLe] at hef
    have := (hb f hf).2.2
    omega
  obtain ⟨n, hn⟩ := spliced_of_sorted (o := 0) (s := old) (pre := []) rfl
    (fun e he => ⟨by omega, (hb e he).2.2, by simpa using (hb e he).1, by simpa using (hb e he).2.1⟩) hpw
  refine ⟨n, sortBy editLe edits, ?_, hn⟩
  intro p
  cases hf : edits.filter (fun e => e.start == p) with
  | nil =>
    symm
    rw [List.filter_eq_nil_iff] at hf ⊢
    intro a ha; exact hf a (mem_sortBy.mp ha)
  | cons a l =>
    have ha : a ∈ edits.filter (fun e => e.start == p) := by rw [hf]; simp
    simp at ha
    have := sortBy_stable editLe_pre a edits
    unfold sameKey at this
    have hfun : (fun y : Edit => editLe a y && editLe y a) = fun y => y.start == p := by
      funext y
      rw [Bool.eq_iff_iff]
      simp [editLe]; omega
    rw [hfun, hf] at this
    exact this.symm

end Oaks
