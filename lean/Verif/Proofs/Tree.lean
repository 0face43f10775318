import Verif.Spec.Tree
import Mathlib.Data.List.Induction

namespace Oaks
open Spec

/-- Sum of the cached lengths of siblings. -/
def lenSum (gs : List Green) : Nat := (gs.map Green.len).sum

@[simp] theorem lenSum_nil : lenSum [] = 0 := rfl
@[simp] theorem lenSum_cons (g : Green) (gs : List Green) : lenSum (g :: gs) = g.len + lenSum gs := by
  simp [lenSum]
theorem lenSum_append (a b : List Green) : lenSum (a ++ b) = lenSum a + lenSum b := by
  simp [lenSum]

theorem addU32_ok {a b c : Nat} : addU32 a b = .ok c ↔ c = a + b ∧ a + b < 2 ^ 32 := by
  unfold addU32; split <;> simp_all [eq_comm]

theorem sumLen_ok (cs : List Green) (acc s : Nat) (hacc : acc < 2 ^ 32) :
    sumLen acc cs = .ok s ↔ s = acc + lenSum cs ∧ acc + lenSum cs < 2 ^ 32 := by
  induction cs generalizing acc with
  | nil => simp [sumLen, hacc, eq_comm]
  | cons c cs ih =>
    simp only [sumLen, lenSum_cons]
    by_cases h : acc + c.len < 2 ^ 32
    · rw [show addU32 acc c.len = .ok (acc + c.len) from addU32_ok.2 ⟨rfl, h⟩, run_bind_ok, ih _ h,
        Nat.add_assoc]
    · have : addU32 acc c.len = .error .panic := by simp [addU32]; omega
      rw [this]; simp; omega

theorem mkNode_ok {k : Nat} {cs : List Green} {g : Green} :
    Green.mkNode k cs = .ok g ↔ g = .node k (lenSum cs) cs ∧ lenSum cs < 2 ^ 32 := by
  unfold Green.mkNode
  constructor
  · intro h
    cases hs : sumLen 0 cs with
    | error e => rw [hs] at h; simp at h
    | ok s =>
      rw [hs] at h
      have := (sumLen_ok cs 0 s (by decide)).1 hs
      simp at h this
      exact ⟨by rw [← h, this.1], this.2⟩
  · rintro ⟨rfl, h⟩
    rw [(sumLen_ok cs 0 (lenSum cs) (by decide)).2 ⟨by simp, by simpa using h⟩]; simp

theorem Spec.Built.inv {k n : Nat} {cs : List Green} (h : Built (.node k n cs)) :
    (∀ c ∈ cs, Built c) ∧ n = lenSum cs ∧ n < 2 ^ 32 := by
  cases h with
  | node hc hg =>
    have := mkNode_ok.1 hg
    simp at this
    obtain ⟨⟨rfl, rfl, rfl⟩, h2⟩ := this
    exact ⟨hc, rfl, h2⟩

/-- Induction over built trees. -/
theorem Spec.Built.rec' {P : Green → Prop} (hl : ∀ k n m, n < 2 ^ 32 → P (.leaf k n m))
    (hn : ∀ k cs, (∀ c ∈ cs, Built c) → (∀ c ∈ cs, P c) → lenSum cs < 2 ^ 32 → P (.node k (lenSum cs) cs))
    {g : Green} (h : Built g) : P g := by
  induction h with
  | leaf k n m h => exact hl k n m h
  | node hc hg ih =>
    obtain ⟨rfl, h2⟩ := mkNode_ok.1 hg
    exact hn _ _ hc ih h2

@[simp] theorem leavesOfList_append (a b : List Green) :
    leavesOfList (a ++ b) = leavesOfList a ++ leavesOfList b := by
  induction a with
  | nil => simp [leavesOfList]
  | cons g gs ih => simp [leavesOfList, ih]

@[simp] theorem bytesBelowList_nil : bytesBelowList [] = 0 := rfl
@[simp] theorem bytesBelowList_cons (g : Green) (gs : List Green) :
    bytesBelowList (g :: gs) = bytesBelow g + bytesBelowList gs := by
  simp [bytesBelowList, bytesBelow, leavesOfList]
theorem bytesBelowList_append (a b : List Green) :
    bytesBelowList (a ++ b) = bytesBelowList a + bytesBelowList b := by
  simp [bytesBelowList]
@[simp] theorem bytesBelow_node (k n : Nat) (cs : List Green) :
    bytesBelow (.node k n cs) = bytesBelowList cs := by simp [bytesBelow, bytesBelowList, leavesOf]
@[simp] theorem bytesBelow_leaf (k n : Nat) (m : Option Nat) : bytesBelow (.leaf k n m) = n := by
  simp [bytesBelow, leavesOf]

theorem lenSum_eq_of (cs : List Green) (h : ∀ c ∈ cs, c.len = bytesBelow c) :
    lenSum cs = bytesBelowList cs := by
  induction cs with
  | nil => rfl
  | cons c cs ih => simp [h c (by simp), ih (fun d hd => h d (by simp [hd]))]

/-- The cached length of a built element is the number of bytes below it. -/
theorem Spec.Built.len_eq {g : Green} (h : Built g) : g.len = bytesBelow g ∧ g.len < 2 ^ 32 := by
  refine Built.rec' (P := fun g => g.len = bytesBelow g ∧ g.len < 2 ^ 32) ?_ ?_ h
  · intro k n m hn; exact ⟨by simp [Green.len], hn⟩
  · intro k cs _ ih hlt
    exact ⟨by simp [Green.len, lenSum_eq_of cs (fun c hc => (ih c hc).1)], hlt⟩

theorem Spec.Built.lenSum_eq {cs : List Green} (h : ∀ c ∈ cs, Built c) : lenSum cs = bytesBelowList cs :=
  lenSum_eq_of cs (fun c hc => (h c hc).len_eq.1)

/-! ## placing leaves -/

theorem place_append (o : Nat) (a b : List (Nat × Nat)) :
    place o (a ++ b) = place o a ++ place (o + (a.map (·.2)).sum) b := by
  induction a generalizing o with
  | nil => simp [place]
  | cons x a ih => obtain ⟨k, n⟩ := x; simp [place, ih, Nat.add_assoc]

theorem place_bounds (ls : List (Nat × Nat)) (o : Nat) :
    ∀ x ∈ place o ls, o ≤ x.2.1 ∧ x.2.1 ≤ x.2.2 ∧ x.2.2 ≤ o + (ls.map (·.2)).sum := by
  induction ls generalizing o with
  | nil => simp [place]
  | cons y ls ih =>
    obtain ⟨k, n⟩ := y
    intro x hx
    simp only [place, List.mem_cons] at hx
    rcases hx with rfl | hx
    · simp
    · have := ih (o + n) x hx
      simp; omega

/-- Two placed leaves containing the same offset are the same leaf. -/
theorem place_unique (ls : List (Nat × Nat)) (o p : Nat) (x y : Nat × Nat × Nat)
    (hx : x ∈ place o ls) (hy : y ∈ place o ls) (h1 : x.2.1 ≤ p ∧ p < x.2.2) (h2 : y.2.1 ≤ p ∧ p < y.2.2) :
    x = y := by
  induction ls generalizing o with
  | nil => simp [place] at hx
  | cons z ls ih =>
    obtain ⟨k, n⟩ := z
    simp only [place, List.mem_cons] at hx hy
    rcases hx with rfl | hx <;> rcases hy with rfl | hy
    · rfl
    · have := place_bounds _ _ y hy; simp at h1; omega
    · have := place_bounds _ _ x hx; simp at h2; omega
    · exact ih _ hx hy

/-! ## children -/

theorem prevLen_ok (cs : List Green) (i o : Nat) (h : i ≤ cs.length) :
    prevLen cs i o = .ok (o + lenSum (cs.take i)) := by
  induction i with
  | zero => simp [prevLen]
  | succ i ih =>
    have hi : i < cs.length := by omega
    simp only [prevLen, ih (by omega), run_bind_ok, index_ok hi]
    rw [List.take_succ_eq_append_getElem hi, lenSum_append]
    simp [Nat.add_assoc]

theorem childAt_ok (r : RedNode) (i : Nat) (h : i < r.children.length) :
    r.childAt i = .ok (Red.ofGreen r.children[i] (r.offset + lenSum (r.children.take i))) := by
  unfold RedNode.childAt
  rw [index_ok h, prevLen_ok _ _ _ (by omega)]; rfl

theorem childAt_panic (r : RedNode) (i : Nat) (h : r.children.length ≤ i) :
    r.childAt i = .error .panic := by
  unfold RedNode.childAt index
  rw [List.getElem?_eq_none h]; rfl

/-- A row of elements with running offsets. -/
def placeRow (o : Nat) : List Green → List (Green × Nat)
  | [] => []
  | g :: gs => (g, o) :: placeRow (o + g.len) gs

theorem collect_ok (r : RedNode) (n i o fuel : Nat) (hn : n = r.children.length - i) (hf : n < fuel) :
    RedChildren.collect fuel ⟨r, i, o⟩ =
      .ok ((placeRow o (r.children.drop i)).map (fun x => Red.ofGreen x.1 x.2)) := by
  induction n generalizing i o fuel with
  | zero =>
    obtain ⟨fuel, rfl⟩ : ∃ f, fuel = f + 1 := ⟨fuel - 1, by omega⟩
    have h : r.children.length ≤ i := by omega
    simp [RedChildren.collect, RedChildren.next, List.getElem?_eq_none h, List.drop_of_length_le h, placeRow]
  | succ n ih =>
    obtain ⟨fuel, rfl⟩ : ∃ f, fuel = f + 1 := ⟨fuel - 1, by omega⟩
    have h : i < r.children.length := by omega
    have h' : r.children[i]? = some r.children[i] := by simp [h]
    rw [List.drop_eq_getElem_cons h]
    simp [RedChildren.collect, RedChildren.next, h', placeRow, ih (i + 1) (o + r.children[i].len) fuel (by omega) (by omega)]

theorem childIter_ok (r : RedNode) :
    r.childIter.collect (r.children.length + 1) =
      .ok ((placeRow r.offset r.children).map (fun x => Red.ofGreen x.1 x.2)) := by
  have := collect_ok r r.children.length 0 r.offset (r.children.length + 1) (by omega) (by omega)
  simpa [RedNode.childIter] using this

theorem placeRow_getElem? (cs : List Green) (o i : Nat) :
    (placeRow o cs)[i]? = (cs[i]?).map (fun g => (g, o + lenSum (cs.take i))) := by
  induction cs generalizing o i with
  | nil => simp [placeRow]
  | cons c cs ih =>
    cases i with
    | zero => simp [placeRow]
    | succ i => simp [placeRow, ih, Nat.add_assoc]

/-- The loop of `child_index_at_offset`. -/
theorem childIndexLoop_ok (rel : Nat) (cs : List Green) (idx pos : Nat) (hlt : pos + lenSum cs < 2 ^ 32)
    (hp : pos ≤ rel) :
    (pos + lenSum cs ≤ rel ∧ childIndexLoop rel idx pos cs = .ok none) ∨
      ∃ j, ∃ h : j < cs.length, childIndexLoop rel idx pos cs = .ok (some (idx + j)) ∧
        pos + lenSum (cs.take j) ≤ rel ∧ rel < pos + lenSum (cs.take j) + cs[j].len := by
  induction cs generalizing idx pos with
  | nil => left; simp [childIndexLoop, hp]
  | cons c cs ih =>
    simp only [lenSum_cons] at hlt
    have hadd : addU32 pos c.len = .ok (pos + c.len) := addU32_ok.2 ⟨rfl, by omega⟩
    simp only [childIndexLoop, hadd, run_bind_ok]
    by_cases hr : rel < pos + c.len
    · right
      exact ⟨0, by simp, by simp [hr], by simpa using hp, by simpa using hr⟩
    · rw [if_neg hr]
      rcases ih (idx + 1) (pos + c.len) (by omega) (by omega) with ⟨h1, h2⟩ | ⟨j, hj, h2, h3, h4⟩
      · left; refine ⟨?_, h2⟩; simp; omega
      · right
        refine ⟨j + 1, by simp; omega, by rw [h2]; simp; omega, ?_, ?_⟩
        · simp; omega
        · simp; omega

/-- `child_index_at_offset` on a built node. -/
theorem childIndexAtOffset_ok (r : RedNode) (hr : Built (.node r.kind r.textLen r.children)) (off : Nat) :
    ((off < r.offset ∨ r.offset + r.textLen ≤ off) ∧ r.childIndexAtOffset off = .ok none) ∨
      (r.offset ≤ off ∧ off < r.offset + r.textLen ∧
        ∃ j, ∃ h : j < r.children.length, r.childIndexAtOffset off = .ok (some j) ∧
        r.offset + lenSum (r.children.take j) ≤ off ∧
        off < r.offset + lenSum (r.children.take j) + r.children[j].len) := by
  obtain ⟨_, hn, hlt⟩ := hr.inv
  unfold RedNode.childIndexAtOffset
  by_cases h : off < r.offset ∨ r.offset + r.textLen ≤ off
  · left; exact ⟨h, by simp [h]⟩
  · right
    rw [if_neg h]
    have h : r.offset ≤ off ∧ off < r.offset + r.textLen := by omega
    refine ⟨h.1, h.2, ?_⟩
    have hmod : (off - r.offset) % 2 ^ 32 = off - r.offset := Nat.mod_eq_of_lt (by omega)
    rw [hmod]
    rcases childIndexLoop_ok (off - r.offset) r.children 0 0 (by omega) (by omega) with ⟨h1, _⟩ | ⟨j, hj, h2, h3, h4⟩
    · omega
    · exact ⟨j, hj, by simpa using h2, by omega, by omega⟩

theorem childAtOffset_ok (r : RedNode) (hr : Built (.node r.kind r.textLen r.children)) (off : Nat) :
    ((off < r.offset ∨ r.offset + r.textLen ≤ off) ∧ r.childAtOffset off = .ok none) ∨
      (r.offset ≤ off ∧ off < r.offset + r.textLen ∧
        ∃ j, ∃ h : j < r.children.length,
        r.childAtOffset off = .ok (some (Red.ofGreen r.children[j] (r.offset + lenSum (r.children.take j)))) ∧
        r.offset + lenSum (r.children.take j) ≤ off ∧
        off < r.offset + lenSum (r.children.take j) + r.children[j].len) := by
  unfold RedNode.childAtOffset
  rcases childIndexAtOffset_ok r hr off with ⟨h1, h2⟩ | ⟨h1, h2, j, hj, h3, h4⟩
  · left; exact ⟨h1, by rw [h2]; rfl⟩
  · right
    refine ⟨h1, h2, j, hj, ?_, h4⟩
    rw [h3]; simp [childAt_ok r j hj]

theorem sizeOf'_pos (g : Green) : 0 < sizeOf' g := by cases g <;> simp [sizeOf'] <;> omega

theorem sizeOf'_le_list {cs : List Green} {c : Green} (h : c ∈ cs) : sizeOf' c ≤ sizeList cs := by
  induction cs with
  | nil => simp at h
  | cons d cs ih =>
    simp only [List.mem_cons] at h
    simp only [sizeList]
    rcases h with rfl | h
    · omega
    · have := ih h; omega

/-- Leaves of a child placed where the child starts are leaves of the node. -/
theorem place_child (o : Nat) (cs : List Green) (j : Nat) (hj : j < cs.length) (hb : ∀ c ∈ cs, Built c) :
    ∀ x ∈ place (o + lenSum (cs.take j)) (leavesOf cs[j]), x ∈ place o (leavesOfList cs) := by
  intro x hx
  have hsplit : cs = cs.take j ++ cs[j] :: cs.drop (j + 1) := by
    rw [← List.drop_eq_getElem_cons hj, List.take_append_drop]
  have hb' : ∀ c ∈ cs.take j, Built c := fun c hc => hb c (List.mem_of_mem_take hc)
  rw [Built.lenSum_eq hb'] at hx
  have : place o (leavesOfList cs) =
      place o (leavesOfList (cs.take j)) ++ (place (o + bytesBelowList (cs.take j)) (leavesOf cs[j]) ++
        place (o + bytesBelowList (cs.take j) + bytesBelow cs[j]) (leavesOfList (cs.drop (j + 1)))) := by
    conv => lhs; rw [hsplit]
    rw [leavesOfList_append, leavesOfList, place_append, place_append]
    simp [bytesBelowList, bytesBelow]
  rw [this]
  simp [hx]

theorem leafAtOffset_ok {g : Green} (hg : Built g) : ∀ (k n : Nat) (cs : List Green) (o off fuel : Nat),
    g = .node k n cs → sizeOf' g ≤ fuel →
    ((off < o ∨ o + n ≤ off) ∧ (RedNode.mk k n cs o).leafAtOffset fuel off = .ok none) ∨
      (o ≤ off ∧ off < o + n ∧ ∃ x, (RedNode.mk k n cs o).leafAtOffset fuel off = .ok (some x) ∧
        x ∈ place o (leavesOfList cs) ∧ x.2.1 ≤ off ∧ off < x.2.2) := by
  refine Built.rec' (P := fun g => ∀ (k n : Nat) (cs : List Green) (o off fuel : Nat),
    g = .node k n cs → sizeOf' g ≤ fuel →
    ((off < o ∨ o + n ≤ off) ∧ (RedNode.mk k n cs o).leafAtOffset fuel off = .ok none) ∨
      (o ≤ off ∧ off < o + n ∧ ∃ x, (RedNode.mk k n cs o).leafAtOffset fuel off = .ok (some x) ∧
        x ∈ place o (leavesOfList cs) ∧ x.2.1 ≤ off ∧ off < x.2.2)) ?_ ?_ hg
  · intro k n m _ k' n' cs o off fuel h; simp at h
  · intro k cs hb ih hlt k' n' cs' o off fuel heq hf
    simp only [Green.node.injEq] at heq
    obtain ⟨rfl, rfl, rfl⟩ := heq
    simp only [sizeOf'] at hf
    obtain ⟨fuel, rfl⟩ : ∃ f, fuel = f + 1 := ⟨fuel - 1, by omega⟩
    have hbn : Built (.node k (lenSum cs) cs) := .node hb (mkNode_ok.2 ⟨rfl, hlt⟩)
    rcases childAtOffset_ok ⟨k, lenSum cs, cs, o⟩ hbn off with ⟨h1, h2⟩ | ⟨h1, h2, j, hj, h3, h4, h5⟩
    · left; exact ⟨h1, by simp only [RedNode.leafAtOffset, h2]; rfl⟩
    · right
      refine ⟨h1, h2, ?_⟩
      simp only at hj h3 h4 h5
      have hmem : cs[j] ∈ cs := List.getElem_mem hj
      have hpl := place_child o cs j hj hb
      rw [RedNode.leafAtOffset, h3, run_bind_ok]
      cases hc : cs[j] with
      | leaf k' n' m' =>
        rw [hc] at h5 hpl
        refine ⟨(k', o + lenSum (cs.take j), o + lenSum (cs.take j) + n'), by simp [Red.ofGreen], ?_, h4, h5⟩
        apply hpl; simp [leavesOf, place]
      | node k' n' cs' =>
        rw [hc] at h5 hpl
        have := ih _ hmem k' n' cs' (o + lenSum (cs.take j)) off fuel hc (by
          have := sizeOf'_le_list hmem; omega)
        simp only [Green.len] at h5
        rcases this with ⟨h6, _⟩ | ⟨_, _, x, h7, h8, h9⟩
        · omega
        · exact ⟨x, by simpa [Red.ofGreen] using h7, hpl x (by simpa [leavesOf] using h8), h9⟩

/-! ## Cursor -/

/-- The cursor stands on the element at a path, with the matching stack. -/
inductive Focus (root : Green) : TreeCur → List Nat → Prop where
  | top : Focus root ⟨root, 0, []⟩ []
  | down {k n : Nat} {cs : List Green} {o : Nat} {st : List Frame} {p : List Nat} {i : Nat} {g : Green} :
      Focus root ⟨.node k n cs, o, st⟩ p → cs[i]? = some g →
      Focus root ⟨g, o + bytesBelowList (cs.take i), ⟨k, n, cs, i, o⟩ :: st⟩ (p ++ [i])

theorem atPath_snoc {g : Green} {p : List Nat} {e : Green} {o i : Nat} {c : Green}
    (h : atPath g p = some (e, o)) (hi : (childrenOf e)[i]? = some c) :
    atPath g (p ++ [i]) = some (c, o + bytesBelowList ((childrenOf e).take i)) := by
  induction p generalizing g o with
  | nil =>
    simp [atPath] at h
    obtain ⟨rfl, rfl⟩ := h
    simp [atPath, hi]
  | cons j p ih =>
    simp only [List.cons_append, atPath] at h ⊢
    cases hj : (childrenOf g)[j]? with
    | none => rw [hj] at h; simp at h
    | some d =>
      rw [hj] at h
      simp only at h ⊢
      cases hd : atPath d p with
      | none => rw [hd] at h; simp at h
      | some r =>
        obtain ⟨e', o'⟩ := r
        rw [hd] at h
        simp at h
        obtain ⟨rfl, rfl⟩ := h
        rw [ih hd]; simp [Nat.add_assoc]

theorem Focus.atPath_eq {root : Green} {c : TreeCur} {p : List Nat} (h : Focus root c p) :
    atPath root p = some (c.current, c.offset) := by
  induction h with
  | top => rfl
  | down _ hi ih => exact atPath_snoc ih hi

/-- What the cursor still has to visit after leaving the current subtree. -/
def later : List Frame → List (Green × Nat)
  | [] => []
  | f :: fs => preorderList (f.offset + bytesBelowList (f.children.take (f.idx + 1)))
      (f.children.drop (f.idx + 1)) ++ later fs

theorem preorderList_append (o : Nat) (a b : List Green) :
    preorderList o (a ++ b) = preorderList o a ++ preorderList (o + bytesBelowList a) b := by
  induction a generalizing o with
  | nil => simp [preorderList]
  | cons g gs ih => simp [preorderList, ih, Nat.add_assoc]

theorem preorderList_split (o : Nat) (cs : List Green) (i : Nat) (g : Green) (h : cs[i]? = some g) :
    preorderList o cs = preorderList o (cs.take i) ++ (preorder (o + bytesBelowList (cs.take i)) g ++
      preorderList (o + bytesBelowList (cs.take (i + 1))) (cs.drop (i + 1))) := by
  obtain ⟨hi, rfl⟩ := List.getElem?_eq_some_iff.1 h
  have hs : cs = cs.take i ++ cs[i] :: cs.drop (i + 1) := by
    rw [← List.drop_eq_getElem_cons hi, List.take_append_drop]
  conv => lhs; rw [hs]
  rw [preorderList_append, preorderList, List.take_succ_eq_append_getElem hi, bytesBelowList_append]
  simp [Nat.add_assoc]

theorem Focus.split {root : Green} {c : TreeCur} {p : List Nat} (h : Focus root c p) :
    ∃ before, preorder 0 root = before ++ preorder c.offset c.current ++ later c.stack := by
  induction h with
  | top => exact ⟨[], by simp [later]⟩
  | @down k n cs o st p i g _ hi ih =>
    obtain ⟨b, hb⟩ := ih
    refine ⟨b ++ (.node k n cs, o) :: preorderList o (cs.take i), ?_⟩
    rw [hb]
    simp only [preorder, later]
    rw [preorderList_split o cs i g hi]
    simp

theorem preorder_cons (o : Nat) (g : Green) : ∃ t, preorder o g = (g, o) :: t := by
  cases g <;> simp [preorder]

/-- Everything below the current element. -/
def beneath (o : Nat) (g : Green) : List (Green × Nat) := preorderList o (childrenOf g)

theorem preorder_beneath (o : Nat) (g : Green) : preorder o g = (g, o) :: beneath o g := by
  cases g <;> simp [preorder, beneath, childrenOf, preorderList]

theorem Focus.stepInto {root : Green} {c c' : TreeCur} {p : List Nat} (h : Focus root c p)
    (hs : c.stepInto = some c') :
    Focus root c' (p ++ [0]) ∧ beneath c.offset c.current ++ later c.stack =
      preorder c'.offset c'.current ++ later c'.stack := by
  obtain ⟨cur, o, st⟩ := c
  unfold TreeCur.stepInto at hs
  cases cur with
  | leaf => simp at hs
  | node k n cs =>
    cases cs with
    | nil => simp at hs
    | cons g gs =>
      simp at hs
      subst hs
      refine ⟨by simpa using h.down (i := 0) (g := g) (by simp), ?_⟩
      simp [beneath, childrenOf, preorderList, later]

theorem stepInto_none {c : TreeCur} (hs : c.stepInto = none) : childrenOf c.current = [] := by
  obtain ⟨cur, o, st⟩ := c
  unfold TreeCur.stepInto at hs
  cases cur with
  | leaf => rfl
  | node k n cs => cases cs <;> simp_all [childrenOf]

/-- Built elements below a focus. -/
theorem Focus.built {root : Green} {c : TreeCur} {p : List Nat} (h : Focus root c p) (hb : Built root) :
    Built c.current := by
  induction h with
  | top => exact hb
  | down _ hi ih => exact ih.inv.1 _ (List.mem_of_getElem? hi)

theorem Focus.stepOver {root : Green} (hroot : Built root) {c c' : TreeCur} {p : List Nat} (h : Focus root c p)
    (hs : c.stepOver = some c') :
    (∃ q i, p = q ++ [i] ∧ Focus root c' (q ++ [i + 1])) ∧
      later c.stack = preorder c'.offset c'.current ++ later c'.stack := by
  have hlen := (h.built hroot).len_eq.1
  cases h with
  | top => simp [TreeCur.stepOver] at hs
  | @down k n cs o st q i g h0 hi =>
    unfold TreeCur.stepOver at hs
    simp only at hs
    cases hg : cs[i + 1]? with
    | none => rw [hg] at hs; simp at hs
    | some g' =>
      rw [hg] at hs
      simp at hs
      subst hs
      obtain ⟨hi', rfl⟩ := List.getElem?_eq_some_iff.1 hi
      have hoff : o + bytesBelowList (cs.take i) + (cs[i]).len = o + bytesBelowList (cs.take (i + 1)) := by
        rw [List.take_succ_eq_append_getElem hi', bytesBelowList_append]
        simp only at hlen
        simp [hlen, Nat.add_assoc]
      simp only at hoff ⊢
      rw [hoff]
      refine ⟨⟨q, i, rfl, h0.down hg⟩, ?_⟩
      simp only [later]
      obtain ⟨hg', rfl⟩ := List.getElem?_eq_some_iff.1 hg
      rw [List.drop_eq_getElem_cons hg', preorderList, List.take_succ_eq_append_getElem hg', bytesBelowList_append]
      simp [Nat.add_assoc]

theorem stepOver_none {c : TreeCur} {f : Frame} {fs : List Frame} (hst : c.stack = f :: fs)
    (hs : c.stepOver = none) : f.children.drop (f.idx + 1) = [] := by
  unfold TreeCur.stepOver at hs
  rw [hst] at hs
  simp only at hs
  cases hg : f.children[f.idx + 1]? with
  | some g => rw [hg] at hs; simp at hs
  | none => simpa using hg

theorem outOver_spec {root : Green} (hroot : Built root) : ∀ (st : List Frame) (cur : Green) (o : Nat) (p : List Nat),
    Focus root ⟨cur, o, st⟩ p → (TreeCur.mk cur o st).stepOver = none →
    match TreeCur.outOver st cur o with
    | (true, c') => (∃ q, Focus root c' q) ∧ later st = preorder c'.offset c'.current ++ later c'.stack
    | (false, c') => c' = ⟨root, 0, []⟩ ∧ later st = []
  | [], cur, o, p, h, _ => by
    cases h
    simp [TreeCur.outOver, later]
  | f :: fs, cur, o, p, h, hno => by
    have hdrop := stepOver_none (c := ⟨cur, o, f :: fs⟩) rfl hno
    cases h with
    | @down k n cs o' st q i g h0 hi =>
      simp only at hdrop
      rw [TreeCur.outOver]
      cases hs : (TreeCur.mk (.node k n cs) o' fs).stepOver with
      | some c' =>
        obtain ⟨⟨q', j, _, hf⟩, hl⟩ := h0.stepOver hroot hs
        refine ⟨⟨_, hf⟩, ?_⟩
        simp only [later, hdrop, preorderList, List.nil_append]
        exact hl
      | none =>
        have := outOver_spec hroot fs (.node k n cs) o' q h0 hs
        simp only [later, hdrop, preorderList, List.nil_append]
        exact this

theorem stepNext_spec {root : Green} (hroot : Built root) {c : TreeCur} {p : List Nat} (h : Focus root c p) :
    match c.stepNext with
    | (true, c') => (∃ q, Focus root c' q) ∧ later c.stack = preorder c'.offset c'.current ++ later c'.stack
    | (false, c') => c' = ⟨root, 0, []⟩ ∧ later c.stack = [] := by
  unfold TreeCur.stepNext
  cases hs : c.stepOver with
  | some c' =>
    obtain ⟨⟨q', j, _, hf⟩, hl⟩ := h.stepOver hroot hs
    exact ⟨⟨_, hf⟩, hl⟩
  | none => exact outOver_spec hroot c.stack c.current c.offset p h hs

theorem step_spec' {root : Green} (hroot : Built root) {c : TreeCur} {p : List Nat} (h : Focus root c p) :
    match c.step with
    | (true, c') => (∃ q, Focus root c' q) ∧
        beneath c.offset c.current ++ later c.stack = preorder c'.offset c'.current ++ later c'.stack
    | (false, c') => c' = ⟨root, 0, []⟩ ∧ beneath c.offset c.current ++ later c.stack = [] := by
  unfold TreeCur.step
  cases hs : c.stepInto with
  | some c' =>
    obtain ⟨hf, hl⟩ := h.stepInto hs
    exact ⟨⟨_, hf⟩, hl⟩
  | none =>
    have hb : beneath c.offset c.current = [] := by simp [beneath, stepInto_none hs, preorderList]
    rw [hb]
    exact stepNext_spec hroot h

theorem visit_spec {root : Green} (hroot : Built root) (n : Nat) {c : TreeCur} {p : List Nat} (h : Focus root c p)
    (hn : (beneath c.offset c.current ++ later c.stack).length = n) (fuel : Nat) (hf : n < fuel) :
    c.visit fuel = .ok (beneath c.offset c.current ++ later c.stack, ⟨root, 0, []⟩) := by
  induction n generalizing c p fuel with
  | zero =>
    obtain ⟨fuel, rfl⟩ : ∃ f, fuel = f + 1 := ⟨fuel - 1, by omega⟩
    have := step_spec' hroot h
    rw [TreeCur.visit]
    have h0 := List.length_eq_zero_iff.1 hn
    split at this <;> rename_i c' hc
    · rw [h0, preorder_beneath] at this; simp at this
    · rw [hc]; simp [h0, this.1]
  | succ n ih =>
    obtain ⟨fuel, rfl⟩ : ∃ f, fuel = f + 1 := ⟨fuel - 1, by omega⟩
    have := step_spec' hroot h
    rw [TreeCur.visit]
    split at this <;> rename_i c' hc
    · obtain ⟨⟨q, hq⟩, hl⟩ := this
      rw [hc]
      rw [hl, preorder_beneath] at hn ⊢
      simp at hn
      simp only
      rw [ih hq (by simpa using hn) fuel (by omega)]
      simp
    · rw [this.2] at hn; simp at hn

theorem Focus.apply {root : Green} (hroot : Built root) {c : TreeCur} {p : List Nat} (h : Focus root c p)
    (op : TreeOp) : ∃ q, Focus root (c.apply op) q := by
  cases op with
  | into =>
    simp only [TreeCur.apply]
    cases hs : c.stepInto with
    | none => exact ⟨p, h⟩
    | some c' => exact ⟨_, (h.stepInto hs).1⟩
  | over =>
    simp only [TreeCur.apply]
    cases hs : c.stepOver with
    | none => exact ⟨p, h⟩
    | some c' => obtain ⟨⟨q, i, _, hf⟩, _⟩ := h.stepOver hroot hs; exact ⟨_, hf⟩
  | out =>
    simp only [TreeCur.apply]
    cases h with
    | top => exact ⟨[], .top⟩
    | @down k n cs o st q i g h0 hi => exact ⟨q, h0⟩
  | step =>
    simp only [TreeCur.apply]
    have := step_spec' hroot h
    split at this <;> rename_i c' hc <;> rw [hc]
    · exact this.1
    · exact ⟨[], by rw [this.1]; exact .top⟩
  | next =>
    simp only [TreeCur.apply]
    have := stepNext_spec hroot h
    split at this <;> rename_i c' hc <;> rw [hc]
    · exact this.1
    · exact ⟨[], by rw [this.1]; exact .top⟩

theorem Focus.applyAll {root : Green} (hroot : Built root) {c : TreeCur} {p : List Nat} (h : Focus root c p)
    (ops : List TreeOp) : ∃ q, Focus root (ops.foldl TreeCur.apply c) q := by
  induction ops generalizing c p with
  | nil => exact ⟨p, h⟩
  | cons op ops ih => obtain ⟨q, hq⟩ := h.apply hroot op; exact ih hq

/-! ## Preorder iterator -/

theorem pushRev_ok (cs : List Green) (o : Nat) (st : List Red) :
    pushRev cs.reverse (o + lenSum cs) st =
      .ok ((placeRow o cs).map (fun x => Red.ofGreen x.1 x.2) ++ st) := by
  induction cs using List.reverseRecOn generalizing st with
  | nil => simp [pushRev, placeRow]
  | append_singleton cs c ih =>
    have hrow : placeRow o (cs ++ [c]) = placeRow o cs ++ [(c, o + lenSum cs)] := by
      clear ih
      induction cs generalizing o with
      | nil => simp [placeRow]
      | cons d cs ih => simp [placeRow, ih, Nat.add_assoc]
    rw [List.reverse_append, List.reverse_singleton, List.singleton_append, pushRev, lenSum_append,
      checkedSub_ok (by simp; omega), run_bind_ok]
    have : o + (lenSum cs + lenSum [c]) - c.len = o + lenSum cs := by simp; omega
    rw [this, ih, hrow]
    simp

theorem preorderList_placeRow (o : Nat) (cs : List Green) (hb : ∀ c ∈ cs, Built c) :
    preorderList o cs = (placeRow o cs).flatMap (fun x => preorder x.2 x.1) := by
  induction cs generalizing o with
  | nil => simp [preorderList, placeRow]
  | cons c cs ih =>
    simp only [preorderList, placeRow, List.flatMap_cons]
    rw [ih _ (fun d hd => hb d (by simp [hd])), (hb c (by simp)).len_eq.1]

theorem mem_placeRow {o : Nat} {cs : List Green} {x : Green × Nat} (h : x ∈ placeRow o cs) : x.1 ∈ cs := by
  induction cs generalizing o with
  | nil => simp [placeRow] at h
  | cons c cs ih =>
    simp only [placeRow, List.mem_cons] at h ⊢
    rcases h with rfl | h
    · left; rfl
    · right; exact ih h

theorem preCollect_ok (n : Nat) (st : List (Green × Nat)) (hb : ∀ x ∈ st, Built x.1)
    (hn : (st.flatMap (fun x => preorder x.2 x.1)).length = n) (fuel : Nat) (hf : n < fuel) :
    preCollect fuel (st.map (fun x => Red.ofGreen x.1 x.2)) =
      .ok ((st.flatMap (fun x => preorder x.2 x.1)).map (fun x => Red.ofGreen x.1 x.2)) := by
  induction n generalizing st fuel with
  | zero =>
    obtain ⟨fuel, rfl⟩ : ∃ f, fuel = f + 1 := ⟨fuel - 1, by omega⟩
    cases st with
    | nil => simp [preCollect, preNext]
    | cons x st => simp [preorder_beneath] at hn
  | succ n ih =>
    obtain ⟨fuel, rfl⟩ : ∃ f, fuel = f + 1 := ⟨fuel - 1, by omega⟩
    cases st with
    | nil => simp at hn
    | cons x st =>
      obtain ⟨g, o⟩ := x
      have hbst : ∀ x ∈ st, Built x.1 := fun x hx => hb x (by simp [hx])
      cases g with
      | leaf k m md =>
        simp [preorder] at hn
        have := ih st hbst (by simpa using hn) fuel (by omega)
        simp [preCollect, preNext, Red.ofGreen, preorder] at this ⊢
        simp [this]
      | node k m cs =>
        obtain ⟨hc, hm, hlt⟩ := (hb (.node k m cs, o) (by simp)).inv
        have hrow := preorderList_placeRow o cs hc
        simp only [List.flatMap_cons, preorder, List.cons_append, List.length_cons] at hn
        have := ih (placeRow o cs ++ st) (by
          intro x hx
          rcases List.mem_append.1 hx with hx | hx
          · exact hc _ (mem_placeRow hx)
          · exact hbst x hx) (by rw [List.flatMap_append, ← hrow]; omega) fuel (by omega)
        rw [List.map_append] at this
        simp only [List.map_cons, Red.ofGreen, preCollect, preNext]
        rw [show (o + m) = o + lenSum cs by omega, pushRev_ok]
        simp only [run_bind_ok, run_pure, Red.ofGreen] at this ⊢
        rw [this]
        simp [preorder, hrow, Red.ofGreen]

/-! ## Visitor -/

theorem walkLeaves_ok {g : Green} (hg : Built g) : ∀ (k n : Nat) (cs : List Green) (o fuel : Nat),
    g = .node k n cs → sizeOf' g ≤ fuel →
    walkLeaves fuel ⟨k, n, cs, o⟩ = .ok (place o (leavesOfList cs)) := by
  refine Built.rec' (P := fun g => ∀ (k n : Nat) (cs : List Green) (o fuel : Nat),
    g = .node k n cs → sizeOf' g ≤ fuel →
    walkLeaves fuel ⟨k, n, cs, o⟩ = .ok (place o (leavesOfList cs))) ?_ ?_ hg
  · intro k n m _ k' n' cs o fuel h; simp at h
  · intro k cs hb ih hlt k' n' cs' o fuel heq hf
    simp only [Green.node.injEq] at heq
    obtain ⟨rfl, rfl, rfl⟩ := heq
    simp only [sizeOf'] at hf
    obtain ⟨fuel, rfl⟩ : ∃ f, fuel = f + 1 := ⟨fuel - 1, by omega⟩
    rw [walkLeaves, childIter_ok]
    simp only [run_bind_ok]
    have key : ∀ (l : List Green) (o : Nat), (∀ c ∈ l, c ∈ cs) →
        ((placeRow o l).map (fun x => Red.ofGreen x.1 x.2)).mapM (walkChild (walkLeaves fuel)) =
        Except.ok ((placeRow o l).map (fun x => place x.2 (leavesOf x.1))) := by
      intro l
      induction l with
      | nil => intro o _; simp [placeRow]
      | cons c l ihl =>
        intro o hsub
        simp only [placeRow, List.map_cons, List.mapM_cons]
        have hc : c ∈ cs := hsub c (by simp)
        rw [ihl _ (fun d hd => hsub d (by simp [hd]))]
        cases hcc : c with
        | leaf k' n' m' => simp [Red.ofGreen, leavesOf, place, walkChild]
        | node k' n' cs' =>
          have := ih c hc k' n' cs' o fuel hcc (by have := sizeOf'_le_list hc; omega)
          simp [Red.ofGreen, this, leavesOf, walkChild]
    rw [key cs o (fun c hc => hc)]
    simp only [run_bind_ok, run_pure]
    congr 1
    have : ∀ (l : List Green) (o : Nat), (∀ c ∈ l, c ∈ cs) →
        ((placeRow o l).map (fun x => place x.2 (leavesOf x.1))).flatten = place o (leavesOfList l) := by
      intro l
      induction l with
      | nil => intro o _; simp [placeRow, leavesOfList, place]
      | cons c l ihl =>
        intro o hsub
        simp only [placeRow, List.map_cons, List.flatten_cons, leavesOfList, place_append]
        rw [ihl _ (fun d hd => hsub d (by simp [hd])), (hb c (hsub c (by simp))).len_eq.1]
        rfl
    exact this cs o (fun c hc => hc)

/-! ## Deep clone -/

theorem deepClone_ok {g : Green} (hg : Built g) : deepClone g = .ok g := by
  refine Built.rec' (P := fun g => deepClone g = .ok g) ?_ ?_ hg
  · intro k n m _; simp [deepClone]
  · intro k cs _ ih hlt
    have : ∀ l : List Green, (∀ c ∈ l, c ∈ cs) → deepCloneList l = .ok l := by
      intro l
      induction l with
      | nil => intro _; simp [deepCloneList]
      | cons c l ihl =>
        intro hs
        simp [deepCloneList, ih c (hs c (by simp)), ihl (fun d hd => hs d (by simp [hd]))]
    rw [deepClone, this cs (fun c hc => hc), run_bind_ok]
    exact mkNode_ok.2 ⟨rfl, hlt⟩

end Oaks
