import Verif.Uni.Kernel
import Verif.Spec.Kernel

/-!
# Quick select and medians (C34)
-/

namespace Verif

open Spec

section
variable {α : Type} [LinearOrder α] [Inhabited α]

theorem Spec.IsRank.unique {α : Type} [LinearOrder α] {l : List α} {k : Nat} {v w : α} (hv : IsRank l k v)
    (hw : IsRank l k w) : v = w := by
  obtain ⟨s, h1, h2, h3⟩ := hv
  obtain ⟨t, g1, g2, g3⟩ := hw
  have : s = t := (h1.trans g1.symm).eq_of_pairwise' h2 g2
  subst this
  rw [h3] at g3
  exact Option.some.inj g3

theorem Spec.IsRank.perm {α : Type} [LinearOrder α] {l l' : List α} {k : Nat} {v : α} (hv : IsRank l k v)
    (h : l.Perm l') : IsRank l' k v := by
  obtain ⟨s, h1, h2, h3⟩ := hv
  exact ⟨s, h1.trans h, h2, h3⟩

/-- an entry with nothing larger before it and nothing smaller after it is in its sorted position -/
theorem isRank_of_split {α : Type} [LinearOrder α] {l r : List α} {v : α} (h1 : ∀ x ∈ l, x ≤ v) (h2 : ∀ x ∈ r, v ≤ x) :
    IsRank (l ++ v :: r) l.length v := by
  refine ⟨l.insertionSort (· ≤ ·) ++ v :: r.insertionSort (· ≤ ·), ?_, ?_, ?_⟩
  · exact (List.perm_insertionSort _ l).append ((List.perm_insertionSort _ r).cons v)
  · rw [List.pairwise_append]
    refine ⟨List.pairwise_insertionSort _ l, ?_, ?_⟩
    · rw [List.pairwise_cons]
      refine ⟨?_, List.pairwise_insertionSort _ r⟩
      intro x hx
      exact h2 x ((List.mem_insertionSort _).1 hx)
    · intro a ha b hb
      have ha := h1 a ((List.mem_insertionSort _).1 ha)
      rcases List.mem_cons.1 hb with rfl | hb
      · exact ha
      · exact ha.trans (h2 b ((List.mem_insertionSort _).1 hb))
  · rw [List.getElem?_append_right (by simp)]
    simp

theorem isRank_of_getD {d : List α} {n : Nat} (hn : n < d.length)
    (h1 : ∀ i, i < n → d.getD i default ≤ d.getD n default)
    (h2 : ∀ i, n < i → i < d.length → d.getD n default ≤ d.getD i default) :
    IsRank d n (d.getD n default) := by
  have e : d = d.take n ++ d[n] :: d.drop (n + 1) := by
    rw [List.cons_getElem_drop_succ, List.take_append_drop]
  have g : ∀ i (h : i < d.length), d.getD i default = d[i] := by
    intro i h
    rw [List.getD_eq_getElem?_getD, List.getElem?_eq_getElem h]; rfl
  rw [g n hn]
  have := isRank_of_split (l := d.take n) (r := d.drop (n + 1)) (v := d[n]) ?_ ?_
  · rw [← e, List.length_take, min_eq_left hn.le] at this
    exact this
  · intro x hx
    obtain ⟨i, hi, rfl⟩ := List.mem_iff_getElem.1 hx
    rw [List.length_take] at hi
    rw [List.getElem_take, ← g i (by omega), ← g n hn]
    exact h1 i (by omega)
  · intro x hx
    obtain ⟨i, hi, rfl⟩ := List.mem_iff_getElem.1 hx
    rw [List.length_drop] at hi
    rw [List.getElem_drop, ← g (n + 1 + i) (by omega), ← g n hn]
    exact h2 _ (by omega) (by omega)

/-! ### swapping -/

omit [LinearOrder α] in
@[simp] theorem length_swap (d : List α) (i j : Nat) : (swap d i j).length = d.length := by simp [swap]

omit [LinearOrder α] in
theorem swap_perm (d : List α) {i j : Nat} (hi : i < d.length) (hj : j < d.length) : (swap d i j).Perm d := by
  unfold swap
  rw [List.getD_eq_getElem?_getD, List.getD_eq_getElem?_getD, List.getElem?_eq_getElem hi,
    List.getElem?_eq_getElem hj]
  exact List.set_set_perm hi hj

omit [LinearOrder α] in
theorem getD_swap (d : List α) {i j : Nat} (hi : i < d.length) (hj : j < d.length) (k : Nat) :
    (swap d i j).getD k default =
      if k = i then d.getD j default else if k = j then d.getD i default else d.getD k default := by
  unfold swap
  simp only [List.getD_eq_getElem?_getD, List.getElem?_set, List.length_set]
  by_cases h1 : k = i
  · subst h1
    by_cases h2 : k = j
    · subst h2; simp [hi]
    · simp [hi, Ne.symm h2]
  · by_cases h2 : k = j
    · subst h2; simp [hj, h1]
    · simp [h1, h2, Ne.symm h1, Ne.symm h2]

/-! ### three-way partition -/

/-- what the loop of `partition` keeps: `[left, li)` below, `[li, i)` equal, `[e, right]` above the pivot value -/
structure PartInv (pv : α) (left right : Nat) (d : List α) (li i e : Nat) : Prop where
  ord : left ≤ li ∧ li ≤ i ∧ i ≤ e ∧ e ≤ right + 1
  len : right < d.length
  lt : ∀ k, left ≤ k → k < li → d.getD k default < pv
  eq : ∀ k, li ≤ k → k < i → d.getD k default = pv
  gt : ∀ k, e ≤ k → k ≤ right → pv < d.getD k default
  mem : ∃ k, left ≤ k ∧ k ≤ right ∧ d.getD k default = pv

/-- `d'` rearranges `d` inside `[left, right]` only -/
structure Rearr (left right : Nat) (d d' : List α) : Prop where
  perm : d'.Perm d
  out : ∀ k, ¬ (left ≤ k ∧ k ≤ right) → d'.getD k default = d.getD k default
  ins : ∀ k, left ≤ k → k ≤ right → ∃ k', left ≤ k' ∧ k' ≤ right ∧ d'.getD k default = d.getD k' default

omit [LinearOrder α] in
theorem Rearr.refl (left right : Nat) (d : List α) : Rearr left right d d :=
  ⟨.refl _, fun _ _ => rfl, fun k h1 h2 => ⟨k, h1, h2, rfl⟩⟩

omit [LinearOrder α] in
theorem Rearr.trans {left right : Nat} {d d' d'' : List α} (h : Rearr left right d d')
    (h' : Rearr left right d' d'') : Rearr left right d d'' := by
  refine ⟨h'.perm.trans h.perm, fun k hk => (h'.out k hk).trans (h.out k hk), ?_⟩
  intro k h1 h2
  obtain ⟨k', a, b, c⟩ := h'.ins k h1 h2
  obtain ⟨k'', a', b', c'⟩ := h.ins k' a b
  exact ⟨k'', a', b', c.trans c'⟩

omit [LinearOrder α] in
theorem Rearr.swap {left right i j : Nat} {d : List α} (hi : left ≤ i ∧ i ≤ right) (hj : left ≤ j ∧ j ≤ right)
    (h : right < d.length) : Rearr left right d (swap d i j) := by
  refine ⟨swap_perm d (by omega) (by omega), ?_, ?_⟩
  · intro k hk
    rw [getD_swap d (by omega) (by omega), if_neg (by rintro rfl; exact hk hi), if_neg (by rintro rfl; exact hk hj)]
  · intro k h1 h2
    rw [getD_swap d (by omega) (by omega)]
    split
    · exact ⟨j, hj.1, hj.2, rfl⟩
    · split
      · exact ⟨i, hi.1, hi.2, rfl⟩
      · exact ⟨k, h1, h2, rfl⟩

theorem partLoop_spec {pv : α} {left right : Nat} (rem : Nat) (d : List α) (li i : Nat)
    (h : PartInv pv left right d li i (i + rem)) :
    Rearr left right d (partLoop pv rem d li i).1 ∧
      PartInv pv left right (partLoop pv rem d li i).1 (partLoop pv rem d li i).2.1 (partLoop pv rem d li i).2.2
        (partLoop pv rem d li i).2.2 := by
  induction rem generalizing d li i with
  | zero => exact ⟨.refl _ _ _, h⟩
  | succ rem ih =>
    obtain ⟨o1, o2, o3, o4⟩ := h.ord
    have hlen := h.len
    rw [partLoop]
    split
    · rename_i hx
      have hs := getD_swap d (i := li) (j := i) (by omega) (by omega)
      have hr : Rearr left right d (swap d li i) := .swap (by omega) (by omega) h.len
      suffices hinv : PartInv pv left right (swap d li i) (li + 1) (i + 1) (i + 1 + rem) from
        ⟨hr.trans (ih _ _ _ hinv).1, (ih _ _ _ hinv).2⟩
      refine ⟨by omega, by simpa using h.len, ?_, ?_, ?_, ?_⟩
      · intro k k1 k2
        rw [hs]
        split
        · exact hx
        · rw [if_neg (by omega)]
          exact h.lt k k1 (by omega)
      · intro k k1 k2
        rw [hs, if_neg (by omega)]
        split
        · exact h.eq li le_rfl (by omega)
        · exact h.eq k (by omega) (by omega)
      · intro k k1 k2
        rw [hs, if_neg (by omega), if_neg (by omega)]
        exact h.gt k (by omega) k2
      · obtain ⟨k, k1, k2, k3⟩ := h.mem
        by_cases e1 : k = li
        · subst e1
          refine ⟨i, by omega, by omega, ?_⟩
          rw [hs]
          split
          · rename_i e; rw [← e] at k3; exact k3
          · simpa using k3
        · by_cases e2 : k = i
          · subst e2
            exact ⟨li, by omega, by omega, by rw [hs, if_pos rfl]; exact k3⟩
          · exact ⟨k, k1, k2, by rw [hs, if_neg e1, if_neg e2]; exact k3⟩
    · split
      · rename_i hx0 hx
        have hs := getD_swap d (i := i + rem) (j := i) (by omega) (by omega)
        have hr : Rearr left right d (swap d (i + rem) i) := .swap (by omega) (by omega) h.len
        suffices hinv : PartInv pv left right (swap d (i + rem) i) li i (i + rem) from
          ⟨hr.trans (ih _ _ _ hinv).1, (ih _ _ _ hinv).2⟩
        refine ⟨by omega, by simpa using h.len, ?_, ?_, ?_, ?_⟩
        · intro k k1 k2
          rw [hs, if_neg (by omega), if_neg (by omega)]
          exact h.lt k k1 k2
        · intro k k1 k2
          rw [hs, if_neg (by omega), if_neg (by omega)]
          exact h.eq k k1 k2
        · intro k k1 k2
          rw [hs]
          split
          · exact hx
          · rw [if_neg (by omega)]
            exact h.gt k (by omega) k2
        · obtain ⟨k, k1, k2, k3⟩ := h.mem
          by_cases e1 : k = i + rem
          · subst e1
            refine ⟨i, by omega, by omega, ?_⟩
            rw [hs]
            split
            · rename_i e; rw [← e] at k3; exact k3
            · simpa using k3
          · by_cases e2 : k = i
            · subst e2
              exact ⟨k + rem, by omega, by omega, by rw [hs, if_pos rfl]; exact k3⟩
            · exact ⟨k, k1, k2, by rw [hs, if_neg e1, if_neg e2]; exact k3⟩
      · rename_i hx0 hx1
        have hx : d.getD i default = pv := le_antisymm (not_lt.1 hx1) (not_lt.1 hx0)
        refine ih d li (i + 1) ⟨by omega, h.len, h.lt, ?_, ?_, h.mem⟩
        · intro k k1 k2
          rcases Nat.lt_succ_iff_lt_or_eq.1 k2 with k2 | rfl
          · exact h.eq k k1 k2
          · exact hx
        · intro k k1 k2
          exact h.gt k (by omega) k2

/-- `partition` puts the returned position in order: nothing larger before it, nothing smaller after it -/
theorem partition_spec {d : List α} {left right pivot : Nat} (hr : right < d.length) (h1 : left ≤ pivot)
    (h2 : pivot ≤ right) :
    Rearr left right d (partition d left right pivot).1 ∧
      left ≤ (partition d left right pivot).2 ∧ (partition d left right pivot).2 ≤ right ∧
      (∀ k, left ≤ k → k ≤ (partition d left right pivot).2 →
        (partition d left right pivot).1.getD k default ≤
          (partition d left right pivot).1.getD (partition d left right pivot).2 default) ∧
      (∀ k, (partition d left right pivot).2 ≤ k → k ≤ right →
        (partition d left right pivot).1.getD (partition d left right pivot).2 default ≤
          (partition d left right pivot).1.getD k default) := by
  have hspec := partLoop_spec (pv := d.getD pivot default) (left := left) (right := right) (right + 1 - left) d left left
    ⟨by omega, hr, fun k a b => by omega, fun k a b => by omega, fun k a b => by omega, pivot, h1, h2, rfl⟩
  unfold partition
  dsimp only
  generalize partLoop (d.getD pivot default) (right + 1 - left) d left left = r at hspec
  obtain ⟨d', li, e⟩ := r
  obtain ⟨hre, inv⟩ := hspec
  dsimp only at hre inv ⊢
  obtain ⟨o1, o2, o3, o4⟩ := inv.ord
  obtain ⟨k0, a, b, c⟩ := inv.mem
  have hk0 : li ≤ k0 ∧ k0 < e := by
    constructor
    · by_contra hc
      exact absurd c (inv.lt k0 a (by omega)).ne
    · by_contra hc
      exact absurd c (inv.gt k0 (by omega) b).ne'
  have hp := inv.eq ((li + (e - 1)) / 2) (by omega) (by omega)
  refine ⟨hre, by omega, by omega, ?_, ?_⟩
  · intro k k1 k2
    rw [hp]
    rcases lt_or_ge k li with hk | hk
    · exact (inv.lt k k1 hk).le
    · exact (inv.eq k hk (by omega)).le
  · intro k k1 k2
    rw [hp]
    rcases lt_or_ge k e with hk | hk
    · exact (inv.eq k (by omega) hk).ge
    · exact (inv.gt k hk k2).le

/-- everything before `left` is at most, everything after `right` at least, what lies between -/
structure Sep (left right : Nat) (d : List α) : Prop where
  lo : ∀ i k, i < left → left ≤ k → k < d.length → d.getD i default ≤ d.getD k default
  hi : ∀ k j, k ≤ right → right < j → j < d.length → d.getD k default ≤ d.getD j default

theorem Sep.rearr {left right : Nat} {d d' : List α} (h : Sep left right d) (hr : Rearr left right d d')
    (hlr : left ≤ right) (hlen : right < d.length) : Sep left right d' := by
  have hl := hr.perm.length_eq
  have key : ∀ k, k < d.length → ∃ k', k' < d.length ∧ d'.getD k default = d.getD k' default ∧
      (k < left → k' = k) ∧ (right < k → k' = k) ∧ (left ≤ k → left ≤ k') ∧ (k ≤ right → k' ≤ right) := by
    intro k hk
    by_cases hc : left ≤ k ∧ k ≤ right
    · obtain ⟨k', a, b, c⟩ := hr.ins k hc.1 hc.2
      exact ⟨k', by omega, c, by omega, by omega, by omega, by omega⟩
    · exact ⟨k, hk, hr.out k hc, by omega, by omega, by omega, by omega⟩
  constructor
  · intro i k h1 h2 h3
    obtain ⟨i', -, e1, a, -, -, -⟩ := key i (by omega)
    obtain ⟨k', hk', e2, -, -, b, -⟩ := key k (by omega)
    rw [e1, e2, a h1]
    exact h.lo i k' h1 (b h2) hk'
  · intro k j h1 h2 h3
    obtain ⟨j', hj', e1, -, a, -, -⟩ := key j (by omega)
    obtain ⟨k', -, e2, -, -, -, b⟩ := key k (by omega)
    rw [e1, e2, a h2]
    exact h.hi k' j (b h1) h2 (by omega)

/-- `select` returns the value of rank `n`, whatever the random numbers, and permutes the array -/
theorem select_spec (rnd : Nat → Nat) (fuel c : Nat) (d : List α) (left right n : Nat)
    (hf : right - left + 1 ≤ fuel) (h1 : left ≤ n) (h2 : n ≤ right) (hr : right < d.length) (hs : Sep left right d) :
    IsRank d n (select rnd fuel c d left right n).1 ∧ (select rnd fuel c d left right n).2.1.Perm d := by
  induction fuel generalizing c d left right with
  | zero => omega
  | succ fuel ih =>
    rw [select]
    split
    · rename_i e
      obtain rfl : n = left := by omega
      refine ⟨isRank_of_getD (by omega) ?_ ?_, .refl _⟩
      · intro i hi
        exact hs.lo i n hi le_rfl (by omega)
      · intro i hi hi'
        exact hs.hi n i (by omega) (by omega) hi'
    · rename_i hne
      dsimp only
      have hp1 : left ≤ rnd c % (right - left + 1) + left := by omega
      have hp2 : rnd c % (right - left + 1) + left ≤ right := by
        have := Nat.mod_lt (rnd c) (show 0 < right - left + 1 by omega)
        omega
      obtain ⟨hre, q1, q2, q3, q4⟩ := partition_spec hr hp1 hp2
      generalize partition d left right (rnd c % (right - left + 1) + left) = r at hre q1 q2 q3 q4
      obtain ⟨d', p⟩ := r
      dsimp only at hre q1 q2 q3 q4 ⊢
      have hs' := hs.rearr hre (by omega) hr
      have hl := hre.perm.length_eq
      split
      · rename_i e
        subst e
        refine ⟨(isRank_of_getD (by omega) ?_ ?_).perm hre.perm, hre.perm⟩
        · intro i hi
          rcases lt_or_ge i left with h | h
          · exact hs'.lo i n h h1 (by omega)
          · exact q3 i h hi.le
        · intro i hi hi'
          rcases lt_or_ge right i with h | h
          · exact hs'.hi n i h2 h hi'
          · exact q4 i hi.le h
      · split
        · have hsep : Sep left (p - 1) d' := by
            refine ⟨hs'.lo, ?_⟩
            intro k j k1 k2 k3
            rcases lt_or_ge k left with hk | hk
            · exact hs'.lo k j hk (by omega) k3
            · rcases lt_or_ge right j with hj | hj
              · exact hs'.hi k j (by omega) hj k3
              · exact (q3 k hk (by omega)).trans (q4 j (by omega) hj)
          obtain ⟨a, b⟩ := ih (c + 1) d' left (p - 1) (by omega) h1 (by omega) (by omega) hsep
          exact ⟨a.perm hre.perm, b.trans hre.perm⟩
        · have hsep : Sep (p + 1) right d' := by
            refine ⟨?_, hs'.hi⟩
            intro i k k1 k2 k3
            rcases lt_or_ge i left with hi | hi
            · exact hs'.lo i k hi (by omega) k3
            · rcases lt_or_ge right k with hk | hk
              · exact hs'.hi i k (by omega) hk k3
              · exact (q3 i hi (by omega)).trans (q4 k (by omega) hk)
          obtain ⟨a, b⟩ := ih (c + 1) d' (p + 1) right (by omega) (by omega) h2 (by omega) hsep
          exact ⟨a.perm hre.perm, b.trans hre.perm⟩

/-- the interval shrinks at every call, so more fuel than its length changes nothing: the recursion terminates -/
theorem select_fuel (rnd : Nat → Nat) (fuel fuel' c : Nat) (d : List α) (left right n : Nat)
    (hf : right - left + 1 ≤ fuel) (hf' : right - left + 1 ≤ fuel') (h1 : left ≤ n) (h2 : n ≤ right)
    (hr : right < d.length) : select rnd fuel c d left right n = select rnd fuel' c d left right n := by
  induction fuel generalizing fuel' c d left right with
  | zero => omega
  | succ fuel ih =>
    obtain ⟨f', rfl⟩ : ∃ f', fuel' = f' + 1 := ⟨fuel' - 1, by omega⟩
    rw [select, select]
    split
    · rfl
    · rename_i hne
      dsimp only
      have hp1 : left ≤ rnd c % (right - left + 1) + left := by omega
      have hp2 : rnd c % (right - left + 1) + left ≤ right := by
        have := Nat.mod_lt (rnd c) (show 0 < right - left + 1 by omega)
        omega
      obtain ⟨hre, q1, q2, -, -⟩ := partition_spec hr hp1 hp2
      generalize partition d left right (rnd c % (right - left + 1) + left) = r at hre q1 q2
      obtain ⟨d', p⟩ := r
      dsimp only at hre q1 q2 ⊢
      have hl := hre.perm.length_eq
      split
      · rfl
      · split
        · exact ih f' (c + 1) d' left (p - 1) (by omega) (by omega) h1 (by omega) (by omega)
        · exact ih f' (c + 1) d' (p + 1) right (by omega) (by omega) (by omega) h2 (by omega)

/-- **C34** (quick select): for every stream of random numbers, `quick_select(data, k)` is the `k`-th smallest value
and leaves a permutation of the array. -/
theorem C34_quick_select (rnd : Nat → Nat) (c : Nat) {d : List α} {k : Nat} (h1 : 1 ≤ k) (h2 : k ≤ d.length) :
    IsRank d (k - 1) (quickSelect rnd c d k).1 ∧ (quickSelect rnd c d k).2.1.Perm d := by
  unfold quickSelect
  refine select_spec rnd _ c d 0 (d.length - 1) (k - 1) (by omega) (by omega) (by omega) (by omega) ⟨?_, ?_⟩
  · intro i k h
    omega
  · intro k j a b e
    omega

/-- **C34** (termination): the recursion of `quick_select` is at most `len(data)` calls deep for every stream of
random numbers: allowing any greater depth gives the same result. -/
theorem C34_terminates (rnd : Nat → Nat) (c : Nat) {d : List α} {k depth : Nat} (h1 : 1 ≤ k) (h2 : k ≤ d.length)
    (hd : d.length ≤ depth) : select rnd depth c d 0 (d.length - 1) (k - 1) = quickSelect rnd c d k :=
  select_fuel rnd _ _ c d 0 (d.length - 1) (k - 1) (by omega) (by omega) (by omega) (by omega) (by omega)

end

/-- **C34** (fast median): for every nonempty array and every stream of random numbers, `fast_median` is the median. -/
theorem C34_fast_median (rnd : Nat → Nat) (c : Nat) {d : List ℚ} (hd : d ≠ []) : IsMedian d (fastMedian rnd c d) := by
  have hl : 0 < d.length := List.length_pos_iff.2 hd
  unfold fastMedian
  split
  · rename_i h
    left
    exact ⟨h, (C34_quick_select rnd c (d := d) (k := d.length / 2 + 1) (by omega) (by omega)).1⟩
  · rename_i h
    right
    obtain ⟨a1, a2⟩ := C34_quick_select rnd c (d := d) (k := d.length / 2) (by omega) (by omega)
    have hl' := a2.length_eq
    obtain ⟨b1, -⟩ := C34_quick_select rnd (quickSelect rnd c d (d.length / 2)).2.2
      (d := (quickSelect rnd c d (d.length / 2)).2.1) (k := d.length / 2 + 1) (by omega) (by omega)
    refine ⟨by omega, _, _, a1, b1.perm a2, ?_⟩
    dsimp only
    ring

/-- the median is unique, so C34 determines the result -/
theorem Spec.IsMedian.unique {l : List ℚ} {m m' : ℚ} (h : IsMedian l m) (h' : IsMedian l m') : m = m' := by
  rcases h with ⟨h1, h⟩ | ⟨h1, a, b, ha, hb, rfl⟩ <;> rcases h' with ⟨h1', h'⟩ | ⟨h1', a', b', ha', hb', rfl⟩
  · exact IsRank.unique h h'
  · omega
  · omega
  · rw [IsRank.unique ha ha', IsRank.unique hb hb']

/-- **C34** (independence of the random numbers): the median does not depend on them. -/
theorem C34_random_independent (rnd rnd' : Nat → Nat) (c c' : Nat) (d : List ℚ) :
    fastMedian rnd c d = fastMedian rnd' c' d := by
  rcases d with - | ⟨x, t⟩
  · simp [fastMedian, quickSelect, select]
  · exact (C34_fast_median rnd c (by simp)).unique (C34_fast_median rnd' c' (by simp))

theorem isRank_sorted {l : List ℚ} (h : l.Pairwise (· ≤ ·)) {k : Nat} (hk : k < l.length) : IsRank l k (l.getD k 0) :=
  ⟨l, .refl _, h, by rw [List.getD_eq_getElem?_getD, List.getElem?_eq_getElem hk]; rfl⟩

/-- the reference median of the model is the median -/
theorem isMedian_sorted {l : List ℚ} (hl : l ≠ []) (h : l.Pairwise (· ≤ ·)) : IsMedian l (medianSorted l) := by
  have hl : 0 < l.length := List.length_pos_iff.2 hl
  unfold medianSorted
  split
  · rename_i ho
    exact .inl ⟨ho, isRank_sorted h (by omega)⟩
  · rename_i he
    exact .inr ⟨by omega, _, _, isRank_sorted h (by omega), isRank_sorted h (by omega), rfl⟩

theorem Spec.IsMedian.perm {l l' : List ℚ} {m : ℚ} (h : IsMedian l m) (hp : l.Perm l') : IsMedian l' m := by
  have hl := hp.length_eq
  rcases h with ⟨h1, h⟩ | ⟨h1, a, b, ha, hb, e⟩
  · exact .inl ⟨by omega, by rw [← hl]; exact h.perm hp⟩
  · exact .inr ⟨by omega, a, b, by rw [← hl]; exact ha.perm hp, by rw [← hl]; exact hb.perm hp, e⟩

theorem isMedian_npMedian {l : List ℚ} (hl : l ≠ []) : IsMedian l (npMedian l) := by
  have : sortQ l ≠ [] := by
    intro h
    have := congrArg List.length h
    rw [length_sortQ] at this
    exact hl (List.length_eq_zero_iff.1 this)
  exact (isMedian_sorted this (sortQ_sorted l)).perm (sortQ_perm l)

/-! ### concrete cases -/

/-- two different streams of random numbers, an even and an odd number of values -/
example : fastMedian (fun i => i * i + 7) 0 [5, 1, 4, 1, 3, 9] = 7 / 2 ∧ fastMedian (fun i => 3 * i) 2 [5, 1, 4, 1, 3, 9] = 7 / 2 ∧
    fastMedian (fun _ => 0) 0 [2, 8, 2, 5, 1] = 2 := by decide +kernel

end Verif
