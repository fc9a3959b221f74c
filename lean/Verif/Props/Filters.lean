import Verif.Props.Median
import Verif.Uni.Helpers

/-!
# Moving average and moving median (C39, C35)
-/

namespace Verif

open Spec

/-! ### moving average -/

theorem getD_cumsumFrom (l : List ℚ) (s : ℚ) {i : Nat} (hi : i < l.length) :
    (cumsumFrom s l).getD i 0 = s + (l.take (i + 1)).sum := by
  induction l generalizing s i with
  | nil => simp at hi
  | cons x t ih =>
    rw [cumsumFrom]
    rcases i with - | i
    · simp
    · rw [List.getD_cons_succ, ih (s + x) (by simpa using hi), List.take_succ_cons, List.sum_cons, add_assoc]

theorem getD_cumsum {l : List ℚ} {i : Nat} (hi : i < l.length) : (cumsum l).getD i 0 = (l.take (i + 1)).sum := by
  rw [cumsum, getD_cumsumFrom l 0 hi, zero_add]

theorem getElem?_averageFilter {l : List ℚ} {n i : Nat} (b : Bool) (hi : i < l.length) :
    (averageFilter l n b)[i]? = some (
      if (if l.length ≤ n then l.length else n) ≤ i then
        ((cumsum l).getD i 0 - (cumsum l).getD (i - (if l.length ≤ n then l.length else n)) 0) /
          ((if l.length ≤ n then l.length else n : Nat) : ℚ)
      else if i = 0 then (cumsum l).getD 0 0
      else if b then
        ((cumsum l).getD i 0 + ((cumsum l).getD i 0 - l.getD i 0) / i * ((n : ℚ) - i - 1)) / n
      else (cumsum l).getD i 0 / (i + 1)) := by
  unfold averageFilter
  dsimp only
  rw [List.getElem?_map, List.getElem?_range hi]
  rfl

/-- the full window -/
theorem average_full {l : List ℚ} {n i : Nat} (hn : n ≤ i) (hi : i < l.length) :
    ((cumsum l).getD i 0 - (cumsum l).getD (i - n) 0) / (n : ℚ) = mean ((l.take (i + 1)).drop (i + 1 - n)) := by
  have hs : (l.take (i + 1)).sum = (l.take (i - n + 1)).sum + ((l.take (i + 1)).drop (i + 1 - n)).sum := by
    rw [show i + 1 - n = i - n + 1 by omega]
    conv_lhs => rw [← List.take_append_drop (i - n + 1) (l.take (i + 1)), List.sum_append, List.take_take,
      min_eq_left (by omega)]
  rw [getD_cumsum hi, getD_cumsum (by omega), hs, mean]
  congr 1
  · ring
  · simp only [List.length_drop, List.length_take]
    rw [min_eq_left (by omega)]
    congr 1
    omega

/-- **C39** (moving average): entry `i` of `average_filter(values, n)` is the mean of the last `min(n, i+1)` values
up to `i`. -/
theorem C39_average {l : List ℚ} {n i : Nat} (_hn : 1 ≤ n) (hi : i < l.length) :
    (averageFilter l n false)[i]? = some (mean ((l.take (i + 1)).drop (i + 1 - n))) := by
  rw [getElem?_averageFilter false hi]
  by_cases h : (if l.length ≤ n then l.length else n) ≤ i
  · have hnl : ¬ l.length ≤ n := by
      intro hc
      rw [if_pos hc] at h
      omega
    rw [if_neg hnl] at h ⊢
    rw [if_pos h, average_full h hi]
  · have hni : i < n := by
      split at h <;> omega
    have hw : (l.take (i + 1)).drop (i + 1 - n) = l.take (i + 1) := by
      rw [show i + 1 - n = 0 by omega, List.drop_zero]
    have hlen : (l.take (i + 1)).length = i + 1 := by simp; omega
    rw [if_neg h, hw, mean, hlen]
    split
    · rename_i h0
      subst h0
      rw [getD_cumsum hi]; simp
    · simp only [Bool.false_eq_true, if_false]
      rw [getD_cumsum hi]
      push_cast
      rfl

/-- **C39** (padded average): with `fill_to_n` the short windows at the start are padded to `n` values by the mean of
the values before `i`; the first entry is the first value. -/
theorem C39_padded {l : List ℚ} {n i : Nat} (hn : 1 ≤ n) (hi : i < l.length) :
    (averageFilter l n true)[i]? = some (
      if i = 0 then l.headD 0
      else mean ((l.take (i + 1)).drop (i + 1 - n) ++ List.replicate (n - (i + 1)) (mean (l.take i)))) := by
  rw [getElem?_averageFilter true hi]
  by_cases h : (if l.length ≤ n then l.length else n) ≤ i
  · have hnl : ¬ l.length ≤ n := by
      intro hc
      rw [if_pos hc] at h
      omega
    rw [if_neg hnl] at h ⊢
    rw [if_pos h, average_full h hi, show n - (i + 1) = 0 by omega, List.replicate_zero, List.append_nil,
      if_neg (by omega)]
  · have hni : i < n := by
      split at h <;> omega
    rw [if_neg h]
    by_cases h0 : i = 0
    · subst h0
      rw [if_pos rfl, if_pos rfl, getD_cumsum hi]
      cases l <;> simp
    · rw [if_neg h0, if_neg h0, if_pos rfl, getD_cumsum hi]
      have hw : (l.take (i + 1)).drop (i + 1 - n) = l.take (i + 1) := by
        rw [show i + 1 - n = 0 by omega, List.drop_zero]
      have hlen : (l.take (i + 1)).length = i + 1 := by simp; omega
      have hlen' : (l.take i).length = i := by simp; omega
      have hsum : (l.take (i + 1)).sum = (l.take i).sum + l.getD i 0 := by
        rw [List.take_succ_eq_append_getElem hi, List.sum_append, List.getD_eq_getElem?_getD,
          List.getElem?_eq_getElem hi]
        simp
      have hl : (l.take (i + 1) ++ List.replicate (n - (i + 1)) (mean (l.take i))).length = n := by
        rw [List.length_append, hlen, List.length_replicate]; omega
      rw [hw]
      conv_rhs => rw [mean, hl]
      rw [List.sum_append, List.sum_replicate, nsmul_eq_mul, mean, hlen', hsum, Nat.cast_sub (by omega)]
      push_cast
      congr 2
      ring

/-! ### sorted windows -/

theorem bisectLoop_spec {l : List ℚ} {x : ℚ} (hs : l.Pairwise (· ≤ ·)) (fuel lo hi : Nat) (hf : hi - lo ≤ fuel)
    (h1 : lo ≤ hi) (h2 : hi ≤ l.length) (hlo : ∀ i, i < lo → l.getD i 0 ≤ x)
    (hhi : ∀ i, hi ≤ i → i < l.length → x < l.getD i 0) :
    bisectLoop l x fuel lo hi ≤ l.length ∧ (∀ i, i < bisectLoop l x fuel lo hi → l.getD i 0 ≤ x) ∧
      ∀ i, bisectLoop l x fuel lo hi ≤ i → i < l.length → x < l.getD i 0 := by
  have mono : ∀ i j, i ≤ j → j < l.length → l.getD i 0 ≤ l.getD j 0 := by
    intro i j hij hj
    rw [List.getD_eq_getElem?_getD, List.getD_eq_getElem?_getD, List.getElem?_eq_getElem hj,
      List.getElem?_eq_getElem (by omega)]
    rcases eq_or_lt_of_le hij with rfl | hlt
    · exact le_rfl
    · exact List.pairwise_iff_getElem.1 hs i j (by omega) hj hlt
  induction fuel generalizing lo hi with
  | zero =>
    rw [bisectLoop]
    have : lo = hi := by omega
    subst this
    exact ⟨h2, hlo, hhi⟩
  | succ fuel ih =>
    rw [bisectLoop]
    split
    · dsimp only
      split
      · rename_i hlt hx
        refine ih lo ((lo + hi) / 2) (by omega) (by omega) (by omega) hlo ?_
        intro i a b
        exact lt_of_lt_of_le hx (mono _ _ a b)
      · rename_i hlt hx
        refine ih ((lo + hi) / 2 + 1) hi (by omega) (by omega) h2 ?_ hhi
        intro i a
        exact (mono _ _ (by omega) (by omega)).trans (not_lt.1 hx)
    · have : lo = hi := by omega
      subst this
      exact ⟨h2, hlo, hhi⟩

theorem bisectRight_spec {l : List ℚ} (x : ℚ) (hs : l.Pairwise (· ≤ ·)) :
    bisectRight l x ≤ l.length ∧ (∀ i, i < bisectRight l x → l.getD i 0 ≤ x) ∧
      ∀ i, bisectRight l x ≤ i → i < l.length → x < l.getD i 0 :=
  bisectLoop_spec hs _ _ _ (by omega) (by omega) le_rfl (by omega) (by omega)

/-- splitting at the insertion point -/
theorem bisectRight_split {l : List ℚ} (x : ℚ) (hs : l.Pairwise (· ≤ ·)) :
    (∀ y ∈ l.take (bisectRight l x), y ≤ x) ∧ ∀ y ∈ l.drop (bisectRight l x), x < y := by
  obtain ⟨h1, h2, h3⟩ := bisectRight_spec x hs
  constructor
  · intro y hy
    obtain ⟨i, hi, rfl⟩ := List.mem_iff_getElem.1 hy
    have hi' : i < bisectRight l x ∧ i < l.length := by simpa using hi
    have := h2 i hi'.1
    rw [List.getD_eq_getElem?_getD, List.getElem?_eq_getElem hi'.2] at this
    simpa using this
  · intro y hy
    obtain ⟨i, hi, rfl⟩ := List.mem_iff_getElem.1 hy
    have hi' : i < l.length - bisectRight l x := by simpa using hi
    have := h3 (bisectRight l x + i) (by omega) (by omega)
    rw [List.getD_eq_getElem?_getD, List.getElem?_eq_getElem (by omega)] at this
    simpa using this

theorem insertIdx_eq (l : List ℚ) (i : Nat) (x : ℚ) (hi : i ≤ l.length) :
    l.insertIdx i x = l.take i ++ x :: l.drop i := by
  induction l generalizing i with
  | nil =>
    have : i = 0 := by simpa using hi
    subst this
    rfl
  | cons y t ih =>
    rcases i with - | i
    · rfl
    · rw [List.insertIdx_succ_cons, ih i (by simpa using hi)]
      rfl

/-- the window is the sorted list of the values `s` -/
def Win (w s : List ℚ) : Prop := w.Pairwise (· ≤ ·) ∧ w.Perm s

theorem Win.insert {w s : List ℚ} {x : ℚ} (h : Win w s) : Win (winInsert w x) (s ++ [x]) := by
  obtain ⟨hs, hp⟩ := h
  obtain ⟨h1, -, -⟩ := bisectRight_spec x hs
  obtain ⟨h2, h3⟩ := bisectRight_split x hs
  unfold winInsert
  set b := bisectRight w x
  have e : w.insertIdx b x = w.take b ++ x :: w.drop b := insertIdx_eq _ _ _ h1
  rw [e]
  rw [← List.take_append_drop b w] at hs
  obtain ⟨p1, p2, p3⟩ := List.pairwise_append.1 hs
  refine ⟨?_, ?_⟩
  · rw [List.pairwise_append]
    refine ⟨p1, List.pairwise_cons.2 ⟨fun y hy => (h3 y hy).le, p2⟩, ?_⟩
    intro a ha c hc
    rcases List.mem_cons.1 hc with rfl | hc
    · exact h2 a ha
    · exact p3 a ha c hc
  · refine List.perm_middle.trans ?_
    rw [List.take_append_drop]
    exact (hp.cons x).trans (List.perm_append_singleton x s).symm

theorem Win.delete {w s : List ℚ} {x : ℚ} (full : Bool) (h : Win w (x :: s)) : Win (winDelete full w x) s := by
  obtain ⟨hs, hp⟩ := h
  obtain ⟨h1, h2, h3⟩ := bisectRight_spec x hs
  obtain ⟨h4, h5⟩ := bisectRight_split x hs
  have hx : x ∈ w := hp.mem_iff.2 List.mem_cons_self
  unfold winDelete
  set b := bisectRight w x
  have hxt : x ∈ w.take b := by
    rw [← List.take_append_drop b w] at hx
    rcases List.mem_append.1 hx with h | h
    · exact h
    · exact absurd (h5 x h) (lt_irrefl _)
  have hb : 0 < b := by
    rcases Nat.eq_zero_or_pos b with h | h
    · rw [h] at hxt; simp at hxt
    · exact h
  rw [if_neg (by omega)]
  have hbl : b - 1 < w.length := by omega
  have hget : w[b - 1] = x := by
    apply le_antisymm
    · have := h2 (b - 1) (by omega)
      rw [List.getD_eq_getElem?_getD, List.getElem?_eq_getElem hbl] at this
      simpa using this
    · obtain ⟨i, hi, e⟩ := List.mem_iff_getElem.1 hxt
      have hi' : i < b ∧ i < w.length := by simpa using hi
      rw [List.getElem_take] at e
      rw [← e]
      rcases Nat.lt_or_ge i (b - 1) with hlt | hge
      · exact List.pairwise_iff_getElem.1 hs i (b - 1) hi'.2 hbl hlt
      · have : i = b - 1 := by omega
        subst this
        exact le_rfl
  refine ⟨hs.sublist (List.eraseIdx_sublist _ _), ?_⟩
  have := List.getElem_cons_eraseIdx_perm hbl
  rw [hget] at this
  exact (List.perm_cons x).1 (this.trans hp)

theorem Win.median {w s : List ℚ} (h : Win w s) (hne : s ≠ []) : IsMedian s (winMedian w) := by
  have hw : w ≠ [] := fun e => hne (by have := h.2; rw [e] at this; exact this.symm.eq_nil)
  exact (isMedian_sorted hw h.1).perm h.2

theorem getD_set {l : List ℚ} {i : Nat} (j : Nat) (v : ℚ) (hi : i < l.length) :
    (l.set i v).getD j 0 = if j = i then v else l.getD j 0 := by
  rw [List.getD_eq_getElem?_getD, List.getElem?_set]
  by_cases h : i = j
  · subst h; simp [hi]
  · rw [if_neg h, if_neg (Ne.symm h), List.getD_eq_getElem?_getD]

theorem mfHead_spec (half : Nat) (twoEnd : Bool) (rest : List ℚ) (s w ans : List ℚ) (hw : Win w s)
    (hl : s.length + rest.length ≤ ans.length + half) :
    Win (mfHead half twoEnd rest s.length w ans).1 (s ++ rest) ∧
      (mfHead half twoEnd rest s.length w ans).2.length = ans.length ∧
      ∀ j, if twoEnd = true ∧ s.length ≤ j + half ∧ j + half < s.length + rest.length
        then IsMedian ((s ++ rest).take (j + half + 1)) ((mfHead half twoEnd rest s.length w ans).2.getD j 0)
        else (mfHead half twoEnd rest s.length w ans).2.getD j 0 = ans.getD j 0 := by
  induction rest generalizing s w ans with
  | nil =>
    refine ⟨by simpa [mfHead] using hw, rfl, ?_⟩
    intro j
    rw [if_neg (by simp)]
    rfl
  | cons x t ih =>
    rw [mfHead]
    have hw' : Win (winInsert w x) (s ++ [x]) := hw.insert
    have hlen : (s ++ [x]).length = s.length + 1 := by simp
    have hl' : s.length + (t.length + 1) ≤ ans.length + half := by simpa using hl
    have happ : s ++ [x] ++ t = s ++ x :: t := by simp
    set ans' := if half ≤ s.length ∧ twoEnd = true then ans.set (s.length - half) (winMedian (winInsert w x)) else ans
      with hans
    have hal : ans'.length = ans.length := by
      rw [hans]; split <;> simp
    obtain ⟨h1, h2, h3⟩ := ih (s ++ [x]) (winInsert w x) ans' hw' (by rw [hlen, hal]; omega)
    rw [hlen] at h2
    simp only [hlen, happ] at h1 h3
    refine ⟨h1, h2.trans hal, ?_⟩
    intro j
    have h3 := h3 j
    simp only [List.length_cons]
    by_cases hc : twoEnd = true ∧ s.length + 1 ≤ j + half ∧ j + half < s.length + 1 + t.length
    · rw [if_pos hc] at h3
      rw [if_pos ⟨hc.1, by omega, by omega⟩]
      exact h3
    · rw [if_neg hc] at h3
      rw [h3]
      by_cases hc2 : twoEnd = true ∧ s.length ≤ j + half ∧ j + half < s.length + (t.length + 1)
      · rw [if_pos hc2]
        have hj : j + half = s.length := by
          by_contra hne
          exact hc ⟨hc2.1, by omega, by omega⟩
        rw [hans, if_pos ⟨by omega, hc2.1⟩, getD_set j _ (by omega), if_pos (by omega)]
        have : (s ++ x :: t).take (j + half + 1) = s ++ [x] := by
          rw [hj, ← happ, ← hlen, List.take_left']
          rfl
        rw [this]
        exact hw'.median (by simp)
      · rw [if_neg hc2, hans]
        split
        · rename_i hc3
          rw [getD_set j _ (by omega), if_neg]
          intro e
          exact hc2 ⟨hc3.2, by omega, by omega⟩
        · rfl

/-- the values at distance at most `half` from position `i` -/
theorem around_cons {half i : Nat} {val : List ℚ} (hi : half < i) (hl : i + half < val.length) :
    around half val (i - 1) = val.getD (i - half - 1) 0 :: (val.take (i + half)).drop (i - half) ∧
      around half val i = (val.take (i + half)).drop (i - half) ++ [val.getD (i + half) 0] := by
  unfold around
  constructor
  · rw [show i - 1 + half + 1 = i + half by omega, show i - 1 - half = i - half - 1 by omega]
    rw [List.drop_eq_getElem_cons (by simp; omega), List.getElem_take, show i - half - 1 + 1 = i - half by omega,
      List.getD_eq_getElem?_getD, List.getElem?_eq_getElem (by omega)]
    rfl
  · rw [List.take_succ_eq_append_getElem hl, List.drop_append_of_le_length (by simp; omega),
      List.getD_eq_getElem?_getD, List.getElem?_eq_getElem hl]
    rfl

theorem mfMid_spec (half : Nat) (val : List ℚ) (n i : Nat) (w ans : List ℚ) (hi : half < i)
    (hn : i + n + half ≤ val.length) (hl : ans.length = val.length) (hw : Win w (around half val (i - 1))) :
    Win (mfMid half val n i w ans).1 (around half val (i + n - 1)) ∧
      (mfMid half val n i w ans).2.length = ans.length ∧
      ∀ j, if i ≤ j ∧ j < i + n then IsMedian (around half val j) ((mfMid half val n i w ans).2.getD j 0)
        else (mfMid half val n i w ans).2.getD j 0 = ans.getD j 0 := by
  induction n generalizing i w ans with
  | zero =>
    refine ⟨by simpa [mfMid] using hw, rfl, ?_⟩
    intro j
    rw [if_neg (by omega)]
    rfl
  | succ n ih =>
    rw [mfMid]
    obtain ⟨e1, e2⟩ := around_cons (val := val) hi (by omega)
    rw [e1] at hw
    have hw2 := (hw.delete true).insert (x := val.getD (i + half) 0)
    rw [← e2] at hw2
    obtain ⟨h1, h2, h3⟩ := ih (i + 1) _ (ans.set i (winMedian (winInsert (winDelete true w (val.getD (i - half - 1) 0))
      (val.getD (i + half) 0)))) (by omega) (by omega) (by simpa using hl) hw2
    refine ⟨by rw [show i + (n + 1) - 1 = i + 1 + n - 1 by omega]; exact h1, by rw [h2]; simp, ?_⟩
    intro j
    have h3 := h3 j
    by_cases hc : i + 1 ≤ j ∧ j < i + 1 + n
    · rw [if_pos hc] at h3
      rw [if_pos ⟨by omega, by omega⟩]
      exact h3
    · rw [if_neg hc] at h3
      rw [h3, getD_set j _ (by omega)]
      by_cases hj : j = i
      · subst hj
        rw [if_pos ⟨le_rfl, by omega⟩, if_pos rfl]
        exact hw2.median (by rw [e2]; simp)
      · rw [if_neg (by omega), if_neg hj]

theorem mfTail_spec (half : Nat) (data : List ℚ) (n i : Nat) (w ans : List ℚ) (hi : half < i)
    (hn : i + n = data.length) (hl : ans.length = data.length) (hw : Win w (data.drop (i - half - 1))) :
    (mfTail half data n i w ans).length = ans.length ∧
      ∀ j, if i ≤ j ∧ j < data.length then IsMedian (data.drop (j - half)) ((mfTail half data n i w ans).getD j 0)
        else (mfTail half data n i w ans).getD j 0 = ans.getD j 0 := by
  induction n generalizing i w ans with
  | zero =>
    refine ⟨rfl, ?_⟩
    intro j
    rw [if_neg (by omega)]
    rfl
  | succ n ih =>
    rw [mfTail]
    have e : data.drop (i - half - 1) = data.getD (i - half - 1) 0 :: data.drop (i - half) := by
      rw [List.drop_eq_getElem_cons (by omega), show i - half - 1 + 1 = i - half by omega,
        List.getD_eq_getElem?_getD, List.getElem?_eq_getElem (by omega)]
      rfl
    rw [e] at hw
    have hw2 := hw.delete (decide (w.length = half * 2 + 1))
    obtain ⟨h2, h3⟩ := ih (i + 1) _ (ans.set i (winMedian (winDelete (decide (w.length = half * 2 + 1)) w
      (data.getD (i - half - 1) 0)))) (by omega) (by omega) (by simpa using hl)
      (by rw [show i + 1 - half - 1 = i - half by omega]; exact hw2)
    refine ⟨by rw [h2]; simp, ?_⟩
    intro j
    have h3 := h3 j
    by_cases hc : i + 1 ≤ j ∧ j < data.length
    · rw [if_pos hc] at h3
      rw [if_pos ⟨by omega, by omega⟩]
      exact h3
    · rw [if_neg hc] at h3
      rw [h3, getD_set j _ (by omega)]
      by_cases hj : j = i
      · subst hj
        rw [if_pos ⟨le_rfl, by omega⟩, if_pos rfl]
        refine hw2.median ?_
        intro hc
        have := congrArg List.length hc
        simp at this
        omega
      · rw [if_neg (by omega), if_neg hj]

/-- the tail loop leaves the positions before it alone, whatever it deletes -/
theorem mfTail_before (half : Nat) (data : List ℚ) (n i : Nat) (w ans : List ℚ) :
    (mfTail half data n i w ans).length = ans.length ∧
      ∀ j, j < i → (mfTail half data n i w ans).getD j 0 = ans.getD j 0 := by
  induction n generalizing i w ans with
  | zero => exact ⟨rfl, fun j _ => rfl⟩
  | succ n ih =>
    rw [mfTail]
    obtain ⟨h1, h2⟩ := ih (i + 1) (winDelete (decide (w.length = half * 2 + 1)) w (data.getD (i - half - 1) 0))
      (ans.set i (winMedian (winDelete (decide (w.length = half * 2 + 1)) w (data.getD (i - half - 1) 0))))
    refine ⟨by rw [h1]; simp, ?_⟩
    intro j hj
    rw [h2 j (by omega), List.getD_eq_getElem?_getD, List.getElem?_set_ne (by omega), ← List.getD_eq_getElem?_getD]

/-- state before the tail loop -/
theorem medianFilter_core {f32 : ℚ → ℚ} {data : List ℚ} {window : Nat} (twoEnd : Bool)
    (hl : window / 2 * 2 + 1 ≤ data.length) :
    ∃ w ans, medianFilter f32 data window twoEnd =
        (if twoEnd then mfTail (window / 2) data (window / 2) (data.length - window / 2) w ans else ans) ∧
      ans.length = data.length ∧ Win w (around (window / 2) (data.map f32) (data.length - window / 2 - 1)) ∧
      ∀ j, if j + window / 2 < data.length ∧ (window / 2 ≤ j ∨ twoEnd = true)
        then IsMedian (around (window / 2) (data.map f32) j) (ans.getD j 0)
        else ans.getD j 0 = (data.map f32).getD j 0 := by
  set half := window / 2 with hh
  set val := data.map f32 with hv
  have hvl : val.length = data.length := by simp [hv]
  obtain ⟨a1, a2, a3⟩ := mfHead_spec half twoEnd (val.take (half * 2 + 1)) [] [] val ⟨.nil, .refl _⟩
    (by simp)
  simp only [List.nil_append, List.length_nil, Nat.zero_add] at a1 a2 a3
  have htl : (val.take (half * 2 + 1)).length = half * 2 + 1 := by simp; omega
  rw [htl] at a3
  set r1 := mfHead half twoEnd (val.take (half * 2 + 1)) 0 [] val with hr1
  have haround : around half val half = val.take (half * 2 + 1) := by
    unfold around
    rw [Nat.sub_self, List.drop_zero, show half + half + 1 = half * 2 + 1 by omega]
  have hmed : IsMedian (around half val half) (winMedian r1.1) := by
    rw [haround]
    refine a1.median ?_
    intro hc
    rw [hc] at htl
    simp at htl
  obtain ⟨b1, b2, b3⟩ := mfMid_spec half val (data.length - half - (half + 1)) (half + 1) r1.1
    (r1.2.set half (winMedian r1.1)) (by omega) (by omega) (by rw [List.length_set, a2])
    (by rw [Nat.add_sub_cancel, haround]; exact a1)
  set r2 := mfMid half val (data.length - half - (half + 1)) (half + 1) r1.1 (r1.2.set half (winMedian r1.1)) with hr2
  refine ⟨r2.1, r2.2, ?_, by rw [b2, List.length_set, a2, hvl], ?_, ?_⟩
  · unfold medianFilter
    dsimp only
    rw [← hh, ← hv, if_neg (by omega)]
  · rw [show half + 1 + (data.length - half - (half + 1)) - 1 = data.length - half - 1 by omega] at b1
    exact b1
  · intro j
    have b3 := b3 j
    have a3 := a3 j
    by_cases h1 : half + 1 ≤ j ∧ j < half + 1 + (data.length - half - (half + 1))
    · rw [if_pos h1] at b3
      rw [if_pos ⟨by omega, by omega⟩]
      exact b3
    · rw [if_neg h1] at b3
      rw [b3, getD_set j _ (by rw [a2]; omega)]
      by_cases hj : j = half
      · subst hj
        rw [if_pos ⟨by omega, .inl le_rfl⟩, if_pos rfl]
        exact hmed
      · rw [if_neg hj]
        by_cases h2 : j + half < data.length ∧ (half ≤ j ∨ twoEnd = true)
        · rw [if_pos h2]
          have ht : twoEnd = true := by
            rcases h2.2 with h | h
            · omega
            · exact h
          have hjh : j < half := by omega
          rw [if_pos ⟨ht, by omega, by omega⟩, List.take_take, min_eq_left (by omega)] at a3
          unfold around
          rw [show j - half = 0 by omega, List.drop_zero]
          exact a3
        · rw [if_neg h2]
          by_cases h3 : twoEnd = true ∧ 0 ≤ j + half ∧ j + half < half * 2 + 1
          · exfalso
            exact h2 ⟨by omega, .inr h3.1⟩
          · rw [if_neg h3] at a3
            exact a3

/-- **C35** (short input): an array shorter than the window is returned unchanged (as float32). -/
theorem C35_short {f32 : ℚ → ℚ} {data : List ℚ} {window : Nat} (twoEnd : Bool)
    (hl : data.length < window / 2 * 2 + 1) : medianFilter f32 data window twoEnd = data.map f32 := by
  unfold medianFilter
  dsimp only
  rw [if_pos hl]

/-- **C35** (moving median): the entry at distance at least `window // 2` from both ends is the median of the centred
window. With `need_two_end` this also holds at the start, where the window is cut off; without it the entries near the
ends are the input. The length is preserved. -/
theorem C35_moving_median {f32 : ℚ → ℚ} {data : List ℚ} {window : Nat} (twoEnd : Bool)
    (hl : window / 2 * 2 + 1 ≤ data.length) :
    (medianFilter f32 data window twoEnd).length = data.length ∧
    (∀ i, i + window / 2 < data.length → window / 2 ≤ i ∨ twoEnd = true →
      IsMedian (around (window / 2) (data.map f32) i) ((medianFilter f32 data window twoEnd).getD i 0)) ∧
    ∀ i, twoEnd = false → i < window / 2 ∨ data.length ≤ i + window / 2 →
      (medianFilter f32 data window twoEnd).getD i 0 = (data.map f32).getD i 0 := by
  obtain ⟨w, ans, e, h1, -, h3⟩ := medianFilter_core (f32 := f32) twoEnd hl
  rw [e]
  refine ⟨?_, ?_, ?_⟩
  · split
    · rw [(mfTail_before ..).1, h1]
    · exact h1
  · intro i hi hc
    have := h3 i
    rw [if_pos ⟨hi, hc⟩] at this
    split
    · rw [(mfTail_before ..).2 i (by omega)]
      exact this
    · exact this
  · rintro i rfl hi
    have := h3 i
    rw [if_neg (by simp; omega)] at this
    simpa using this

/-- **C35** (end of the array): with `need_two_end` and an array of float32 values every entry is the median of the
centred window, cut off at both ends. -/
theorem C35_two_end {f32 : ℚ → ℚ} {data : List ℚ} {window : Nat} (hl : window / 2 * 2 + 1 ≤ data.length)
    (hx : ∀ x ∈ data, f32 x = x) {i : Nat} (hi : i < data.length) :
    IsMedian (around (window / 2) data i) ((medianFilter f32 data window true).getD i 0) := by
  have hv : data.map f32 = data := by
    conv_rhs => rw [← List.map_id data]
    exact List.map_congr_left hx
  rcases Nat.lt_or_ge (i + window / 2) data.length with h | h
  · have := (C35_moving_median (f32 := f32) true hl).2.1 i h (.inr rfl)
    rw [hv] at this
    exact this
  · obtain ⟨w, ans, e, h1, h2, h3⟩ := medianFilter_core (f32 := f32) true hl
    rw [e, if_pos rfl]
    rw [hv] at h2
    have hdrop : ∀ j, data.length ≤ j + window / 2 + 1 → around (window / 2) data j = data.drop (j - window / 2) := by
      intro j hj
      unfold around
      rw [List.take_of_length_le (by omega)]
    rw [hdrop _ (by omega)] at h2
    rw [hdrop _ (by omega)]
    rcases Nat.eq_zero_or_pos (window / 2) with h0 | h0
    · omega
    · have := (mfTail_spec (window / 2) data (window / 2) (data.length - window / 2) w ans (by omega) (by omega) h1
        (by rw [show data.length - window / 2 - window / 2 - 1 = data.length - window / 2 - 1 - window / 2 by omega]
            exact h2)).2 i
      rw [if_pos ⟨by omega, hi⟩] at this
      exact this

/-- **C35** (end of the array, counterexample): the last loop looks for the value to drop with its double, not its
float32 representation. When rounding goes up, as for 0.1, it drops another value and the last entry is wrong: here
the two values in the last window are 5 and 7, and the result is 2.55. -/
theorem C35_two_end_rounding {f32 : ℚ → ℚ} (h1 : f32 (1 / 10) = 13421773 / 134217728) (h2 : f32 5 = 5)
    (h3 : f32 7 = 7) :
    (medianFilter f32 [1 / 10, 5, 7] 3 true).getD 2 0 ≠ 6 ∧
      IsMedian (around 1 ([1 / 10, 5, 7].map f32) 2) 6 := by
  have hm : [1 / 10, 5, 7].map f32 = [13421773 / 134217728, 5, 7] := by simp only [List.map_cons, List.map_nil, h1, h2, h3]
  constructor
  · unfold medianFilter
    rw [hm]
    decide +kernel
  · rw [hm]
    exact .inr ⟨rfl, 5, 7, ⟨[5, 7], .refl _, by decide +kernel, rfl⟩, ⟨[5, 7], .refl _, by decide +kernel, rfl⟩,
      by norm_num⟩

/-! ### concrete cases -/

example : averageFilter [1, 2, 3, 4, 8] 3 false = [1, 3 / 2, 2, 3, 5] := by decide +kernel

example : averageFilter [1, 2, 3, 4, 8] 4 true = [1, 5 / 4, 15 / 8, 5 / 2, 17 / 4] := by decide +kernel

example : medianFilter id [5, 1, 4, 4, 9, 2] 3 true = [3, 4, 4, 4, 4, 11 / 2] := by decide +kernel

example : medianFilter id [5, 1, 4, 4, 9, 2] 4 false = [5, 1, 4, 4, 9, 2] := by decide +kernel

end Verif
