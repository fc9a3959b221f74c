import Verif.Props.Median

/-!
# Median absolute deviation by binary search (C36)
-/

namespace Verif

open Spec

/-- the largest value of the lower part has rank `|L| - 1` -/
theorem isRank_top {L R : List ℚ} {v : ℚ} (hv : v ∈ L) (hmax : ∀ x ∈ L, x ≤ v) (hLR : ∀ x ∈ L, ∀ y ∈ R, x ≤ y) :
    IsRank (L ++ R) (L.length - 1) v := by
  have h := isRank_of_split (l := L.erase v) (r := R) (v := v) (fun x hx => hmax x (List.mem_of_mem_erase hx))
    (fun y hy => hLR v hv y hy)
  rw [List.length_erase_of_mem hv] at h
  refine h.perm ?_
  have : (L.erase v ++ v :: R).Perm (v :: (L.erase v ++ R)) := List.perm_middle
  refine this.trans ?_
  rw [← List.cons_append]
  exact (List.perm_cons_erase hv).symm.append_right R

/-- the smallest value of the upper part has rank `|L|` -/
theorem isRank_bottom {L R : List ℚ} {v : ℚ} (hv : v ∈ R) (hmin : ∀ x ∈ R, v ≤ x) (hLR : ∀ x ∈ L, ∀ y ∈ R, x ≤ y) :
    IsRank (L ++ R) L.length v := by
  refine (isRank_of_split (l := L) (r := R.erase v) (v := v) (fun x hx => hLR x hx v hv)
    (fun y hy => hmin y (List.mem_of_mem_erase hy))).perm ?_
  exact (List.perm_cons_erase hv).symm.append_left L

theorem mvGet_nat {d : List ℚ} {k : Nat} (h : k < d.length) : mvGet d (k : Int) = .ok (d.getD k 0) := by
  unfold mvGet
  have h1 : ¬ ((k : Int) < 0) := by omega
  dsimp only
  rw [if_neg h1, if_neg h1, Int.toNat_natCast, List.getElem?_eq_getElem h, List.getD_eq_getElem?_getD,
    List.getElem?_eq_getElem h]
  rfl

theorem getD_map_dev (l : List ℚ) (med : ℚ) {i : Nat} (h : i < l.length) :
    |l.getD i 0 - med| = (l.map fun x => |x - med|)[i]'(by simpa using h) := by
  rw [List.getElem_map, List.getD_eq_getElem?_getD, List.getElem?_eq_getElem h]; rfl

theorem mem_take_dev {l : List ℚ} {med x : ℚ} {i : Nat} (h : x ∈ ((l.map fun x => |x - med|).take i)) :
    ∃ k, k < i ∧ k < l.length ∧ x = |l.getD k 0 - med| := by
  obtain ⟨k, hk, rfl⟩ := List.mem_iff_getElem.1 h
  rw [List.length_take, List.length_map] at hk
  refine ⟨k, by omega, by omega, ?_⟩
  rw [List.getElem_take, getD_map_dev l med (by omega)]

theorem mem_drop_dev {l : List ℚ} {med x : ℚ} {i : Nat} (h : x ∈ ((l.map fun x => |x - med|).drop i)) :
    ∃ k, i ≤ k ∧ k < l.length ∧ x = |l.getD k 0 - med| := by
  obtain ⟨k, hk, rfl⟩ := List.mem_iff_getElem.1 h
  rw [List.length_drop, List.length_map] at hk
  refine ⟨i + k, by omega, by omega, ?_⟩
  rw [List.getElem_drop, getD_map_dev l med (by omega)]

theorem dev_mem_take {l : List ℚ} {med : ℚ} {i k : Nat} (h : k < i) (hk : k < l.length) :
    |l.getD k 0 - med| ∈ ((l.map fun x => |x - med|).take i) := by
  rw [getD_map_dev l med hk]
  rw [List.mem_iff_getElem]
  exact ⟨k, by simp; omega, by rw [List.getElem_take]⟩

theorem dev_mem_drop {l : List ℚ} {med : ℚ} {i k : Nat} (h : i ≤ k) (hk : k < l.length) :
    |l.getD k 0 - med| ∈ ((l.map fun x => |x - med|).drop i) := by
  rw [getD_map_dev l med hk]
  rw [List.mem_iff_getElem]
  exact ⟨k - i, by simp; omega, by rw [List.getElem_drop]; simp only [show i + (k - i) = k by omega]⟩

section
variable {a b : List ℚ} {med : ℚ}

/-- deviations are in ascending order -/
def DevAsc (l : List ℚ) (med : ℚ) : Prop :=
  ∀ i j, i ≤ j → j < l.length → |l.getD i 0 - med| ≤ |l.getD j 0 - med|

/-- at the split found by the search the computed value is the median -/
theorem fmsa_found (hn : b.length = a.length ∨ b.length = a.length + 1) (hb0 : 0 < b.length)
    (ha : DevAsc a med) (hb : DevAsc b med) {i : Nat} (hi : i ≤ a.length)
    (hns : i < a.length → |b.getD (b.length - i - 1) 0 - med| ≤ |a.getD i 0 - med|)
    (hnb : 0 < i → |a.getD (i - 1) 0 - med| ≤ |b.getD (b.length - i) 0 - med|) :
    let j := b.length - i
    let maxLeft := if i = 0 then |b.getD (j - 1) 0 - med| else if j = 0 then |a.getD (i - 1) 0 - med|
      else max |a.getD (i - 1) 0 - med| |b.getD (j - 1) 0 - med|
    let minRight := if i = a.length then |b.getD j 0 - med| else if j = b.length then |a.getD i 0 - med|
      else min |a.getD i 0 - med| |b.getD j 0 - med|
    IsMedian ((a ++ b).map fun x => |x - med|)
      (if (a.length + b.length) % 2 = 1 then maxLeft else (maxLeft + minRight) / 2) := by
  intro j maxLeft minRight
  have hj : j ≤ b.length := by omega
  have hjd : j = b.length - i := rfl
  set fa := a.map fun x => |x - med| with hfa
  set fb := b.map fun x => |x - med| with hfb
  have lfa : fa.length = a.length := by simp [hfa]
  have lfb : fb.length = b.length := by simp [hfb]
  let L := fa.take i ++ fb.take j
  let R := fa.drop i ++ fb.drop j
  have hlenL : L.length = b.length := by
    simp only [L, List.length_append, List.length_take, lfa, lfb]
    omega
  have hperm : (L ++ R).Perm ((a ++ b).map fun x => |x - med|) := by
    have e : (a ++ b).map (fun x => |x - med|) = fa.take i ++ (fa.drop i ++ (fb.take j ++ fb.drop j)) := by
      rw [List.map_append, List.take_append_drop, ← List.append_assoc, List.take_append_drop]
    rw [e]
    simp only [L, R, List.append_assoc]
    apply List.Perm.append_left
    rw [← List.append_assoc, ← List.append_assoc]
    exact List.perm_append_comm.append_right _
  have hLR : ∀ x ∈ L, ∀ y ∈ R, x ≤ y := by
    intro x hx y hy
    rcases List.mem_append.1 hx with hx | hx <;> rcases List.mem_append.1 hy with hy | hy
    · obtain ⟨k, k1, k2, rfl⟩ := mem_take_dev hx
      obtain ⟨k', k1', k2', rfl⟩ := mem_drop_dev hy
      exact ha k k' (by omega) k2'
    · obtain ⟨k, k1, k2, rfl⟩ := mem_take_dev hx
      obtain ⟨k', k1', k2', rfl⟩ := mem_drop_dev hy
      exact (ha k (i - 1) (by omega) (by omega)).trans ((hnb (by omega)).trans (hb _ k' (by omega) k2'))
    · obtain ⟨k, k1, k2, rfl⟩ := mem_take_dev hx
      obtain ⟨k', k1', k2', rfl⟩ := mem_drop_dev hy
      exact (hb k (b.length - i - 1) (by omega) (by omega)).trans ((hns (by omega)).trans (ha i k' k1' k2'))
    · obtain ⟨k, k1, k2, rfl⟩ := mem_take_dev hx
      obtain ⟨k', k1', k2', rfl⟩ := mem_drop_dev hy
      exact hb k k' (by omega) k2'
  have hmaxmem : maxLeft ∈ L ∧ ∀ x ∈ L, x ≤ maxLeft := by
    by_cases h0 : i = 0
    · have e : maxLeft = |b.getD (j - 1) 0 - med| := by simp only [maxLeft, if_pos h0]
      rw [e]
      refine ⟨List.mem_append_right _ (dev_mem_take (by omega) (by omega)), ?_⟩
      intro x hx
      rcases List.mem_append.1 hx with hx | hx
      · obtain ⟨k, k1, -, -⟩ := mem_take_dev hx
        omega
      · obtain ⟨k, k1, k2, rfl⟩ := mem_take_dev hx
        exact hb k (j - 1) (by omega) (by omega)
    · by_cases hj0 : j = 0
      · have e : maxLeft = |a.getD (i - 1) 0 - med| := by simp only [maxLeft, if_neg h0, if_pos hj0]
        rw [e]
        refine ⟨List.mem_append_left _ (dev_mem_take (by omega) (by omega)), ?_⟩
        intro x hx
        rcases List.mem_append.1 hx with hx | hx
        · obtain ⟨k, k1, k2, rfl⟩ := mem_take_dev hx
          exact ha k (i - 1) (by omega) (by omega)
        · obtain ⟨k, k1, -, -⟩ := mem_take_dev hx
          omega
      · have e : maxLeft = max |a.getD (i - 1) 0 - med| |b.getD (j - 1) 0 - med| := by
          simp only [maxLeft, if_neg h0, if_neg hj0]
        rw [e]
        constructor
        · rcases max_choice |a.getD (i - 1) 0 - med| |b.getD (j - 1) 0 - med| with h | h <;> rw [h]
          · exact List.mem_append_left _ (dev_mem_take (by omega) (by omega))
          · exact List.mem_append_right _ (dev_mem_take (by omega) (by omega))
        · intro x hx
          rcases List.mem_append.1 hx with hx | hx
          · obtain ⟨k, k1, k2, rfl⟩ := mem_take_dev hx
            exact le_max_of_le_left (ha k (i - 1) (by omega) (by omega))
          · obtain ⟨k, k1, k2, rfl⟩ := mem_take_dev hx
            exact le_max_of_le_right (hb k (j - 1) (by omega) (by omega))
  have hr1 := (isRank_top hmaxmem.1 hmaxmem.2 hLR).perm hperm
  rw [hlenL] at hr1
  split
  · rename_i ho
    left
    have hl : ((a ++ b).map fun x => |x - med|).length = a.length + b.length := by simp
    refine ⟨by rw [hl]; exact ho, ?_⟩
    rw [hl, show (a.length + b.length) / 2 = b.length - 1 by omega]
    exact hr1
  · rename_i he
    have hl : ((a ++ b).map fun x => |x - med|).length = a.length + b.length := by simp
    have hminmem : minRight ∈ R ∧ ∀ x ∈ R, minRight ≤ x := by
      by_cases h0 : i = a.length
      · have e : minRight = |b.getD j 0 - med| := by simp only [minRight, if_pos h0]
        rw [e]
        refine ⟨List.mem_append_right _ (dev_mem_drop (by omega) (by omega)), ?_⟩
        intro x hx
        rcases List.mem_append.1 hx with hx | hx
        · obtain ⟨k, k1, k2, -⟩ := mem_drop_dev hx
          omega
        · obtain ⟨k, k1, k2, rfl⟩ := mem_drop_dev hx
          exact hb j k (by omega) (by omega)
      · by_cases hj0 : j = b.length
        · have e : minRight = |a.getD i 0 - med| := by simp only [minRight, if_neg h0, if_pos hj0]
          rw [e]
          refine ⟨List.mem_append_left _ (dev_mem_drop (by omega) (by omega)), ?_⟩
          intro x hx
          rcases List.mem_append.1 hx with hx | hx
          · obtain ⟨k, k1, k2, rfl⟩ := mem_drop_dev hx
            exact ha i k (by omega) (by omega)
          · obtain ⟨k, k1, k2, -⟩ := mem_drop_dev hx
            omega
        · have e : minRight = min |a.getD i 0 - med| |b.getD j 0 - med| := by
            simp only [minRight, if_neg h0, if_neg hj0]
          rw [e]
          constructor
          · rcases min_choice |a.getD i 0 - med| |b.getD j 0 - med| with h | h <;> rw [h]
            · exact List.mem_append_left _ (dev_mem_drop (by omega) (by omega))
            · exact List.mem_append_right _ (dev_mem_drop (by omega) (by omega))
          · intro x hx
            rcases List.mem_append.1 hx with hx | hx
            · obtain ⟨k, k1, k2, rfl⟩ := mem_drop_dev hx
              exact min_le_of_left_le (ha i k (by omega) (by omega))
            · obtain ⟨k, k1, k2, rfl⟩ := mem_drop_dev hx
              exact min_le_of_right_le (hb j k (by omega) (by omega))
    have hr2 := (isRank_bottom hminmem.1 hminmem.2 hLR).perm hperm
    rw [hlenL] at hr2
    right
    refine ⟨by rw [hl]; omega, maxLeft, minRight, ?_, ?_, rfl⟩
    · rw [hl, show (a.length + b.length) / 2 - 1 = b.length - 1 by omega]
      exact hr1
    · rw [hl, show (a.length + b.length) / 2 = b.length by omega]
      exact hr2

/-- the search keeps a correct split between its bounds, stays in range and ends with the median -/
theorem fmsaLoop_spec (hn : b.length = a.length ∨ b.length = a.length + 1) (hb0 : 0 < b.length)
    (ha : DevAsc a med) (hb : DevAsc b med) (fuel lo hi : Nat) (hlo : lo ≤ a.length) (hhi : hi ≤ a.length)
    (hlh : lo ≤ hi + 1) (hf : hi + 1 < fuel + lo)
    (hl : lo = 0 ∨ |a.getD (lo - 1) 0 - med| < |b.getD (b.length - lo) 0 - med|)
    (hh : hi = a.length ∨ |b.getD (b.length - hi - 1) 0 - med| < |a.getD hi 0 - med|) :
    ∃ r, fmsaLoop a b med fuel lo hi = .ok r ∧ IsMedian ((a ++ b).map fun x => |x - med|) r := by
  have hle : lo ≤ hi := by
    by_contra hc
    obtain rfl : lo = hi + 1 := by omega
    rcases hl with hl | hl
    · omega
    · rcases hh with hh | hh
      · omega
      · rw [show hi + 1 - 1 = hi by omega, show b.length - (hi + 1) = b.length - hi - 1 by omega] at hl
        exact lt_asymm hl hh
  induction fuel generalizing lo hi with
  | zero => omega
  | succ fuel ih =>
    set i := (lo + hi) / 2 with hidef
    have hi1 : lo ≤ i := by omega
    have hi2 : i ≤ hi := by omega
    have ei : ((lo : Int) + hi) / 2 = (i : Int) := by omega
    have ej : ((a.length : Int) + b.length + 1) / 2 - (i : Int) = ((b.length - i : Nat) : Int) := by
      have h1 : i ≤ b.length := by omega
      rcases hn with hn | hn <;> rw [hn] at h1 ⊢ <;> clear_value i <;> omega
    rw [fmsaLoop, if_pos (by omega)]
    dsimp only
    rw [ei, ej]
    have em : i < b.length → (((b.length - i : Nat) : Int) - 1) = ((b.length - i - 1 : Nat) : Int) := by omega
    have hsmall : fmsaSmall a b med i ((b.length - i : Nat) : Int) =
        .ok (decide (i < a.length ∧ |a.getD i 0 - med| < |b.getD (b.length - i - 1) 0 - med|)) := by
      unfold fmsaSmall
      split
      · rename_i h
        rw [em (by omega), mvGet_nat (by omega), mvGet_nat (by omega)]
        have : i < a.length := by omega
        simp [bind, Except.bind, pure, Except.pure, this]
      · rename_i h
        have : ¬ i < a.length := by omega
        simp [pure, Except.pure, this]
    have hbig : fmsaBig a b med i ((b.length - i : Nat) : Int) =
        .ok (decide (0 < i ∧ |b.getD (b.length - i) 0 - med| < |a.getD (i - 1) 0 - med|)) := by
      unfold fmsaBig
      split
      · rename_i h
        rw [show ((i : Int) - 1) = ((i - 1 : Nat) : Int) by omega, mvGet_nat (by omega), mvGet_nat (by omega)]
        have : 0 < i := by omega
        simp [bind, Except.bind, pure, Except.pure, this]
      · rename_i h
        have : ¬ 0 < i := by omega
        simp [pure, Except.pure, this]
    rw [hsmall]
    simp only [bind, Except.bind, decide_eq_true_eq]
    by_cases hsm : i < a.length ∧ |a.getD i 0 - med| < |b.getD (b.length - i - 1) 0 - med|
    · rw [if_pos hsm]
      have e2 : ((i : Int) + 1) = ((i + 1 : Nat) : Int) := by omega
      rw [e2]
      refine ih (i + 1) hi (by omega) hhi (by omega) (by omega)
        (Or.inr (by rw [show i + 1 - 1 = i by omega, show b.length - (i + 1) = b.length - i - 1 by omega]; exact hsm.2)) hh ?_
      by_contra hc
      have hieq : i = hi := by omega
      rcases hh with hh | hh
      · omega
      · rw [← hieq] at hh
        exact lt_asymm hh hsm.2
    · rw [if_neg hsm, hbig]
      dsimp only
      by_cases hbg : 0 < i ∧ |b.getD (b.length - i) 0 - med| < |a.getD (i - 1) 0 - med|
      · rw [if_pos (decide_eq_true hbg), show ((i : Int) - 1) = ((i - 1 : Nat) : Int) by omega]
        have hne : lo ≤ i - 1 := by
          by_contra hc
          have : lo = i := by omega
          rcases hl with hl | hl
          · omega
          · rw [this] at hl
            exact lt_asymm hl hbg.2
        exact ih lo (i - 1) hlo (by omega) (by omega) (by omega) hl
          (Or.inr (by rw [show b.length - (i - 1) - 1 = b.length - i by omega]; exact hbg.2)) hne
      · rw [if_neg (by simpa using hbg)]
        have hfound := fmsa_found hn hb0 ha hb (i := i) (by omega)
          (fun h => not_lt.1 fun hc => hsm ⟨h, hc⟩) (fun h => not_lt.1 fun hc => hbg ⟨h, hc⟩)
        dsimp only at hfound
        refine ⟨_, ?_, hfound⟩
        have eml : fmsaMaxLeft a b med i ((b.length - i : Nat) : Int) =
            .ok (if i = 0 then |b.getD (b.length - i - 1) 0 - med|
              else if b.length - i = 0 then |a.getD (i - 1) 0 - med|
              else max |a.getD (i - 1) 0 - med| |b.getD (b.length - i - 1) 0 - med|) := by
          unfold fmsaMaxLeft
          by_cases h0 : i = 0
          · rw [if_pos (by omega), if_pos h0, em (by omega), mvGet_nat (by omega)]
            rfl
          · rw [if_neg (by omega), if_neg h0, show ((i : Int) - 1) = ((i - 1 : Nat) : Int) by omega, mvGet_nat (by omega)]
            by_cases hj : b.length - i = 0
            · rw [if_pos (by omega), if_pos hj]; rfl
            · rw [if_neg (by omega), if_neg hj, em (by omega), mvGet_nat (by omega)]
              rfl
        have emr : (a.length + b.length) % 2 ≠ 1 → fmsaMinRight a b med i ((b.length - i : Nat) : Int) =
            .ok (if i = a.length then |b.getD (b.length - i) 0 - med|
              else if b.length - i = b.length then |a.getD i 0 - med|
              else min |a.getD i 0 - med| |b.getD (b.length - i) 0 - med|) := by
          intro hp
          unfold fmsaMinRight
          by_cases h0 : i = a.length
          · rw [if_pos (by omega), if_pos h0, mvGet_nat (by omega)]; rfl
          · rw [if_neg (by omega), if_neg h0, mvGet_nat (by omega)]
            by_cases hj : b.length - i = b.length
            · rw [if_pos (by omega), if_pos hj]; rfl
            · rw [if_neg (by omega), if_neg hj, mvGet_nat (by omega)]; rfl
        rw [eml]
        dsimp only
        by_cases hp : (a.length + b.length) % 2 = 1
        · rw [if_pos (by omega), if_pos hp]; rfl
        · rw [if_neg (by omega), if_neg hp, emr hp]; rfl

end

/-- the median of a suffix of a sorted array -/
theorem sortedMedian_suffix {values : List ℚ} (hs : values.Pairwise (· ≤ ·) ∨ values.Pairwise (· ≥ ·)) {k : Nat}
    (hk : k < values.length) :
    ∃ m, sortedMedian values k values.length = .ok m ∧ IsMedian (values.drop k) m ∧
      (∀ i, k ≤ i → i < k + (values.length - k) / 2 →
        (values.Pairwise (· ≤ ·) → values.getD i 0 ≤ m) ∧ (values.Pairwise (· ≥ ·) → m ≤ values.getD i 0)) ∧
      (∀ i, k + (values.length - k) / 2 ≤ i → i < values.length →
        (values.Pairwise (· ≤ ·) → m ≤ values.getD i 0) ∧ (values.Pairwise (· ≥ ·) → values.getD i 0 ≤ m)) := by
  have mono : values.Pairwise (· ≤ ·) → ∀ i j, i ≤ j → j < values.length → values.getD i 0 ≤ values.getD j 0 := by
    intro h i j hij hj
    rw [List.getD_eq_getElem?_getD, List.getD_eq_getElem?_getD, List.getElem?_eq_getElem hj,
      List.getElem?_eq_getElem (by omega)]
    rcases eq_or_lt_of_le hij with rfl | hlt
    · exact le_rfl
    · exact List.pairwise_iff_getElem.1 h i j (by omega) hj hlt
  have anti : values.Pairwise (· ≥ ·) → ∀ i j, i ≤ j → j < values.length → values.getD j 0 ≤ values.getD i 0 := by
    intro h i j hij hj
    rw [List.getD_eq_getElem?_getD, List.getD_eq_getElem?_getD, List.getElem?_eq_getElem hj,
      List.getElem?_eq_getElem (by omega)]
    rcases eq_or_lt_of_le hij with rfl | hlt
    · exact le_rfl
    · exact List.pairwise_iff_getElem.1 h i j (by omega) hj hlt
  have rank : ∀ i, i < values.length - k → values.Pairwise (· ≤ ·) → IsRank (values.drop k) i (values.getD (k + i) 0) := by
    intro i hi h
    refine ⟨values.drop k, .refl _, h.sublist (List.drop_sublist _ _), ?_⟩
    rw [List.getElem?_drop, List.getD_eq_getElem?_getD, List.getElem?_eq_getElem (by omega)]; rfl
  have rank' : ∀ i, i < values.length - k → values.Pairwise (· ≥ ·) →
      IsRank (values.drop k) i (values.getD (values.length - 1 - i) 0) := by
    intro i hi h
    refine ⟨(values.drop k).reverse, List.reverse_perm _, ?_, ?_⟩
    · rw [List.pairwise_reverse]
      exact h.sublist (List.drop_sublist _ _)
    · rw [List.getElem?_reverse (by simpa using hi), List.length_drop, List.getElem?_drop,
        List.getD_eq_getElem?_getD, show k + (values.length - k - 1 - i) = values.length - 1 - i by omega,
        List.getElem?_eq_getElem (by omega)]
      rfl
  unfold sortedMedian
  dsimp only
  rw [if_neg (by omega)]
  by_cases hp : (values.length - k) % 2 = 1
  · rw [if_pos hp, mvGet_nat (by omega)]
    refine ⟨_, rfl, Or.inl ⟨by simpa using hp, ?_⟩, ?_, ?_⟩
    · rw [List.length_drop]
      rcases hs with h | h
      · exact rank _ (by omega) h
      · have := rank' ((values.length - k) / 2) (by omega) h
        rwa [show values.length - 1 - (values.length - k) / 2 = k + (values.length - k) / 2 by omega] at this
    · intro i h1 h2
      exact ⟨fun h => mono h _ _ (by omega) (by omega), fun h => anti h _ _ (by omega) (by omega)⟩
    · intro i h1 h2
      exact ⟨fun h => mono h _ _ (by omega) (by omega), fun h => anti h _ _ (by omega) (by omega)⟩
  · rw [if_neg hp, show (((k + (values.length - k) / 2 : Nat) : Int) - 1) = ((k + (values.length - k) / 2 - 1 : Nat) : Int) by omega,
      mvGet_nat (by omega), mvGet_nat (by omega)]
    refine ⟨_, rfl, Or.inr ⟨by simp; omega, ?_⟩, ?_, ?_⟩
    · rw [List.length_drop]
      rcases hs with h | h
      · refine ⟨_, _, rank ((values.length - k) / 2 - 1) (by omega) h, rank ((values.length - k) / 2) (by omega) h, ?_⟩
        rw [show k + ((values.length - k) / 2 - 1) = k + (values.length - k) / 2 - 1 by omega]
      · refine ⟨_, _, rank' ((values.length - k) / 2 - 1) (by omega) h, rank' ((values.length - k) / 2) (by omega) h, ?_⟩
        rw [show values.length - 1 - ((values.length - k) / 2 - 1) = k + (values.length - k) / 2 by omega,
          show values.length - 1 - ((values.length - k) / 2) = k + (values.length - k) / 2 - 1 by omega, add_comm]
    · intro i h1 h2
      refine ⟨fun h => ?_, fun h => ?_⟩
      · have u1 := mono h i (k + (values.length - k) / 2 - 1) (by omega) (by omega)
        have u2 := mono h i (k + (values.length - k) / 2) (by omega) (by omega)
        linarith
      · have u1 := anti h i (k + (values.length - k) / 2 - 1) (by omega) (by omega)
        have u2 := anti h i (k + (values.length - k) / 2) (by omega) (by omega)
        linarith
    · intro i h1 h2
      refine ⟨fun h => ?_, fun h => ?_⟩
      · have u1 := mono h (k + (values.length - k) / 2 - 1) i (by omega) (by omega)
        have u2 := mono h (k + (values.length - k) / 2) i (by omega) (by omega)
        linarith
      · have u1 := anti h (k + (values.length - k) / 2 - 1) i (by omega) (by omega)
        have u2 := anti h (k + (values.length - k) / 2) i (by omega) (by omega)
        linarith

/-- the first half of the suffix from `k`, backwards: `reverse_values[length-k-h : length-k]` -/
theorem reverse_slice {values : List ℚ} {k h : Nat} (hk : k + h ≤ values.length) :
    (values.reverse.drop (values.length - k - h)).take h = ((values.drop k).take h).reverse := by
  apply List.ext_getElem?
  intro i
  by_cases hi : i < h
  · rw [List.getElem?_take_of_lt hi, List.getElem?_drop, List.getElem?_reverse (by omega),
      List.getElem?_reverse (by simp; omega), List.length_take, List.length_drop, List.getElem?_take_of_lt (by omega),
      List.getElem?_drop]
    congr 1
    omega
  · rw [List.getElem?_eq_none (by simp; omega), List.getElem?_eq_none (by simp; omega)]

/-- **C36** (fast median absolute deviation): for every array sorted in either direction and every suffix of it, the
kernel computes the median `med` of the suffix and then, by binary search in its two halves, the median of the
absolute deviations from `med`. Neither step indexes out of range. -/
theorem C36_fast_mad {values : List ℚ} (hs : values.Pairwise (· ≤ ·) ∨ values.Pairwise (· ≥ ·)) {k : Nat}
    (hk : k < values.length) :
    ∃ med mad, sortedMedian values k values.length = .ok med ∧ IsMedian (values.drop k) med ∧
      findMedianSortedArrays
        ((values.reverse.drop (values.length - k - (values.length - k) / 2)).take ((values.length - k) / 2))
        (values.drop (k + (values.length - k) / 2)) med = .ok mad ∧
      IsMedian ((values.drop k).map fun x => |x - med|) mad := by
  obtain ⟨med, h1, h2, h3, h4⟩ := sortedMedian_suffix hs hk
  set h := (values.length - k) / 2 with hh
  rw [reverse_slice (by omega)]
  set a := ((values.drop k).take h).reverse with ha
  set b := values.drop (k + h) with hb
  have la : a.length = h := by simp [ha]; omega
  have lb : b.length = values.length - k - h := by simp [hb]; omega
  have ga : ∀ i, i < h → a.getD i 0 = values.getD (k + h - 1 - i) 0 := by
    intro i hi
    rw [ha, List.getD_eq_getElem?_getD, List.getElem?_reverse (by simp; omega), List.length_take, List.length_drop,
      List.getElem?_take_of_lt (by omega), List.getElem?_drop, List.getD_eq_getElem?_getD]
    congr 2
    omega
  have gb : ∀ i, b.getD i 0 = values.getD (k + h + i) 0 := by
    intro i
    rw [hb, List.getD_eq_getElem?_getD, List.getElem?_drop, List.getD_eq_getElem?_getD]
  have mono : values.Pairwise (· ≤ ·) → ∀ i j, i ≤ j → j < values.length → values.getD i 0 ≤ values.getD j 0 := by
    intro h i j hij hj
    rw [List.getD_eq_getElem?_getD, List.getD_eq_getElem?_getD, List.getElem?_eq_getElem hj,
      List.getElem?_eq_getElem (by omega)]
    rcases eq_or_lt_of_le hij with rfl | hlt
    · exact le_rfl
    · exact List.pairwise_iff_getElem.1 h i j (by omega) hj hlt
  have anti : values.Pairwise (· ≥ ·) → ∀ i j, i ≤ j → j < values.length → values.getD j 0 ≤ values.getD i 0 := by
    intro h i j hij hj
    rw [List.getD_eq_getElem?_getD, List.getD_eq_getElem?_getD, List.getElem?_eq_getElem hj,
      List.getElem?_eq_getElem (by omega)]
    rcases eq_or_lt_of_le hij with rfl | hlt
    · exact le_rfl
    · exact List.pairwise_iff_getElem.1 h i j (by omega) hj hlt
  have da : DevAsc a med := by
    intro i j hij hj
    rw [la] at hj
    rw [ga i (by omega), ga j hj]
    rcases hs with h | h
    · have u1 := (h3 (k + (values.length - k) / 2 - 1 - i) (by omega) (by omega)).1 h
      have u2 := mono h (k + (values.length - k) / 2 - 1 - j) (k + (values.length - k) / 2 - 1 - i) (by omega) (by omega)
      rw [abs_of_nonpos (by linarith), abs_of_nonpos (by linarith)]
      linarith
    · have u1 := (h3 (k + (values.length - k) / 2 - 1 - i) (by omega) (by omega)).2 h
      have u2 := anti h (k + (values.length - k) / 2 - 1 - j) (k + (values.length - k) / 2 - 1 - i) (by omega) (by omega)
      rw [abs_of_nonneg (by linarith), abs_of_nonneg (by linarith)]
      linarith
  have db : DevAsc b med := by
    intro i j hij hj
    rw [lb] at hj
    rw [gb i, gb j]
    rcases hs with h | h
    · have u1 := (h4 (k + (values.length - k) / 2 + i) (by omega) (by omega)).1 h
      have u2 := mono h (k + (values.length - k) / 2 + i) (k + (values.length - k) / 2 + j) (by omega) (by omega)
      rw [abs_of_nonneg (by linarith), abs_of_nonneg (by linarith)]
      linarith
    · have u1 := (h4 (k + (values.length - k) / 2 + i) (by omega) (by omega)).2 h
      have u2 := anti h (k + (values.length - k) / 2 + i) (k + (values.length - k) / 2 + j) (by omega) (by omega)
      rw [abs_of_nonpos (by linarith), abs_of_nonpos (by linarith)]
      linarith
  obtain ⟨mad, m1, m2⟩ := fmsaLoop_spec (a := a) (b := b) (med := med) (by omega) (by omega) da db (a.length + 2) 0 a.length
    (by omega) le_rfl (by omega) (by omega) (.inl rfl) (.inl rfl)
  refine ⟨med, mad, h1, h2, m1, m2.perm ?_⟩
  apply List.Perm.map
  have : values.drop k = (values.drop k).take h ++ b := by
    rw [hb, ← List.drop_drop, List.take_append_drop]
  rw [this]
  exact (List.reverse_perm _).append_right b

/-- an even and an odd suffix of an ascending and of a descending array -/
example : findMedianSortedArrays [2, 1] [4, 8, 9] 4 = .ok 3 ∧ findMedianSortedArrays [3, 1] [5, 20] 4 = .ok 2 ∧
    findMedianSortedArrays [9, 10] [8, 3, 1] 8 = .ok 2 := by decide +kernel

end Verif
