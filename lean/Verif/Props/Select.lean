import Verif.Props.Mad
import Verif.Uni.Detect

/-!
# Selecting anomalies: the ESD test and the fusion of detectors (C37, C38)
-/

namespace Verif

open Spec

/-! ### the ESD test -/

theorem check_extreme (t : PyFloat) (upper : Bool) (v centre spread : ℚ) :
    checkAnomalyStatus centre spread v t upper = true ↔ Extreme t upper v centre spread := by
  unfold checkAnomalyStatus Extreme
  have e : (if spread < EPS then EPS else spread) = max spread (1 / 10 ^ 8) := by
    have : EPS = 1 / 10 ^ 8 := by unfold EPS; norm_num
    rw [← this]
    split
    · rename_i h; rw [max_eq_right h.le]
    · rename_i h; rw [max_eq_left (not_lt.1 h)]
  dsimp only
  rw [e]

/-- one step of the loop performs the test -/
theorem esdStep_spec {c : ℚ} {std : List ℚ → ℚ} {values : List ℚ} {upper : Bool} {thr : Nat → Except PyErr PyFloat}
    {k : Nat} {t : PyFloat} (hs : values.Pairwise (· ≤ ·) ∨ values.Pairwise (· ≥ ·)) (hk : k < values.length)
    (ht : thr k = .ok t) :
    ∃ b, esdStep c std values upper thr k = .ok b ∧ (b = true ↔ Outlying c std values upper t k) := by
  obtain ⟨med, mad, h1, h2, h3, h4⟩ := C36_fast_mad hs hk
  have hv : values[k]? = some (values.getD k 0) := by
    rw [List.getD_eq_getElem?_getD, List.getElem?_eq_getElem hk]; rfl
  have key : ∀ b1 b2 : Bool, (b1 = true ↔ Extreme t upper (values.getD k 0) med (mad / c)) →
      (b2 = true ↔ Extreme t upper (values.getD k 0) (npMean (values.drop k)) (std (values.drop k))) →
      ((b1 || b2) = true ↔ Outlying c std values upper t k) := by
    intro b1 b2 e1 e2
    rw [Bool.or_eq_true, e1, e2]
    constructor
    · intro h
      exact ⟨_, med, mad, hv, h2, h4, h⟩
    · rintro ⟨v, med', mad', g1, g2, g3, g4⟩
      rw [hv] at g1
      cases g1
      have := g2.unique h2
      subst this
      have := g3.unique h4
      subst this
      exact g4
  refine ⟨checkAnomalyStatus med (mad / c) (values.getD k 0) t upper ||
    checkAnomalyStatus (npMean (values.drop k)) (std (values.drop k)) (values.getD k 0) t upper, ?_,
    key _ _ (check_extreme ..) (check_extreme ..)⟩
  unfold esdStep
  dsimp only
  rw [h1]
  simp only [bind, Except.bind]
  rw [h3]
  dsimp only
  rw [mvGet_nat hk, ht]
  dsimp only
  cases checkAnomalyStatus med (mad / c) (values.getD k 0) t upper <;> rfl

/-- the loop returns the last passing rank, or the first one when it stops there -/
theorem esdLoop_spec {step : Nat → Except PyErr Bool} {P : Nat → Prop} (last : Bool) (rem k num : Nat)
    (h : ∀ j, k ≤ j → j < k + rem → ∃ b, step j = .ok b ∧ (b = true ↔ P j)) :
    ∃ r, esdLoop step last rem k num = .ok r ∧
      ((r = num ∧ ∀ j, k ≤ j → j < k + rem → ¬ P j) ∨
        ∃ j, r = j + 1 ∧ k ≤ j ∧ j < k + rem ∧ P j ∧
          (last = false → ∀ i, j < i → i < k + rem → ¬ P i) ∧ (last = true → ∀ i, k ≤ i → i < j → ¬ P i)) := by
  induction rem generalizing k num with
  | zero => exact ⟨num, rfl, .inl ⟨rfl, fun j a b => by omega⟩⟩
  | succ rem ih =>
    obtain ⟨b, hb, hp⟩ := h k le_rfl (by omega)
    rw [esdLoop]
    simp only [hb, bind, Except.bind]
    cases b
    · simp only [Bool.false_eq_true, if_false, Bool.false_and]
      have hk : ¬ P k := fun hc => by simp at hp; exact hp hc
      obtain ⟨r, h1, h2⟩ := ih (k + 1) num (fun j a b => h j (by omega) (by omega))
      refine ⟨r, h1, ?_⟩
      rcases h2 with ⟨rfl, h2⟩ | ⟨j, e, h3, h4, h5, h6, h7⟩
      · refine .inl ⟨rfl, ?_⟩
        intro j a b
        rcases eq_or_lt_of_le a with rfl | a
        · exact hk
        · exact h2 j (by omega) (by omega)
      · refine .inr ⟨j, e, by omega, by omega, h5, fun hl i a b => h6 hl i a (by omega), ?_⟩
        intro hl i a b
        rcases eq_or_lt_of_le a with rfl | a
        · exact hk
        · exact h7 hl i (by omega) b
    · have hk : P k := hp.1 rfl
      cases last
      · simp only [if_true, Bool.and_false, Bool.false_eq_true, if_false]
        obtain ⟨r, h1, h2⟩ := ih (k + 1) (k + 1) (fun j a b => h j (by omega) (by omega))
        refine ⟨r, h1, .inr ?_⟩
        rcases h2 with ⟨rfl, h2⟩ | ⟨j, e, h3, h4, h5, h6, h7⟩
        · exact ⟨k, rfl, le_rfl, by omega, hk, fun _ i a b => h2 i (by omega) (by omega), by simp⟩
        · exact ⟨j, e, by omega, by omega, h5, fun _ i a b => h6 rfl i a (by omega), by simp⟩
      · simp only [if_true, Bool.and_true]
        exact ⟨k + 1, rfl, .inr ⟨k, rfl, le_rfl, by omega, hk, by simp, fun _ i a b => by omega⟩⟩

theorem map_f32_sorted {f32 : ℚ → ℚ} (hf : Monotone f32) {values : List ℚ}
    (hs : values.Pairwise (· ≤ ·) ∨ values.Pairwise (· ≥ ·)) :
    (values.map f32).Pairwise (· ≤ ·) ∨ (values.map f32).Pairwise (· ≥ ·) := by
  rcases hs with h | h
  · exact .inl (List.pairwise_map.2 (h.imp fun h => hf h))
  · exact .inr (List.pairwise_map.2 (h.imp fun h => hf h))

/-- what both tests select from a ranking: `P k` says that rank `k` is outlying -/
def Selects (P : Nat → Prop) (index : List Nat) (maxOutliers : Nat) (lastIndex : Option Nat) (r : List Nat) : Prop :=
  (r = [] ∧ ∀ k, lastIndex.getD 0 ≤ k → k < maxOutliers → ¬ P k) ∨
  ∃ k, r = index.take (k + 1) ∧ lastIndex.getD 0 ≤ k ∧ k < maxOutliers ∧ P k ∧
    (lastIndex = none → ∀ i, k < i → i < maxOutliers → ¬ P i) ∧
    (lastIndex ≠ none → ∀ i, lastIndex.getD 0 ≤ i → i < k → ¬ P i)

theorem esd_select {step : Nat → Except PyErr Bool} {P : Nat → Prop} {index : List Nat} {maxOutliers : Nat}
    {lastIndex : Option Nat} (h : ∀ j, j < maxOutliers → ∃ b, step j = .ok b ∧ (b = true ↔ P j)) :
    ∃ num, esdLoop step lastIndex.isSome (maxOutliers - lastIndex.getD 0) (lastIndex.getD 0) 0 = .ok num ∧
      Selects P index maxOutliers lastIndex (index.take num) := by
  obtain ⟨r, h1, h2⟩ := esdLoop_spec (P := P) lastIndex.isSome (maxOutliers - lastIndex.getD 0) (lastIndex.getD 0) 0
    (fun j a b => h j (by omega))
  refine ⟨r, h1, ?_⟩
  rcases h2 with ⟨rfl, h2⟩ | ⟨j, rfl, h3, h4, h5, h6, h7⟩
  · exact .inl ⟨by simp, fun k a b => h2 k a (by omega)⟩
  · refine .inr ⟨j, rfl, h3, by omega, h5, ?_, ?_⟩
    · rintro rfl i a b
      exact h6 rfl i a (by simp; omega)
    · intro hl i a b
      exact h7 (Option.isSome_iff_ne_none.2 hl) i a b

/-- **C37** (generalized ESD test): for a ranking sorted in either direction the test never fails. It returns the
ranking up to the last outlying rank below `max_outliers` (nothing if there is none). In latest mode it returns the
ranking up to the first outlying rank at or after the rank of the latest point. -/
theorem C37_generalized_esd {f32 : ℚ → ℚ} (hf : Monotone f32) (c : ℚ) (std : List ℚ → ℚ) {values : List ℚ}
    {index : List Nat} {maxOutliers : Nat} {critical : List PyFloat} (upper : Bool) (lastIndex : Option Nat)
    (hs : values.Pairwise (· ≤ ·) ∨ values.Pairwise (· ≥ ·)) (hm : maxOutliers ≤ values.length)
    (hc : maxOutliers ≤ critical.length) :
    ∃ r, generalizedEsdTest f32 c std values index maxOutliers critical upper lastIndex = .ok r ∧
      Selects (fun k => ∃ t, critical[k]? = some t ∧ Outlying c std (values.map f32) upper t k) index maxOutliers
        lastIndex r := by
  unfold generalizedEsdTest
  dsimp only
  obtain ⟨num, h1, h2⟩ := esd_select (index := index) (lastIndex := lastIndex) (maxOutliers := maxOutliers)
    (P := fun k => ∃ t, critical[k]? = some t ∧ Outlying c std (values.map f32) upper t k)
    (step := esdStep c std (values.map f32) upper fun k => match critical[k]? with
      | some t => Except.ok t
      | none => .error .indexError) (by
    intro j hj
    have ht : critical[j]? = some critical[j] := List.getElem?_eq_getElem (by omega)
    obtain ⟨b, h1, h2⟩ := esdStep_spec (c := c) (std := std) (upper := upper) (t := critical[j])
      (thr := fun k => match critical[k]? with
        | some t => Except.ok t
        | none => .error .indexError) (map_f32_sorted hf hs) (k := j) (by simp; omega) (by rw [ht])
    refine ⟨b, h1, h2.trans ⟨fun h => ⟨_, ht, h⟩, ?_⟩⟩
    rintro ⟨t, e, h⟩
    rw [ht] at e
    cases e
    exact h)
  exact ⟨_, congrArg (fun e : Except PyErr Nat => e >>= fun num => pure (index.take num)) h1, h2⟩

/-- **C37** (dynamic threshold): the same with one threshold for all ranks. -/
theorem C37_dynamic_threshold {f32 : ℚ → ℚ} (hf : Monotone f32) (c : ℚ) (std : List ℚ → ℚ) {values : List ℚ}
    {index : List Nat} {maxOutliers : Nat} (threshold : PyFloat) (upper : Bool) (lastIndex : Option Nat)
    (hs : values.Pairwise (· ≤ ·) ∨ values.Pairwise (· ≥ ·)) (hm : maxOutliers ≤ values.length) :
    ∃ r, dynamicThreshold f32 c std values index maxOutliers threshold upper lastIndex = .ok r ∧
      Selects (Outlying c std (values.map f32) upper threshold) index maxOutliers lastIndex r := by
  unfold dynamicThreshold
  dsimp only
  obtain ⟨num, h1, h2⟩ := esd_select (index := index) (lastIndex := lastIndex) (maxOutliers := maxOutliers)
    (P := Outlying c std (values.map f32) upper threshold)
    (step := esdStep c std (values.map f32) upper fun _ => .ok threshold) (by
    intro j hj
    exact esdStep_spec (map_f32_sorted hf hs) (by simp; omega) rfl)
  refine ⟨_, ?_, h2⟩
  rw [h1]
  rfl

/-- **C37** (latest mode): the selection is empty or contains the latest point, and it never has more than
`max_outliers` entries. -/
theorem C37_latest {P : Nat → Prop} {index : List Nat} {maxOutliers : Nat} {lastIndex : Option Nat} {r : List Nat}
    (h : Selects P index maxOutliers lastIndex r) :
    r.length ≤ maxOutliers ∧ r <+: index ∧
      ∀ (l p : Nat), lastIndex = some l → index[l]? = some p → r = [] ∨ p ∈ r := by
  rcases h with ⟨rfl, -⟩ | ⟨k, rfl, h1, h2, -⟩
  · exact ⟨by simp, by simp, fun _ _ _ _ => .inl rfl⟩
  · refine ⟨(List.length_take_le ..).trans (by omega), List.take_prefix _ _, ?_⟩
    rintro l p rfl hp
    right
    have : (index.take (k + 1))[l]? = some p := by
      rw [List.getElem?_take_of_lt (by simp at h1; omega)]
      exact hp
    exact List.mem_of_getElem? this

/-! ### fusion -/

/-- the dict after some proposals: unique keys, and the value of key `x` is `f x` -/
structure DictIs (d : List (Nat × Nat)) (mem : Nat → Prop) (f : Nat → Nat) : Prop where
  nodup : (d.map (·.1)).Nodup
  keys : ∀ x, x ∈ d.map (·.1) ↔ mem x
  vals : ∀ y ∈ d, y.2 = f y.1

theorem dictAdd_is {d : List (Nat × Nat)} {mem : Nat → Prop} {f : Nat → Nat} (h : DictIs d mem f) (x incr init : Nat) :
    DictIs (dictAdd d x incr init) (fun y => mem y ∨ y = x)
      (fun y => if y = x then (if x ∈ d.map (·.1) then f y + incr else init) else f y) := by
  unfold dictAdd
  by_cases hx : x ∈ d.map (·.1)
  · have hany : (d.any fun y => y.1 == x) = true := by
      obtain ⟨y, hy, rfl⟩ := List.mem_map.1 hx
      exact List.any_eq_true.2 ⟨y, hy, by simp⟩
    rw [if_pos hany]
    have hmap : (d.map fun y => if y.1 = x then (y.1, y.2 + incr) else y).map (·.1) = d.map (·.1) := by
      rw [List.map_map]
      apply List.map_congr_left
      intro y _
      simp only [Function.comp]
      split <;> rfl
    refine ⟨by rw [hmap]; exact h.nodup, ?_, ?_⟩
    · intro y
      rw [hmap, h.keys]
      constructor
      · exact .inl
      · rintro (h' | rfl)
        · exact h'
        · exact (h.keys y).1 hx
    · intro y hy
      obtain ⟨z, hz, rfl⟩ := List.mem_map.1 hy
      split
      · show z.2 + incr = f z.1 + incr
        rw [h.vals z hz]
      · exact h.vals z hz
  · have hany : ¬ (d.any fun y => y.1 == x) = true := by
      intro hc
      obtain ⟨y, hy, e⟩ := List.any_eq_true.1 hc
      exact hx (List.mem_map.2 ⟨y, hy, by simpa using e⟩)
    rw [if_neg hany]
    refine ⟨?_, ?_, ?_⟩
    · rw [List.map_append, List.nodup_append]
      refine ⟨h.nodup, by simp, ?_⟩
      intro a ha b hb
      simp only [List.map_cons, List.map_nil, List.mem_singleton] at hb
      rintro rfl
      exact hx (hb ▸ ha)
    · intro y
      rw [List.map_append, List.mem_append, h.keys]
      simp
    · intro y hy
      rcases List.mem_append.1 hy with hy | hy
      · have : y.1 ≠ x := fun e => hx (e ▸ List.mem_map_of_mem hy)
        rw [if_neg this]
        exact h.vals y hy
      · rw [List.mem_singleton] at hy
        subst hy
        simp only [if_true, if_neg hx]

theorem addProposals_is (n i : Nat) (p : List Nat) (k : Nat) {d : List (Nat × Nat)} {mem : Nat → Prop} {f : Nat → Nat}
    [DecidablePred mem] (hp : p.Nodup) (h : DictIs d mem f) :
    DictIs (addProposals n i p k d) (fun y => mem y ∨ y ∈ p)
      (fun y => if y ∈ p then (if mem y then f y + (k + p.idxOf y) else k + p.idxOf y + i * n) else f y) := by
  induction p generalizing k d mem f with
  | nil =>
    rw [addProposals]
    exact ⟨h.nodup, by simpa using h.keys, by simpa using h.vals⟩
  | cons x t ih =>
    rw [addProposals]
    have hx : x ∉ t := (List.nodup_cons.1 hp).1
    have hmem : (x ∈ d.map (·.1)) ↔ mem x := h.keys x
    have := ih (k + 1) (mem := fun y => mem y ∨ y = x) (List.nodup_cons.1 hp).2 (dictAdd_is h x k (k + i * n))
    refine ⟨this.nodup, ?_, ?_⟩
    · intro y
      rw [this.keys]
      simp only [List.mem_cons]
      tauto
    · intro y hy
      rw [this.vals y hy]
      by_cases e : y.1 = x
      · rw [e]
        simp only [hx, if_false, if_true, List.mem_cons_self, List.idxOf_cons_self, hmem, Nat.add_zero]
      · by_cases ht : y.1 ∈ t
        · have e2 : (x :: t).idxOf y.1 = t.idxOf y.1 + 1 := List.idxOf_cons_ne _ (Ne.symm e)
          simp only [ht, if_true, e, or_false, List.mem_cons_of_mem, if_false, e2]
          split <;> omega
        · have : y.1 ∉ x :: t := by simp [e, ht]
          simp only [ht, if_false, e, this]

theorem collect_is (n : Nat) (ps : List (List Nat)) (i : Nat) {d : List (Nat × Nat)} {done : List (List Nat)}
    (hi : i = done.length) (hp : ∀ p ∈ ps, p.Nodup)
    (h : DictIs d (Proposed done) (priority n done)) :
    DictIs (collect n ps i d) (Proposed (done ++ ps)) (priority n (done ++ ps)) := by
  induction ps generalizing i d done with
  | nil => rw [collect, List.append_nil]; exact h
  | cons p t ih =>
    rw [collect]
    have e : done ++ p :: t = (done ++ [p]) ++ t := by simp
    rw [e]
    refine ih (i + 1) (by simp [hi]) (fun q hq => hp q (List.mem_cons_of_mem _ hq)) ?_
    classical
    have := addProposals_is n i p 0 (hp p List.mem_cons_self) h
    refine ⟨this.nodup, ?_, ?_⟩
    · intro y
      rw [this.keys]
      simp only [Proposed, List.mem_append, List.mem_singleton]
      constructor
      · rintro (⟨q, h1, h2⟩ | h)
        · exact ⟨q, .inl h1, h2⟩
        · exact ⟨p, .inr rfl, h⟩
      · rintro ⟨q, h1 | rfl, h2⟩
        · exact .inl ⟨q, h1, h2⟩
        · exact .inr h2
    · intro y hy
      rw [this.vals y hy]
      by_cases hd : Proposed done y.1
      · have hf : (done ++ [p]).findIdx (·.contains y.1) = done.findIdx (·.contains y.1) := by
          rw [List.findIdx_append, if_pos]
          rw [List.findIdx_lt_length]
          obtain ⟨q, h1, h2⟩ := hd
          exact ⟨q, h1, by simpa using h2⟩
        simp only [hd, if_true, priority, hf, List.map_append, List.sum_append, List.map_cons, List.map_nil,
          List.sum_cons, List.sum_nil]
        split <;> omega
      · have hq : ∀ q ∈ done, y.1 ∉ q := fun q h1 h2 => hd ⟨q, h1, h2⟩
        have hpy : y.1 ∈ p := by
          have := (this.keys y.1).1 (List.mem_map_of_mem hy)
          tauto
        have hz : (done.map fun q => if y.1 ∈ q then q.idxOf y.1 else 0).sum = 0 := by
          rw [List.sum_eq_zero]
          intro z hz
          obtain ⟨q, h1, rfl⟩ := List.mem_map.1 hz
          rw [if_neg (hq q h1)]
        have hf : (done ++ [p]).findIdx (·.contains y.1) = done.length := by
          rw [List.findIdx_append, if_neg]
          · have : [p].findIdx (·.contains y.1) = 0 := by simp [List.findIdx_cons, hpy]
            rw [this]; omega
          · rw [List.findIdx_lt_length]
            rintro ⟨q, h1, h2⟩
            exact hq q h1 (by simpa using h2)
        simp only [hpy, if_true, hd, if_false, priority, hf, List.map_append, List.sum_append, List.map_cons,
          List.map_nil, List.sum_cons, List.sum_nil, hz]
        rw [Nat.mul_comm, ← hi]
        omega

/-- the fused list of one direction, before truncation -/
theorem rank_spec {n : Nat} {ps : List (List Nat)} (hp : ∀ p ∈ ps, p.Nodup) :
    ∃ L : List Nat, (∀ m, directionAnomalies n m ps = L.take m) ∧ L.Nodup ∧ (∀ x, x ∈ L ↔ Proposed ps x) ∧
      L.Pairwise fun x y => priority n ps x ≤ priority n ps y := by
  have h : DictIs (collect n ps 0 []) (Proposed ps) (priority n ps) :=
    collect_is n ps 0 (done := []) rfl hp ⟨by simp, by simp [Proposed], by simp⟩
  refine ⟨((collect n ps 0 []).insertionSort fun a b => a.2 ≤ b.2).map (·.1), fun m => rfl, ?_, ?_, ?_⟩
  · exact ((List.perm_insertionSort _ _).map _).nodup_iff.2 h.nodup
  · intro x
    rw [((List.perm_insertionSort _ _).map _).mem_iff, h.keys]
  · rw [List.pairwise_map]
    have hs := List.pairwise_insertionSort (fun a b : Nat × Nat => a.2 ≤ b.2) (collect n ps 0 [])
    refine hs.imp_of_mem ?_
    intro a b ha hb hab
    rw [← h.vals a ((List.mem_insertionSort _).1 ha), ← h.vals b ((List.mem_insertionSort _).1 hb)]
    exact hab

/-- **C38** (fusion of one direction): from detectors that each propose a point at most once, the fused result has
no duplicates, contains only proposed points, is full unless fewer points were proposed, is ordered by priority, and
no omitted proposal has a better priority than a selected one. -/
theorem C38_fusion {n m : Nat} {ps : List (List Nat)} (hp : ∀ p ∈ ps, p.Nodup) :
    (directionAnomalies n m ps).Nodup ∧ (∀ x ∈ directionAnomalies n m ps, Proposed ps x) ∧
      (directionAnomalies n m ps).length ≤ m ∧
      ((directionAnomalies n m ps).length < m → ∀ x, Proposed ps x → x ∈ directionAnomalies n m ps) ∧
      (directionAnomalies n m ps).Pairwise (fun x y => priority n ps x ≤ priority n ps y) ∧
      ∀ x ∈ directionAnomalies n m ps, ∀ y, Proposed ps y → y ∉ directionAnomalies n m ps →
        priority n ps x ≤ priority n ps y := by
  obtain ⟨L, h1, h2, h3, h4⟩ := rank_spec (n := n) hp
  rw [h1 m]
  refine ⟨h2.sublist (List.take_sublist _ _), fun x hx => (h3 x).1 (List.mem_of_mem_take hx), List.length_take_le .., ?_,
    h4.sublist (List.take_sublist _ _), ?_⟩
  · intro hl x hx
    rw [List.length_take] at hl
    rw [List.take_of_length_le (by omega)]
    exact (h3 x).2 hx
  · intro x hx y hy hny
    have hL := (h3 y).2 hy
    rw [← List.take_append_drop m L] at hL h4
    rcases List.mem_append.1 hL with h | h
    · exact absurd h hny
    · exact (List.pairwise_append.1 h4).2.2 x hx y h

/-- **C38** (both directions): `detect` returns every fused point of either direction exactly once. -/
theorem C38_detect {n m : Nat} {up lo : List (List Nat)} (hu : ∀ p ∈ up, p.Nodup) (hl : ∀ p ∈ lo, p.Nodup) :
    (detectFuse n m up lo).Nodup ∧ ∀ x, x ∈ detectFuse n m up lo ↔
      x ∈ directionAnomalies n m up ∨ x ∈ directionAnomalies n m lo := by
  unfold detectFuse
  dsimp only
  refine ⟨?_, ?_⟩
  · rw [List.nodup_append]
    refine ⟨(C38_fusion hu).1, (C38_fusion hl).1.filter _, ?_⟩
    rintro a ha b hb rfl
    have := (List.mem_filter.1 hb).2
    simp [ha] at this
  · intro x
    rw [List.mem_append, List.mem_filter]
    by_cases h : x ∈ directionAnomalies n m up <;> simp [h]

/-- **C38** (two detectors): when each proposes fewer than half of the points, every point proposed by the first
detector comes before every point proposed only by the second. -/
theorem C38_two_detectors {n : Nat} {p q : List Nat} (hp : 2 * p.length ≤ n) (hq : 2 * q.length ≤ n) {x y : Nat}
    (hx : x ∈ p) (hy : y ∉ p) (hy' : y ∈ q) : priority n [p, q] x < priority n [p, q] y := by
  have h1 : p.idxOf x < p.length := List.idxOf_lt_length_of_mem hx
  have h2 : (if x ∈ q then q.idxOf x else 0) ≤ q.length := by
    split
    · exact List.idxOf_le_length
    · omega
  have e1 : [p, q].findIdx (·.contains x) = 0 := by simp [List.findIdx_cons, hx]
  have e2 : [p, q].findIdx (·.contains y) = 1 := by simp [List.findIdx_cons, hy, hy']
  simp only [priority, e1, e2, List.map_cons, List.map_nil, List.sum_cons, List.sum_nil, hx, hy, hy', if_true, if_false]
  omega

/-- **C38** (three detectors, counterexample): a point proposed by all three detectors can be dropped in favour of a
point proposed by the second detector only, because every further proposal worsens the priority. Here there are 14
observations, at most 6 anomalies, and every detector proposes at most 6. -/
theorem C38_three_detectors :
    let ps := [[0, 1, 2, 3, 4, 5], [6, 0, 1, 2, 3, 5], [0, 1, 2, 3, 4, 5]]
    (∀ p ∈ ps, 5 ∈ p ∧ p.Nodup ∧ p.length ≤ maxOutliersOf 14 (49 / 100)) ∧
      5 ∉ directionAnomalies 14 (maxOutliersOf 14 (49 / 100)) ps ∧
      6 ∈ directionAnomalies 14 (maxOutliersOf 14 (49 / 100)) ps := by decide +kernel

/-! ### concrete cases -/

/-- the ESD test on a descending ranking: the two largest values are selected -/
example : generalizedEsdTest id (2 / 3) (fun _ => 1) [50, 40, 3, 3, 2, 2, 1, 1] [4, 9, 0, 1, 2, 3, 5, 6] 3
    [.fin 3, .fin 3, .fin 3] true none = .ok [4, 9] := by decide +kernel

/-- latest mode: the latest point (index 9) has rank 1; the test starts there -/
example : generalizedEsdTest id (2 / 3) (fun _ => 1) [50, 40, 3, 3, 2, 2, 1, 1] [4, 9, 0, 1, 2, 3, 5, 6] 3
    [.fin 3, .fin 3, .fin 3] true (some 1) = .ok [4, 9] ∧
  generalizedEsdTest id (2 / 3) (fun _ => 1) [50, 40, 3, 3, 2, 2, 1, 1] [4, 0, 9, 1, 2, 3, 5, 6] 3
    [.fin 3, .fin 3, .fin 3] true (some 2) = .ok [] := by decide +kernel

/-- two detectors -/
example : directionAnomalies 10 3 [[7, 2], [2, 5, 7, 1]] = [2, 7, 5] := by decide +kernel

end Verif
