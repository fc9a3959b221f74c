import Verif.Uni.FillMethods
import Verif.Props.Fill
import Verif.Props.Median

/-!
# All methods of gap filling (C90, C91)
-/

namespace Verif

open Spec

/-! ### counts of missing positions -/

theorem gapLoop_get {n i c : Nat} {idx : List Nat} (h : Covers idx i n) :
    ∀ p, i ≤ p → p < i + n → ∃ g, (gapLoop n i idx c)[p - i]? = some g ∧
      (p ∈ idx → g = ⟨false, 0, 0⟩) ∧
      (p ∉ idx → ∃ k ∈ idx, p < k ∧ (∀ x ∈ idx, p < x → k ≤ x) ∧ g.tag = true ∧ g.fwd = k - p ∧
        ((∃ m ∈ idx, m < p ∧ (∀ x ∈ idx, x < p → x ≤ m) ∧ g.cnt = k - m - 1) ∨
          (∀ x ∈ idx, p ≤ x) ∧ g.cnt = if c = 0 then k - i else c)) := by
  induction n generalizing i idx c with
  | zero => intro p h1 h2; omega
  | succ n ih =>
    cases idx with
    | nil => exact absurd rfl h.ne_nil
    | cons k t =>
      intro p h1 h2
      rw [gapLoop]
      by_cases hk : k = i
      · subst hk
        rw [if_pos rfl]
        rcases Nat.lt_or_ge k p with hp | hp
        · obtain ⟨g, hg, ha, hb⟩ := ih (c := 0) h.hit p (by omega) (by omega)
          refine ⟨g, ?_, ?_, ?_⟩
          · rw [show p - k = (p - (k + 1)) + 1 by omega, List.getElem?_cons_succ]
            exact hg
          · intro hm
            rcases List.mem_cons.1 hm with rfl | hm
            · omega
            · exact ha hm
          · intro hm
            obtain ⟨k', hk', a1, a2, a3, a4, a5⟩ := hb (fun x => hm (by simp [x]))
            refine ⟨k', by simp [hk'], a1, ?_, a3, a4, .inl ?_⟩
            · intro x hx hpx
              rcases List.mem_cons.1 hx with rfl | hx
              · omega
              · exact a2 x hx hpx
            · rcases a5 with ⟨m, hm', b1, b2, b3⟩ | ⟨b1, b2⟩
              · refine ⟨m, by simp [hm'], b1, ?_, b3⟩
                intro x hx hpx
                rcases List.mem_cons.1 hx with rfl | hx
                · have := (h.hit.mem m hm').1; omega
                · exact b2 x hx hpx
              · refine ⟨k, by simp, hp, ?_, by rw [b2, if_pos rfl]; omega⟩
                intro x hx hpx
                rcases List.mem_cons.1 hx with rfl | hx
                · exact le_refl _
                · have := b1 x hx; omega
        · have : p = k := by omega
          subst this
          refine ⟨⟨false, 0, 0⟩, by simp, fun _ => rfl, fun hm => absurd (by simp) hm⟩
      · rw [if_neg hk]
        have hik : i < k := by have := (h.mem k (by simp)).1; omega
        rcases Nat.lt_or_ge i p with hp | hp
        · obtain ⟨g, hg, ha, hb⟩ := ih (c := if c = 0 then k - i else c) (h.miss hk) p (by omega) (by omega)
          refine ⟨g, ?_, ha, ?_⟩
          · rw [show p - i = (p - (i + 1)) + 1 by omega, List.getElem?_cons_succ]
            exact hg
          · intro hm
            obtain ⟨k', hk', a1, a2, a3, a4, a5⟩ := hb hm
            refine ⟨k', hk', a1, a2, a3, a4, ?_⟩
            rcases a5 with a5 | ⟨b1, b2⟩
            · exact .inl a5
            · refine .inr ⟨b1, ?_⟩
              have hk2 : k' = k := by
                have e1 := a2 k (by simp) (by
                  have := b1 k (by simp)
                  rcases Nat.eq_or_lt_of_le this with e | e
                  · exact absurd (by simp [e]) hm
                  · exact e)
                rcases List.mem_cons.1 hk' with e | e
                · exact e
                · have := (List.pairwise_cons.1 h.sorted).1 k' e; omega
              subst hk2
              rw [b2]
              by_cases hc : c = 0
              · simp only [hc, if_true]
                rw [if_neg (by omega)]
              · simp only [hc, if_false]
        · have : p = i := by omega
          subst this
          refine ⟨⟨true, k - p, if c = 0 then k - p else c⟩, by simp, fun hm => absurd hm (h.notMem hk), fun hm => ?_⟩
          refine ⟨k, by simp, hik, ?_, rfl, rfl, .inr ⟨?_, rfl⟩⟩
          · intro x hx hpx
            rcases List.mem_cons.1 hx with rfl | hx
            · exact le_refl _
            · have := (List.pairwise_cons.1 h.sorted).1 x hx; omega
          · intro x hx
            exact (h.mem x hx).1

/-- counts at an observed and at a missing position -/
theorem FillProc.Good.info_get {P : FillProc} (h : P.Good) (hn : P.need = true) {p : Nat} (hp : p < P.allCount) :
    ∃ g, P.info[p]? = some g ∧ (p ∈ P.indices → g = ⟨false, 0, 0⟩) ∧
      (p ∉ P.indices → ∃ m k, m ∈ P.indices ∧ k ∈ P.indices ∧ m < p ∧ p < k ∧ (∀ x ∈ P.indices, x ≤ m ∨ k ≤ x) ∧ g.tag = true ∧
        g.fwd = k - p ∧ g.cnt = k - m - 1) := by
  obtain ⟨g, h1, h2, h3⟩ := gapLoop_get (c := 0) h.covers p (by omega) (by omega)
  refine ⟨g, by rw [h.info hn]; exact h1, h2, fun hm => ?_⟩
  obtain ⟨k, hk, a1, a2, a3, a4, a5⟩ := h3 hm
  rcases a5 with ⟨m, hm', b1, b2, b3⟩ | ⟨b1, -⟩
  · refine ⟨m, k, hm', hk, b1, a1, ?_, a3, a4, b3⟩
    intro x hx
    rcases Nat.lt_trichotomy x p with e | e | e
    · exact .inl (b2 x hx e)
    · exact absurd (e ▸ hx) hm
    · exact .inr (a2 x hx e)
  · have := b1 0 h.head
    have : p = 0 := by omega
    exact absurd (this ▸ h.head) hm

/-! ### the loop -/

theorem Covers.jump {i n k c : Nat} {t : List Nat} (h : Covers (k :: t) i n) (hc : i + c ≤ k) : Covers (k :: t) (i + c) (n - c) where
  sorted := h.sorted
  mem := fun x hx => by
    have h1 := h.mem x hx
    rcases List.mem_cons.1 hx with rfl | hx
    · omega
    · have := (List.pairwise_cons.1 h.sorted).1 x hx; omega
  last := fun hn => by
    have := h.last (by omega)
    rwa [show i + c + (n - c) - 1 = i + n - 1 by omega]

theorem rankOf_zero {idx : List Nat} {p : Nat} (hp : ∀ x ∈ idx, p ≤ x) : rankOf idx p = 0 := by
  unfold rankOf
  rw [List.length_eq_zero_iff, List.filter_eq_nil_iff]
  intro x hx
  have := hp x hx
  simp; omega

/-- The loop fills every missing position once. `Inv p g`: the grid may look like `g` when the loop reaches `p`. `Q p j v`: `v` is a
possible value of position `p`, `j` the rank of the next observation. -/
theorem fillLoop_spec {f : Nat → Nat → List (Option ℚ) → Except FillStop Fill} {onErr : OnError} {values : List ℚ} {n : Nat}
    (Inv : Nat → List (Option ℚ) → Prop) (Q : Nat → Nat → Option ℚ → Prop) {fuel i j : Nat} {idx : List Nat} {full : List (Option ℚ)}
    (hfuel : n ≤ i + fuel) (hin : i ≤ n) (hc : Covers idx i (n - i)) (hlen : full.length = n) (hI : Inv i full)
    (hobs : ∀ p ∈ idx, ∀ g, Inv p g → Inv (p + 1) g)
    (hf : ∀ p, i ≤ p → p < n → p ∉ idx → ∀ g, Inv p g → g.length = n →
      f p (j + rankOf idx p) g ≠ .error .hang ∧
      (∀ v, f p (j + rankOf idx p) g = .ok (.one v) → Inv (p + 1) (g.set p v) ∧ Q p (j + rankOf idx p) v) ∧
      (∀ l, f p (j + rankOf idx p) g = .ok (.many l) → l ≠ [] ∧ (∀ t < l.length, p + t ∉ idx ∧ p + t < n) ∧
        Inv (p + l.length) (setSlice g p (l.map some)) ∧ ∀ t, ∀ ht : t < l.length, Q (p + t) (j + rankOf idx p) (some l[t])) ∧
      (∀ e, f p (j + rankOf idx p) g = .error (.err e) →
        (onErr = .none → Inv (p + 1) (g.set p none) ∧ Q p (j + rankOf idx p) none) ∧
        (onErr = .last → ∀ v, values[j + rankOf idx p - 1]? = some v →
          Inv (p + 1) (g.set p (some v)) ∧ Q p (j + rankOf idx p) (some v)))) :
    fillLoop f onErr values n fuel i j idx full ≠ .error .hang ∧
    ∀ r, fillLoop f onErr values n fuel i j idx full = .ok r →
      r.length = n ∧ (∀ p, p < i ∨ p ∈ idx → r[p]? = full[p]?) ∧
      ∀ p, i ≤ p → p < n → p ∉ idx → ∃ v, r[p]? = some v ∧ Q p (j + rankOf idx p) v := by
  have done : i = n → full.length = n ∧ (∀ p, p < i ∨ p ∈ idx → full[p]? = full[p]?) ∧
      ∀ p, i ≤ p → p < n → p ∉ idx → ∃ v, full[p]? = some v ∧ Q p (j + rankOf idx p) v :=
    fun e => ⟨hlen, fun _ _ => rfl, fun p a b => by omega⟩
  induction fuel generalizing i j idx full with
  | zero =>
    unfold fillLoop
    rw [if_pos (by omega)]
    exact ⟨by simp, fun r hr => by cases hr; exact done (by omega)⟩
  | succ fuel ih =>
    unfold fillLoop
    by_cases hni : n ≤ i
    · rw [if_pos hni]
      exact ⟨by simp, fun r hr => by cases hr; exact done (by omega)⟩
    rw [if_neg hni]
    cases idx with
    | nil => exact absurd rfl (Covers.ne_nil (n := n - i - 1) (by rwa [show n - i - 1 + 1 = n - i by omega]))
    | cons k t =>
      have hc' : Covers (k :: t) i (n - i - 1 + 1) := by rwa [show n - i - 1 + 1 = n - i by omega]
      have hkn : k < n := by have := (hc.mem k (by simp)).2; omega
      by_cases hk : k = i
      · subst hk
        simp only
        have hr : ∀ p, k + 1 ≤ p → j + 1 + rankOf t p = j + rankOf (k :: t) p := by
          intro p hp
          unfold rankOf
          rw [List.filter_cons_of_pos (by simp; omega)]
          simp; omega
        obtain ⟨h0, h1⟩ := ih (i := k + 1) (j := j + 1) (idx := t) (full := full) (by omega) (by omega)
          (by rw [show n - (k + 1) = n - k - 1 by omega]; exact hc'.hit) hlen (hobs k (by simp) _ hI)
          (fun p hp => hobs p (by simp [hp])) (by
            intro p a b c g hg hgl
            have hnm : p ∉ k :: t := by simp; exact ⟨by omega, c⟩
            rw [hr p a]
            obtain ⟨e1, e2, e3, e4⟩ := hf p (by omega) b hnm g hg hgl
            refine ⟨e1, e2, fun l hl => ?_, e4⟩
            obtain ⟨l1, l2, l3, l4⟩ := e3 l hl
            exact ⟨l1, fun t ht => ⟨fun hm => (l2 t ht).1 (by simp [hm]), (l2 t ht).2⟩, l3, l4⟩)
          (fun e => ⟨hlen, fun _ _ => rfl, fun p a b => by omega⟩)
        refine ⟨h0, fun r hr' => ?_⟩
        obtain ⟨a1, a2, a3⟩ := h1 r hr'
        refine ⟨a1, ?_, ?_⟩
        · intro p hp
          refine a2 p ?_
          rcases hp with hp | hp
          · left; omega
          · rcases List.mem_cons.1 hp with rfl | hp
            · left; omega
            · exact .inr hp
        · intro p a b c
          have hpk : p ≠ k := by rintro rfl; simp at c
          have := a3 p (by omega) b (fun hm => c (by simp [hm]))
          rwa [hr p (by omega)] at this
      · have hik : i < k := by have := (hc.mem k (by simp)).1; omega
        simp only [if_neg hk, if_neg (show ¬ k < i by omega)]
        obtain ⟨e1, e2, e3, e4⟩ := hf i (le_refl _) (by omega) (hc'.notMem hk) full hI hlen
        have hr0 : rankOf (k :: t) i = 0 := rankOf_zero fun x hx => (hc.mem x hx).1
        rw [hr0, Nat.add_zero] at e1 e2 e3 e4
        have step : ∀ v, Inv (i + 1) (full.set i v) → Q i j v →
            fillLoop f onErr values n fuel (i + 1) j (k :: t) (full.set i v) ≠ .error .hang ∧
            ∀ r, fillLoop f onErr values n fuel (i + 1) j (k :: t) (full.set i v) = .ok r →
              r.length = n ∧ (∀ p, p < i ∨ p ∈ k :: t → r[p]? = full[p]?) ∧
              ∀ p, i ≤ p → p < n → p ∉ k :: t → ∃ v, r[p]? = some v ∧ Q p (j + rankOf (k :: t) p) v := by
          intro v hi hq
          obtain ⟨h0, h1⟩ := ih (i := i + 1) (j := j) (idx := k :: t) (full := full.set i v) (by omega) (by omega)
            (by rw [show n - (i + 1) = n - i - 1 by omega]; exact hc'.miss hk) (by rw [List.length_set]; exact hlen) hi hobs
            (fun p a => hf p (by omega))
            (fun e => ⟨by rw [List.length_set]; exact hlen, fun _ _ => rfl, fun p a b => by omega⟩)
          refine ⟨h0, fun r hr => ?_⟩
          obtain ⟨a1, a2, a3⟩ := h1 r hr
          refine ⟨a1, ?_, ?_⟩
          · intro p hp
            have hpi : i ≠ p := by
              rintro rfl
              rcases hp with hp | hp
              · omega
              · exact hc'.notMem hk hp
            rw [a2 p (by rcases hp with hp | hp <;> [left; right] <;> [omega; exact hp])]
            simp [hpi]
          · intro p a b c
            rcases Nat.lt_or_ge i p with hip | hip
            · exact a3 p (by omega) b c
            · have : p = i := by omega
              subst this
              refine ⟨v, ?_, by rwa [hr0]⟩
              rw [a2 p (.inl (by omega))]
              simp [show p < full.length by omega]
        cases hfi : f i j full with
        | ok w =>
          cases w with
          | one v =>
            obtain ⟨a, b⟩ := e2 v hfi
            exact step v a b
          | many l =>
            obtain ⟨l1, l2, l3, l4⟩ := e3 l hfi
            have hlp : 0 < l.length := List.length_pos_of_ne_nil l1
            have hlk : i + l.length ≤ k := by
              by_contra hcon
              have := l2 (k - i) (by omega)
              exact this.1 (by rw [show i + (k - i) = k by omega]; simp)
            have hsl : i + (l.map some).length ≤ full.length := by rw [List.length_map]; omega
            have hr' : ∀ p, p ≤ k → rankOf (k :: t) p = 0 := by
              intro p hp
              refine rankOf_zero fun x hx => ?_
              rcases List.mem_cons.1 hx with rfl | hx
              · exact hp
              · have := (List.pairwise_cons.1 hc.sorted).1 x hx; omega
            simp only [if_neg l1]
            obtain ⟨h0, h1⟩ := ih (i := i + l.length) (j := j) (idx := k :: t) (full := setSlice full i (l.map some)) (by omega)
              (by omega) (by rw [show n - (i + l.length) = n - i - l.length by omega]; exact hc.jump hlk)
              (by rw [length_setSlice hsl]; exact hlen) l3 hobs (fun p a => hf p (by omega))
              (fun e => ⟨by rw [length_setSlice hsl]; exact hlen, fun _ _ => rfl, fun p a b => by omega⟩)
            refine ⟨h0, fun r hr => ?_⟩
            obtain ⟨a1, a2, a3⟩ := h1 r hr
            refine ⟨a1, ?_, ?_⟩
            · intro p hp
              rw [a2 p (by rcases hp with hp | hp <;> [left; right] <;> [omega; exact hp]), getElem?_setSlice hsl, if_neg]
              rintro ⟨c1, c2⟩
              rw [List.length_map] at c2
              rcases hp with hp | hp
              · omega
              · exact (l2 (p - i) (by omega)).1 (by rwa [show i + (p - i) = p by omega])
            · intro p a b c
              rcases Nat.lt_or_ge p (i + l.length) with hip | hip
              · refine ⟨some (l[p - i]'(by omega)), ?_, ?_⟩
                · rw [a2 p (.inl hip), getElem?_setSlice hsl, if_pos ⟨a, by rw [List.length_map]; exact hip⟩, List.getElem?_map,
                    List.getElem?_eq_getElem (by omega)]
                  rfl
                · rw [hr' p (by omega), Nat.add_zero]
                  have := l4 (p - i) (by omega)
                  rwa [show i + (p - i) = p by omega] at this
              · exact a3 p hip b c
        | error s =>
          cases s with
          | hang => exact absurd hfi e1
          | unmodelled => simp
          | err e =>
            obtain ⟨c1, c2⟩ := e4 e hfi
            cases onErr with
            | raise => simp
            | none => exact step none (c1 rfl).1 (c1 rfl).2
            | last =>
              simp only
              cases hv : values[j - 1]? with
              | none => simp
              | some v => exact step (some v) (c2 rfl v hv).1 (c2 rfl v hv).2

/-! ### lists of a segment method end where the gap ends -/

/-- `p` is not inside a gap, or its first position -/
def Start (P : FillProc) (p : Nat) : Prop := p ∈ P.indices ∨ p = P.allCount ∨ (0 < p ∧ p - 1 ∈ P.indices)

theorem start_gap {P : FillProc} (h : P.Good) (hn : P.need = true) {p : Nat} (hp : p < P.allCount) (hm : p ∉ P.indices)
    (hs : Start P p) : ∃ k ∈ P.indices, p < k ∧ (P.info.getD p ⟨false, 0, 0⟩).cnt = k - p ∧
      ∀ q, p ≤ q → q < k → q ∉ P.indices ∧ q < P.allCount := by
  obtain ⟨g, h1, -, h3⟩ := h.info_get hn hp
  obtain ⟨m, k, a1, a2, a3, a4, a5, -, -, a8⟩ := h3 hm
  have hm1 : m = p - 1 := by
    rcases hs with hs | hs | ⟨h0, hs⟩
    · exact absurd hs hm
    · omega
    · rcases a5 _ hs with e | e <;> omega
  refine ⟨k, a2, a4, ?_, ?_⟩
  · rw [List.getD_eq_getElem?_getD, h1, Option.getD_some, a8]; omega
  · intro q hq hqk
    refine ⟨fun hx => ?_, by have := h.inside k a2; omega⟩
    rcases a5 q hx with e | e <;> omega

theorem many_start {P : FillProc} (h : P.Good) (hn : P.need = true) {p : Nat} (hp : p < P.allCount) (hm : p ∉ P.indices)
    (hs : Start P p) {l : List ℚ} (hl : l.length = (P.info.getD p ⟨false, 0, 0⟩).cnt) :
    l ≠ [] ∧ (∀ t < l.length, p + t ∉ P.indices ∧ p + t < P.allCount) ∧ Start P (p + l.length) := by
  obtain ⟨k, hk, h1, h2, h3⟩ := start_gap h hn hp hm hs
  rw [hl, h2]
  refine ⟨?_, fun t ht => h3 _ (by omega) (by omega), ?_⟩
  · intro e
    rw [e, h2] at hl
    simp at hl
    omega
  · left
    rwa [show p + (k - p) = k by omega]

theorem splineSeg_length {spline : SplineOracle} (hsp : SplineLaws spline) {P : FillProc} {a : FillArgs} {short : OnShort} {i j : Nat}
    {full : List (Option ℚ)} {l : List ℚ} (h : splineSeg spline P a short i j full = .ok l) :
    l.length = (P.info.getD i ⟨false, 0, 0⟩).cnt := by
  unfold splineSeg at h
  split at h
  · split at h
    · cases h
    · cases h
    · simp only at h
      split at h
      · cases h
      · split at h
        · rename_i l' hl'
          cases h
          have := hsp.len _ _ _ _ hl'
          simp only [List.length_drop, List.length_take]
          omega
        · cases h
        · cases h
  · cases h

theorem except_map_ok {ε α β} {f : α → β} {x : Except ε α} {y : β} : x.map f = .ok y ↔ ∃ a, x = .ok a ∧ f a = y := by
  cases x <;> simp [Except.map]

theorem except_map_error {ε α β} {f : α → β} {x : Except ε α} {e : ε} : x.map f = .error e ↔ x = .error e := by
  cases x <;> simp [Except.map]

theorem reduceWith_no_hang {op : Reduction} {ws : Option (List ℚ)} {bn fn : Nat} {b f : List ℚ} :
    reduceWith op ws bn fn b f ≠ .error .hang := by
  unfold reduceWith
  split
  · split
    · simp
    · simp only
      split <;> simp
  · split
    · split <;> simp
    · split <;> simp

theorem basicFunc_no_hang {P : FillProc} {a : FillArgs} {short : OnShort} {period : Nat} {op : Reduction} {ws : Option (List ℚ)}
    {i j : Nat} {full : List (Option ℚ)} : basicFunc P a short period op ws i j full ≠ .error .hang := by
  unfold basicFunc
  split
  · simp
  · simp only
    split
    · simp
    · simp
    · rw [Ne, except_map_error]
      exact reduceWith_no_hang

theorem splineSeg_no_hang {spline : SplineOracle} {P : FillProc} {a : FillArgs} {short : OnShort} {i j : Nat}
    {full : List (Option ℚ)} : splineSeg spline P a short i j full ≠ .error .hang := by
  unfold splineSeg
  split
  · split
    · simp
    · simp
    · simp only
      split
      · simp
      · split <;> simp
  · simp

theorem stepMethod_no_hang {spline : SplineOracle} {P : FillProc} {a : FillArgs} {short : OnShort} {period : Nat} {m : FillMethod}
    {i j : Nat} {full : List (Option ℚ)} : stepMethod spline P a short period m i j full ≠ .error .hang := by
  cases m <;> simp only [stepMethod, Ne, except_map_error]
  case weightedAvg =>
    split
    · simp
    · rw [except_map_error]; exact basicFunc_no_hang
  case last => split <;> simp
  case splineSeg => exact splineSeg_no_hang
  all_goals first | exact basicFunc_no_hang | simp

/-- only the segment methods return lists -/
theorem stepMethod_many {spline : SplineOracle} (hsp : SplineLaws spline) {P : FillProc} {a : FillArgs} {short : OnShort} {period : Nat}
    {m : FillMethod} {i j : Nat} {full : List (Option ℚ)} {l : List ℚ} (h : stepMethod spline P a short period m i j full = .ok (.many l)) :
    (m = .linearSeg ∨ m = .splineSeg) ∧ l.length = (P.info.getD i ⟨false, 0, 0⟩).cnt := by
  cases m <;> simp only [stepMethod, except_map_ok] at h
  case linearSeg =>
    cases h
    exact ⟨.inl rfl, length_linearSeg _ _ _⟩
  case splineSeg =>
    obtain ⟨x, hx, e⟩ := h
    cases e
    exact ⟨.inr rfl, splineSeg_length hsp hx⟩
  case weightedAvg =>
    split at h
    · cases h
    · rw [except_map_ok] at h
      obtain ⟨_, _, e⟩ := h
      cases e
  case last => split at h <;> cases h
  all_goals first
    | (obtain ⟨_, _, e⟩ := h; cases e)
    | cases h

/-- the segment methods return no single values -/
theorem stepMethod_one {spline : SplineOracle} {P : FillProc} {a : FillArgs} {short : OnShort} {period : Nat}
    {m : FillMethod} {i j : Nat} {full : List (Option ℚ)} {v : Option ℚ} (h : stepMethod spline P a short period m i j full = .ok (.one v)) :
    m ≠ .linearSeg ∧ m ≠ .splineSeg := by
  cases m <;> simp only [stepMethod, except_map_ok] at h
  case linearSeg => cases h
  case splineSeg =>
    obtain ⟨x, hx, e⟩ := h
    cases e
  all_goals simp

theorem rankOf_succ {idx : List Nat} {p : Nat} (h : p ∉ idx) : rankOf idx (p + 1) = rankOf idx p := by
  unfold rankOf
  congr 1
  apply List.filter_congr
  intro x hx
  have : x ≠ p := fun e => h (e ▸ hx)
  simp only [decide_eq_decide]
  omega

theorem cnt_succ {P : FillProc} (h : P.Good) (hn : P.need = true) {p : Nat} (hp : p + 1 < P.allCount) (h1 : p ∉ P.indices)
    (h2 : p + 1 ∉ P.indices) : P.info.getD (p + 1) ⟨false, 0, 0⟩ = ⟨true, (P.info.getD (p + 1) ⟨false, 0, 0⟩).fwd,
      (P.info.getD p ⟨false, 0, 0⟩).cnt⟩ := by
  obtain ⟨g, e1, -, e3⟩ := h.info_get hn (show p < P.allCount by omega)
  obtain ⟨g', f1, -, f3⟩ := h.info_get hn hp
  obtain ⟨m, k, a1, a2, a3, a4, a5, -, -, a8⟩ := e3 h1
  obtain ⟨m', k', b1, b2, b3, b4, b5, b6, -, b8⟩ := f3 h2
  have hm : m = m' := by
    rcases a5 m' b1 with x | x <;> rcases b5 m a1 with y | y <;> omega
  have hk : k = k' := by
    rcases a5 k' b2 with x | x <;> rcases b5 k a2 with y | y <;> omega
  rw [List.getD_eq_getElem?_getD, f1, List.getD_eq_getElem?_getD, e1]
  obtain ⟨t, w, c⟩ := g'
  simp only [Option.getD_some, GapInfo.mk.injEq, true_and] at *
  exact ⟨b6, by rw [b8, a8, hm, hk]⟩

/-- without use of filled values and with 'try_best', the spline of a gap is the same at all of its positions -/
theorem splineSeg_same {spline : SplineOracle} {P : FillProc} {a : FillArgs} (hlev : a.leverage = false) {i i' j : Nat}
    (hcnt : (P.info.getD i ⟨false, 0, 0⟩).cnt = (P.info.getD i' ⟨false, 0, 0⟩).cnt) (full full' : List (Option ℚ)) :
    splineSeg spline P a .tryBest i j full = splineSeg spline P a .tryBest i' j full' := by
  unfold splineSeg
  split
  · rename_i bn fn _ _
    have : lookAround P a.leverage .tryBest 1 bn fn i j full = lookAround P a.leverage .tryBest 1 bn fn i' j full' := by
      unfold lookAround
      simp [hlev]
    rw [this]
    simp only [hcnt]
  · rfl

/-! ### observed values -/

/-- the exceptions: a spline per gap that goes on after an error, where neighbours of a position can differ within a gap -/
def Safe (m : FillMethod) (a : FillArgs) (onErr : OnError) (short : OnShort) : Prop :=
  m ≠ .splineSeg ∨ onErr = .raise ∨ (a.leverage = false ∧ short = .tryBest)

/-- `Q` holds of every filled position, and observed values are in place, for an invariant `B` of the grid -/
theorem step_fill {spline : SplineOracle} (hsp : SplineLaws spline) {P : FillProc} (h : P.Good) (hn : P.need = true) {m : FillMethod}
    {a : FillArgs} {onErr : OnError} {short : OnShort} {period : Nat} (hs : Safe m a onErr short)
    (B : List (Option ℚ) → Prop) (Q : Nat → Nat → Option ℚ → Prop)
    (hB : B (valuesToFill P.allCount P.indices P.values))
    (h1 : ∀ p < P.allCount, p ∉ P.indices → ∀ g, B g → g.length = P.allCount → ∀ v,
      stepMethod spline P a short period m p (rankOf P.indices p) g = .ok (.one v) → B (g.set p v) ∧ Q p (rankOf P.indices p) v)
    (h2 : ∀ p < P.allCount, p ∉ P.indices → Start P p → ∀ g, B g → g.length = P.allCount → ∀ l,
      stepMethod spline P a short period m p (rankOf P.indices p) g = .ok (.many l) →
        B (setSlice g p (l.map some)) ∧ ∀ t, ∀ ht : t < l.length, Q (p + t) (rankOf P.indices p) (some l[t]))
    (h3 : onErr = .none → ∀ p < P.allCount, p ∉ P.indices → ∀ g, B g → B (g.set p none) ∧ Q p (rankOf P.indices p) none)
    (h4 : onErr = .last → ∀ p < P.allCount, p ∉ P.indices → ∀ g, B g → ∀ v, P.values[rankOf P.indices p - 1]? = some v →
      B (g.set p (some v)) ∧ Q p (rankOf P.indices p) (some v)) :
    fillLoop (stepMethod spline P a short period m) onErr P.values P.allCount P.allCount 0 0 P.indices
      (valuesToFill P.allCount P.indices P.values) ≠ .error .hang ∧
    ∀ r, fillLoop (stepMethod spline P a short period m) onErr P.values P.allCount P.allCount 0 0 P.indices
      (valuesToFill P.allCount P.indices P.values) = .ok r →
      r.length = P.allCount ∧ Keeps P.obs r ∧ ∀ p < P.allCount, p ∉ P.indices → ∃ v, r[p]? = some v ∧ Q p (rankOf P.indices p) v := by
  obtain ⟨t1, t2, -⟩ := h.toFill
  -- inside a gap the loop only stands after an error of a method that fails in the whole gap
  let I : Nat → List (Option ℚ) → Prop := fun p g => B g ∧ (m = .linearSeg ∨ m = .splineSeg → Start P p ∨
    (p < P.allCount → p ∉ P.indices → ∃ e, ∀ g', stepMethod spline P a short period m p (rankOf P.indices p) g' = .error (.err e)))
  have next : ∀ p, p < P.allCount → p ∉ P.indices → ∀ g e, onErr ≠ .raise →
      stepMethod spline P a short period m p (rankOf P.indices p) g = .error (.err e) → (m = .linearSeg ∨ m = .splineSeg → Start P (p + 1) ∨
      (p + 1 < P.allCount → p + 1 ∉ P.indices → ∃ e, ∀ g', stepMethod spline P a short period m (p + 1) (rankOf P.indices (p + 1)) g' =
        .error (.err e))) := by
    intro p hp hm g e hr he hmm
    rcases hmm with rfl | rfl
    · simp [stepMethod] at he
    · rcases hs with hs | hs | ⟨hs1, rfl⟩
      · exact absurd rfl hs
      · exact absurd hs hr
      · refine .inr fun hp' hm' => ⟨e, fun g' => ?_⟩
        have hc := congrArg GapInfo.cnt (cnt_succ h hn hp' hm hm')
        simp only at hc
        rw [rankOf_succ hm]
        simp only [stepMethod, except_map_error] at he ⊢
        rw [splineSeg_same hs1 hc g' g]
        exact he
  have hspec := fillLoop_spec (f := stepMethod spline P a short period m) (onErr := onErr) (values := P.values) (n := P.allCount)
    I Q (fuel := P.allCount) (i := 0) (j := 0) (idx := P.indices) (full := valuesToFill P.allCount P.indices P.values)
    (by omega) (by omega) (by simpa using h.covers) t1 ⟨hB, fun _ => .inl (.inl h.head)⟩
    (by
      intro p hp g hg
      exact ⟨hg.1, fun _ => .inl (.inr (.inr ⟨by omega, by simpa using hp⟩))⟩)
    (by
      intro p _ hp hm g hg hgl
      simp only [Nat.zero_add]
      refine ⟨stepMethod_no_hang, ?_, ?_, ?_⟩
      · intro v hv
        obtain ⟨b1, b2⟩ := h1 p hp hm g hg.1 hgl v hv
        obtain ⟨n1, n2⟩ := stepMethod_one hv
        exact ⟨⟨b1, fun hmm => by rcases hmm with e | e <;> contradiction⟩, b2⟩
      · intro l hl
        obtain ⟨hmm, hlen⟩ := stepMethod_many hsp hl
        rcases hg.2 hmm with hst | hfail
        · obtain ⟨c1, c2, c3⟩ := many_start h hn hp hm hst hlen
          obtain ⟨b1, b2⟩ := h2 p hp hm hst g hg.1 hgl l hl
          exact ⟨c1, c2, ⟨b1, fun _ => .inl c3⟩, b2⟩
        · obtain ⟨e, he⟩ := hfail hp hm
          rw [he g] at hl
          cases hl
      · intro e he
        refine ⟨fun ho => ?_, fun ho v hv => ?_⟩
        · obtain ⟨b1, b2⟩ := h3 ho p hp hm g hg.1
          exact ⟨⟨b1, next p hp hm g e (by rw [ho]; simp) he⟩, b2⟩
        · obtain ⟨b1, b2⟩ := h4 ho p hp hm g hg.1 v hv
          exact ⟨⟨b1, next p hp hm g e (by rw [ho]; simp) he⟩, b2⟩)
  refine ⟨hspec.1, fun r hr => ?_⟩
  obtain ⟨r1, r2, r3⟩ := hspec.2 r hr
  refine ⟨r1, ?_, ?_⟩
  · intro x hx
    rw [r2 x.1 (.inr (List.of_mem_zip hx).1)]
    exact t2 x hx
  · intro p hp hm
    simpa using r3 p (by omega) hp hm

theorem fillUp_ok {spline : SplineOracle} {P : FillProc} {method : String} {a : FillArgs} {l : List (Option ℚ)} {tags : List Bool}
    (h : P.fillUp spline method a = .ok (some (l, tags))) :
    P.need = true ∧ tags = P.tags ∧ ∃ onErr short period m, a.onError = .ok onErr ∧ a.onShort = .ok short ∧ a.periodOf = .ok period ∧
      FillMethod.ofName method = some m ∧ fillWith spline P m a onErr short period = .ok l := by
  unfold FillProc.fillUp at h
  split at h
  · cases h
  · rename_i hn
    split at h
    · cases h
    · cases h
    · cases h
    · rename_i onErr short period e1 e2 e3
      split at h
      · cases h
      · rename_i m hm
        obtain ⟨l', h1, h2⟩ := except_map_ok.1 h
        cases h2
        exact ⟨by simpa using hn, rfl, onErr, short, period, m, e1, e2, e3, hm, h1⟩

theorem periodOf_pos {a : FillArgs} {period : Nat} (h : a.periodOf = .ok period) : 1 ≤ period := by
  unfold FillArgs.periodOf at h
  split at h
  · cases h; exact le_refl _
  · cases h; exact le_refl _
  · split at h
    · split at h
      · cases h
      · cases h; exact le_max_right _ _
    · cases h

/-- the methods that look at the grid as a whole -/
theorem entire_keeps {spline : SplineOracle} (hsp : SplineLaws spline) {P : FillProc} (h : P.Good) (hn : P.need = true) {m : FillMethod}
    (hm : m = .auto ∨ m = .linear ∨ m = .spline) {a : FillArgs} {onErr : OnError} {short : OnShort} {period : Nat} (hp : 1 ≤ period)
    {l : List (Option ℚ)} (hl : fillWith spline P m a onErr short period = .ok l) :
    l.length = P.allCount ∧ Keeps P.obs l ∧
      (m ≠ .spline → ∀ v, some v ∈ l → npMin P.values ≤ v ∧ v ≤ npMax P.values) := by
  obtain ⟨t1, t2, t3⟩ := h.toFill
  have conv : ∀ full : List ℚ, Completes P.obs P.allCount full → (full.map some).length = P.allCount ∧ Keeps P.obs (full.map some) :=
    fun full hf => ⟨by rw [List.length_map, hf.len], fun a ha => getElem?_map_some.2 (hf.keeps a ha)⟩
  have fall : ∀ v, some v ∈ valuesToFill P.allCount P.indices P.values → npMin P.values ≤ v ∧ v ≤ npMax P.values := by
    intro v hv
    obtain ⟨k, hk⟩ := List.mem_iff_getElem?.1 hv
    by_cases hx : Missing P.obs k
    · have := t3 k (by rw [← t1]; exact (List.getElem?_eq_some_iff.1 hk).1) hx
      rw [this] at hk
      cases hk
    · unfold Missing at hx
      push Not at hx
      obtain ⟨w, hw⟩ := hx
      have := t2 _ hw
      rw [this] at hk
      cases hk
      have hwv := (List.of_mem_zip hw).2
      exact ⟨npMin_le hwv, le_npMax hwv⟩
  rcases hm with rfl | rfl | rfl
  · simp only [fillWith, entireFill] at hl
    split at hl
    · rename_i l' hl'
      cases hl
      have : P.fillAuto spline period = .ok l := by
        unfold FillProc.fillAuto
        rw [max_eq_left hp, hl']
      obtain ⟨full, rfl, hf, hb⟩ := fillAuto_spec hsp h hn this
      obtain ⟨c1, c2⟩ := conv full hf
      refine ⟨c1, c2, fun _ v hv => ?_⟩
      obtain ⟨w, hw, e⟩ := List.mem_map.1 hv
      cases e
      exact hb _ hw
    · split at hl
      · cases hl
      · cases hl
        exact ⟨t1, t2, fun _ => fall⟩
      · cases hl
  · simp only [fillWith, entireFill, Except.ok.injEq] at hl
    subst hl
    obtain ⟨f1, f2⟩ := fillLinear_spec h
    obtain ⟨c1, c2⟩ := conv _ f1
    refine ⟨c1, c2, fun _ v hv => ?_⟩
    obtain ⟨w, hw, e⟩ := List.mem_map.1 hv
    cases e
    have hbnd : ∀ a ∈ P.obs, npMin P.values ≤ a.2 ∧ a.2 ≤ npMax P.values := fun a ha =>
      ⟨npMin_le (List.of_mem_zip ha).2, le_npMax (List.of_mem_zip ha).2⟩
    exact linear_bounds h.gapped f1 f2 hbnd v hw
  · simp only [fillWith, entireFill] at hl
    refine ⟨?_, ?_, fun hne => absurd rfl hne⟩ <;>
    · split at hl
      · rename_i l' hl'
        cases hl
        split at hl'
        · cases hl'
        · obtain ⟨r, hr, rfl⟩ := except_map_ok.1 hl'
          have hlen := hsp.len _ _ _ _ hr
          first
          | (rw [List.length_map, hlen])
          | (intro x hx
             obtain ⟨k, hk, rfl⟩ := List.mem_iff_getElem.1 hx
             unfold FillProc.obs at hk ⊢
             rw [List.length_zip] at hk
             have hki : k < P.indices.length := by omega
             have hkv : k < P.values.length := by omega
             have hin := h.inside _ (List.getElem_mem hki)
             have := hsp.knot _ _ _ _ hr k hki (by simpa [List.getD_eq_getElem?_getD, hki] using hin)
             simp only [List.getD_eq_getElem?_getD, List.getElem?_eq_getElem hki, List.getElem?_eq_getElem hkv, Option.getD_some] at this
             rw [List.getElem_zip]
             simp only
             rw [List.getElem?_map, List.getElem?_eq_getElem (by omega), Option.map_some]
             rw [List.getElem?_eq_getElem (by omega), Option.getD_some] at this
             rw [this])
      · split at hl
        · cases hl
        · cases hl
          first
          | exact t1
          | exact t2
        · cases hl

/-- a call that keeps observed values: not a spline per gap that goes on after an error with neighbours that differ within a gap -/
def SafeCall (method : String) (a : FillArgs) : Prop :=
  method ≠ "spline_seg" ∨ (a.ifException = none ∨ a.ifException = some "raise") ∨
    (a.leverage = false ∧ (a.ifShort = none ∨ a.ifShort = some "try_best"))

theorem SafeCall.safe {method : String} {a : FillArgs} (hs : SafeCall method a) {onErr : OnError} {short : OnShort} {m : FillMethod}
    (h1 : a.onError = .ok onErr) (h2 : a.onShort = .ok short) (h3 : FillMethod.ofName method = some m) : Safe m a onErr short := by
  rcases hs with hs | hs | ⟨hs, hs'⟩
  · left
    rintro rfl
    unfold FillMethod.ofName at h3
    repeat' split at h3
    all_goals first
      | contradiction
      | cases h3
  · right; left
    unfold FillArgs.onError at h1
    rcases hs with hs | hs <;> rw [hs] at h1 <;> cases h1 <;> rfl
  · right; right
    refine ⟨hs, ?_⟩
    unfold FillArgs.onShort at h2
    rcases hs' with hs' | hs' <;> rw [hs'] at h2 <;> cases h2 <;> rfl

/-- **C90** (shape). Every method, with any arguments such that `SafeCall`: if the call returns, there is one entry per grid position, every
observation is in place, and the tags mark exactly the missing positions. -/
theorem C90_shape {spline : SplineOracle} (hsp : SplineLaws spline) {idx : List Int} {vs : List ℚ} {P : FillProc} (hne : idx ≠ [])
    (hP : FillProc.init idx vs = .ok P) {method : String} {a : FillArgs} (hs : SafeCall method a) {l : List (Option ℚ)} {tags : List Bool}
    (hr : P.fillUp spline method a = .ok (some (l, tags))) :
    ∃ n, Gapped (observations idx vs) n ∧ l.length = n ∧ (∀ x ∈ observations idx vs, l[x.1]? = some (some x.2)) ∧
      Tagged (observations idx vs) n tags := by
  obtain ⟨hn, rfl, onErr, short, period, m, e1, e2, e3, e4, hl⟩ := fillUp_ok hr
  obtain ⟨hg, -, -⟩ := FillProc.init_good hne hP
  rw [← obs_eq hne hP]
  refine ⟨P.allCount, hg.gapped, ?_⟩
  rw [← and_assoc]
  refine ⟨?_, hg.tagged hn⟩
  by_cases hm : m = .auto ∨ m = .linear ∨ m = .spline
  · obtain ⟨a1, a2, -⟩ := entire_keeps hsp hg hn hm (periodOf_pos e3) hl
    exact ⟨a1, a2⟩
  · have key := (step_fill hsp hg hn (m := m) (a := a) (period := period) (hs.safe e1 e2 e4) (fun _ => True) (fun _ _ _ => True) trivial (by simp)
      (by simp) (by simp) (by simp)).2 l
    have : fillWith spline P m a onErr short period = fillLoop (stepMethod spline P a short period m) onErr P.values P.allCount P.allCount
        0 0 P.indices (valuesToFill P.allCount P.indices P.values) := by
      cases m <;> first
        | rfl
        | simp at hm
    rw [this] at hl
    obtain ⟨a1, a2, -⟩ := key hl
    exact ⟨a1, a2⟩

/-- **C90** (termination). Such a call ends, with a result or an exception. -/
theorem C90_ends {spline : SplineOracle} (hsp : SplineLaws spline) {idx : List Int} {vs : List ℚ} {P : FillProc} (hne : idx ≠ [])
    (hP : FillProc.init idx vs = .ok P) {method : String} {a : FillArgs} (hs : SafeCall method a) :
    P.fillUp spline method a ≠ .error .hang := by
  intro hr
  obtain ⟨hg, -, -⟩ := FillProc.init_good hne hP
  unfold FillProc.fillUp at hr
  split at hr
  · cases hr
  · rename_i hn
    have hn : P.need = true := by simpa using hn
    split at hr
    · cases hr
    · cases hr
    · cases hr
    · rename_i onErr short period e1 e2 e3
      split at hr
      · cases hr
      · rename_i m e4
        rw [except_map_error] at hr
        have hent : ∀ r, entireFill P onErr r ≠ .error .hang := by
          intro r
          unfold entireFill
          split
          · simp
          · split <;> simp
        cases m
        case auto => exact hent _ hr
        case linear => exact hent (.ok (P.fillLinear.map some)) hr
        case spline => exact hent _ hr
        all_goals
          exact (step_fill hsp hg hn (a := a) (period := period) (hs.safe e1 e2 e4) (fun _ => True) (fun _ _ _ => True) trivial (by simp)
            (by simp) (by simp) (by simp)).1 hr

/-- **C90** (a value is lost). Otherwise an observed value can be replaced: here the last one, 8. -/
theorem C90_overwritten : ∃ P l tags, FillProc.init [0, 1, 4] [1, 2, 8] = .ok P ∧
    P.fillUp linearSpline "spline_seg"
      { ifException := some "fill_with_last", backwardN := some 3, forwardN := some 1, leverage := true } = .ok (some (l, tags)) ∧
    l[4]? = some (some 6) := by
  refine ⟨⟨[0, 1, 4], [1, 2, 8], 5, 2, true, [⟨false, 0, 0⟩, ⟨false, 0, 0⟩, ⟨true, 2, 2⟩, ⟨true, 1, 2⟩, ⟨false, 0, 0⟩]⟩,
    [some 1, some 2, some 2, some 4, some 6], [false, false, true, true, false], rfl, ?_, rfl⟩
  decide +kernel

/-- **C90** (a call does not end). -/
theorem C90_hang : ∃ P, FillProc.init [0, 1, 4, 5] [1, 2, 8, 9] = .ok P ∧
    P.fillUp linearSpline "spline_seg"
      { ifException := some "fill_with_last", backwardN := some 3, forwardN := some 1, leverage := true } = .error .hang := by
  refine ⟨⟨[0, 1, 4, 5], [1, 2, 8, 9], 6, 2, true,
    [⟨false, 0, 0⟩, ⟨false, 0, 0⟩, ⟨true, 2, 2⟩, ⟨true, 1, 2⟩, ⟨false, 0, 0⟩, ⟨false, 0, 0⟩]⟩, rfl, ?_⟩
  decide +kernel

/-! ### range of the filled values -/

theorem rankOf_bounds {P : FillProc} (h : P.Good) {p : Nat} (hp : p < P.allCount) (hm : p ∉ P.indices) :
    0 < rankOf P.indices p ∧ rankOf P.indices p < P.values.length := by
  have h0 : p ≠ 0 := fun e => hm (e ▸ h.head)
  have h1 : p ≠ P.allCount - 1 := fun e => hm (e ▸ h.last)
  unfold rankOf
  constructor
  · refine List.length_pos_of_mem (a := 0) (List.mem_filter.2 ⟨h.head, ?_⟩)
    simp; omega
  · rw [← h.len, List.length_filter_lt_length_iff_exists]
    refine ⟨_, h.last, ?_⟩
    simp; omega

theorem walk_mem {arr : List (Option ℚ)} {info : List GapInfo} {lev best fw : Bool} {sp : Int} {fuel n : Nat} {i : Int} {v : ℚ}
    (h : some v ∈ walk arr info lev best fw sp fuel n i) : some v ∈ arr := by
  induction fuel generalizing n i with
  | zero => simp [walk] at h
  | succ fuel ih =>
    cases n with
    | zero => simp [walk] at h
    | succ n =>
      rw [walk] at h
      split at h
      · split at h
        · simp at h
        · split at h
          · simp only [List.mem_cons, reduceCtorEq, false_or] at h
            exact ih h
          · rcases List.mem_cons.1 h with h | h
            · rw [List.getD_eq_getElem?_getD] at h
              cases ha : arr[i.toNat]? with
              | none => rw [ha] at h; simp at h
              | some o =>
                rw [ha] at h
                simp only [Option.getD_some] at h
                rw [h]
                exact List.mem_of_getElem? ha
            · exact ih h
      · simp at h

theorem walk_length {arr : List (Option ℚ)} {info : List GapInfo} {lev best fw : Bool} {sp : Int} {fuel n : Nat} {i : Int} :
    ((walk arr info lev best fw sp fuel n i).filterMap id).length ≤ n := by
  induction fuel generalizing n i with
  | zero => simp [walk]
  | succ fuel ih =>
    cases n with
    | zero => simp [walk]
    | succ n =>
      rw [walk]
      split
      · split
        · simp
        · split
          · simp only [List.filterMap_cons, id_eq]
            refine le_trans ih ?_
            split <;> omega
          · rename_i g _ _
            cases hv : arr.getD i.toNat none with
            | none =>
              simp only [List.filterMap_cons, id_eq]
              refine le_trans ih ?_
              split <;> omega
            | some v =>
              simp only [List.filterMap_cons, id_eq, List.length_cons, reduceCtorEq, and_false, if_false]
              exact Nat.succ_le_succ ih
      · simp

theorem periodical_mem {arr : List (Option ℚ)} {info : List GapInfo} {lev best fw : Bool} {i n period : Nat} {v : ℚ}
    (h : some v ∈ periodical arr info lev best i n period fw) : some v ∈ arr := by
  unfold periodical at h
  split at h
  · exact walk_mem h
  · exact walk_mem (List.mem_reverse.1 h)

theorem periodical_length {arr : List (Option ℚ)} {info : List GapInfo} {lev best fw : Bool} {i n period : Nat} :
    ((periodical arr info lev best i n period fw).filterMap id).length ≤ n := by
  unfold periodical
  split
  · exact walk_length
  · rw [List.filterMap_reverse, List.length_reverse]
    exact walk_length

theorem filterMap_map_some (l : List ℚ) : (l.map some).filterMap id = l := by
  induction l with
  | nil => rfl
  | cons a l ih => simp

/-- what a method looks at comes from the grid or the observed values -/
theorem lookAround_ok {P : FillProc} {lev : Bool} {short : OnShort} {period bn fn i j : Nat} {full : List (Option ℚ)} {b f : List ℚ}
    (h : lookAround P lev short period bn fn i j full = .ok (some (b, f))) :
    b.length ≤ bn ∧ f.length ≤ fn ∧ ∀ v ∈ b ++ f, v ∈ P.values ∨ some v ∈ full := by
  have key : ∀ x y : List (Option ℚ), ((x.filterMap id).length ≤ bn) → ((y.filterMap id).length ≤ fn) →
      (∀ v, some v ∈ x ∨ some v ∈ y → v ∈ P.values ∨ some v ∈ full) →
      (x.filterMap id).length ≤ bn ∧ (y.filterMap id).length ≤ fn ∧ ∀ v ∈ x.filterMap id ++ y.filterMap id, v ∈ P.values ∨ some v ∈ full := by
    intro x y hx hy hv
    refine ⟨hx, hy, fun v hm => hv v ?_⟩
    rcases List.mem_append.1 hm with hm | hm
    · obtain ⟨o, ho, e⟩ := List.mem_filterMap.1 hm
      exact .inl (by simpa [e] using (show o = some v from e) ▸ ho)
    · obtain ⟨o, ho, e⟩ := List.mem_filterMap.1 hm
      exact .inr (by simpa [e] using (show o = some v from e) ▸ ho)
  have main : ∀ x y : List (Option ℚ), (if lev = false ∧ short = .tryBest ∧ period = 1 then
        (((P.values.take j).drop (j - min bn j)).map some, ((P.values.drop j).take fn).map some)
      else (periodical full P.info lev (short = .tryBest) i bn period false, periodical full P.info lev (short = .tryBest) i fn period true)) = (x, y) →
      (x.filterMap id).length ≤ bn ∧ (y.filterMap id).length ≤ fn ∧ ∀ v ∈ x.filterMap id ++ y.filterMap id, v ∈ P.values ∨ some v ∈ full := by
    intro x y hxy
    split at hxy
    · cases hxy
      refine key _ _ ?_ ?_ ?_
      · rw [filterMap_map_some]; simp; omega
      · rw [filterMap_map_some]; simp
      · intro v hv
        left
        rcases hv with hv | hv <;> obtain ⟨w, hw, e⟩ := List.mem_map.1 hv <;> cases e
        · exact List.mem_of_mem_take (List.mem_of_mem_drop hw)
        · exact List.mem_of_mem_drop (List.mem_of_mem_take hw)
    · cases hxy
      refine key _ _ periodical_length periodical_length ?_
      intro v hv
      right
      rcases hv with hv | hv <;> exact periodical_mem hv
  have both := main _ _ Prod.mk.eta.symm
  unfold lookAround at h
  simp only at h
  clear main key
  revert h both
  generalize (if lev = false ∧ short = .tryBest ∧ period = 1 then
        (((P.values.take j).drop (j - min bn j)).map some, ((P.values.drop j).take fn).map some)
      else (periodical full P.info lev (short = .tryBest) i bn period false, periodical full P.info lev (short = .tryBest) i fn period true)) = xy
  intro h both
  split at h
  · cases short with
    | raise => cases h
    | none => cases h
    | _ =>
      simp only at h
      split at h
      · cases h
      · cases h; exact both
  · cases h; exact both

theorem weightedAverage_bounds' {vs ws : List ℚ} {lo hi : ℚ} (hl : vs.length = ws.length) (hne : ws.sum ≠ 0) (hw : ∀ w ∈ ws, 0 ≤ w)
    (hv : ∀ v ∈ vs, lo ≤ v ∧ v ≤ hi) : lo ≤ weightedAverage vs ws ∧ weightedAverage vs ws ≤ hi := by
  have key : lo * ws.sum ≤ (List.zipWith (· * ·) vs ws).sum ∧ (List.zipWith (· * ·) vs ws).sum ≤ hi * ws.sum := by
    clear hne
    induction vs generalizing ws with
    | nil =>
      have : ws = [] := List.length_eq_zero_iff.1 hl.symm
      subst this; simp
    | cons v vs ih =>
      cases ws with
      | nil => simp at hl
      | cons w ws =>
        obtain ⟨h1, h2⟩ := ih (by simpa using hl) (fun x hx => hw x (by simp [hx])) (fun x hx => hv x (by simp [hx]))
        have hw0 := hw w (by simp)
        obtain ⟨h3, h4⟩ := hv v (by simp)
        simp only [List.zipWith_cons_cons, List.sum_cons]
        constructor <;> nlinarith
  have hpos : 0 < ws.sum := lt_of_le_of_ne (List.sum_nonneg hw) (Ne.symm hne)
  unfold weightedAverage
  constructor
  · rw [le_div_iff₀ hpos]; exact key.1
  · rw [div_le_iff₀ hpos]; exact key.2

theorem isMedian_bounds {l : List ℚ} {m lo hi : ℚ} (h : IsMedian l m) (hb : ∀ v ∈ l, lo ≤ v ∧ v ≤ hi) : lo ≤ m ∧ m ≤ hi := by
  have hr : ∀ k v, IsRank l k v → lo ≤ v ∧ v ≤ hi := by
    rintro k v ⟨s, hs, -, hv⟩
    exact hb v (hs.mem_iff.1 (List.mem_of_getElem? hv))
  rcases h with ⟨-, h⟩ | ⟨-, a, b, h1, h2, rfl⟩
  · exact hr _ _ h
  · obtain ⟨a1, a2⟩ := hr _ _ h1
    obtain ⟨b1, b2⟩ := hr _ _ h2
    constructor <;> linarith

theorem npMean_bounds {l : List ℚ} {lo hi : ℚ} (hl : l ≠ []) (hb : ∀ v ∈ l, lo ≤ v ∧ v ≤ hi) : lo ≤ npMean l ∧ npMean l ≤ hi := by
  have hpos : (0 : ℚ) < l.length := by exact_mod_cast List.length_pos_of_ne_nil hl
  have key : lo * l.length ≤ l.sum ∧ l.sum ≤ hi * l.length := by
    clear hl hpos
    induction l with
    | nil => simp
    | cons a l ih =>
      obtain ⟨h1, h2⟩ := ih fun v hv => hb v (by simp [hv])
      obtain ⟨h3, h4⟩ := hb a (by simp)
      simp only [List.sum_cons, List.length_cons, Nat.cast_add, Nat.cast_one]
      constructor <;> linarith
  unfold npMean
  constructor
  · rw [le_div_iff₀ hpos]; exact key.1
  · rw [div_le_iff₀ hpos]; exact key.2

theorem reduceWith_bounds {op : Reduction} {ws : Option (List ℚ)} (hw : ∀ w, ws = some w → ∀ x ∈ w, 0 ≤ x) {bn fn : Nat} {b f : List ℚ}
    (hb : b.length ≤ bn) (hf : f.length ≤ fn) {lo hi : ℚ} (hv : ∀ v ∈ b ++ f, lo ≤ v ∧ v ≤ hi) {x : ℚ}
    (h : reduceWith op ws bn fn b f = .ok x) : lo ≤ x ∧ x ≤ hi := by
  unfold reduceWith at h
  split at h
  · rename_i w
    split at h
    · cases h
    · rename_i hl
      push Not at hl
      simp only at h
      split at h
      · cases h
      · rename_i hs
        cases h
        refine weightedAverage_bounds' ?_ hs (fun y hy => hw w rfl y (List.mem_of_mem_drop (List.mem_of_mem_take hy))) hv
        simp only [List.length_append, List.length_take, List.length_drop]
        omega
  · split at h
    · split at h <;> cases h
    · rename_i hne
      split at h
      · cases h
        exact ⟨(hv _ (npMin_mem hne)).1, (hv _ (npMin_mem hne)).2⟩
      · cases h
        exact ⟨(hv _ (npMax_mem hne)).1, (hv _ (npMax_mem hne)).2⟩
      · cases h
        exact isMedian_bounds (isMedian_npMedian hne) hv
      · cases h
        exact npMean_bounds hne hv

theorem basicFunc_bounds {P : FillProc} {a : FillArgs} {short : OnShort} {period : Nat} {op : Reduction} {ws : Option (List ℚ)}
    (hw : ∀ w, ws = some w → ∀ x ∈ w, 0 ≤ x) {i j : Nat} {full : List (Option ℚ)} {lo hi : ℚ} (hP : ∀ v ∈ P.values, lo ≤ v ∧ v ≤ hi)
    (hF : Bounded lo hi full) {o : Option ℚ} (h : basicFunc P a short period op ws i j full = .ok o) :
    ∀ v, o = some v → lo ≤ v ∧ v ≤ hi := by
  unfold basicFunc at h
  split at h
  · cases h
  · simp only at h
    split at h
    · cases h
    · cases h; simp
    · rename_i b f hl
      obtain ⟨h1, h2, h3⟩ := lookAround_ok hl
      obtain ⟨x, hx, rfl⟩ := except_map_ok.1 h
      intro v hv
      cases hv
      exact reduceWith_bounds hw h1 h2 (fun y hy => (h3 y hy).elim (hP y) (hF y)) hx

/-- the methods whose values are averages, ranks or copies of observed values -/
def Averaging (method : String) (a : FillArgs) : Prop :=
  (method = "weighted_avg" ∨ method = "average") ∧ (∀ w, a.weights = some (some w) → ∀ x ∈ w, 0 ≤ x) ∨
    method = "min" ∨ method = "max" ∨ method = "median" ∨ method = "last" ∨ method = "linear" ∨ method = "linear_seg" ∨ method = "auto"

theorem linearSeg_bounds {x y lo hi : ℚ} (hx : lo ≤ x ∧ x ≤ hi) (hy : lo ≤ y ∧ y ≤ hi) {c : Nat} {v : ℚ} (hv : v ∈ linearSeg x y c) :
    lo ≤ v ∧ v ≤ hi := by
  unfold linearSeg at hv
  obtain ⟨k, hk, rfl⟩ := List.mem_map.1 hv
  have hk := List.mem_range.1 hk
  have h0 : (0 : ℚ) ≤ ((k + 1 : Nat) : ℚ) / ((c + 1 : Nat) : ℚ) := by positivity
  have h1 : ((k + 1 : Nat) : ℚ) / ((c + 1 : Nat) : ℚ) ≤ 1 := by
    rw [div_le_one (by positivity)]
    exact_mod_cast Nat.succ_le_succ (le_of_lt hk)
  rw [mul_div_assoc]
  exact between_of_seg hx hy h0 h1

/-- **C91** (range). A method that averages, ranks, copies or interpolates linearly fills a position with a value between the least and
the greatest observed value, or leaves it empty. -/
theorem C91_range {spline : SplineOracle} (hsp : SplineLaws spline) {idx : List Int} {vs : List ℚ} {P : FillProc} (hne : idx ≠ [])
    (hP : FillProc.init idx vs = .ok P) {method : String} {a : FillArgs} (hm : Averaging method a) {l : List (Option ℚ)} {tags : List Bool}
    (hr : P.fillUp spline method a = .ok (some (l, tags))) :
    ∀ v, some v ∈ l → (∃ x ∈ observations idx vs, x.2 ≤ v) ∧ ∃ y ∈ observations idx vs, v ≤ y.2 := by
  obtain ⟨hn, rfl, onErr, short, period, m, e1, e2, e3, e4, hl⟩ := fillUp_ok hr
  obtain ⟨hg, -, -⟩ := FillProc.init_good hne hP
  rw [← obs_eq hne hP]
  have hvne : P.values ≠ [] := by
    intro e
    have := hg.len
    rw [e] at this
    have hh := hg.head
    rw [List.length_eq_zero_iff.1 this] at hh
    simp at hh
  have mem : ∀ v ∈ P.values, ∃ a ∈ P.obs, a.2 = v := by
    intro v hv
    obtain ⟨k, hk, rfl⟩ := List.mem_iff_getElem.1 hv
    have hkl : k < P.indices.length := by rw [hg.len]; exact hk
    refine ⟨P.obs[k]'(by unfold FillProc.obs; rw [List.length_zip]; omega), List.getElem_mem _, ?_⟩
    simp [FillProc.obs]
  suffices hb : ∀ v, some v ∈ l → npMin P.values ≤ v ∧ v ≤ npMax P.values by
    intro v hv
    obtain ⟨h1, h2⟩ := hb v hv
    obtain ⟨x, hx, ex⟩ := mem _ (npMin_mem hvne)
    obtain ⟨y, hy, ey⟩ := mem _ (npMax_mem hvne)
    exact ⟨⟨x, hx, by rw [ex]; exact h1⟩, y, hy, by rw [ey]; exact h2⟩
  have hval : ∀ v ∈ P.values, npMin P.values ≤ v ∧ v ≤ npMax P.values := fun v hv => ⟨npMin_le hv, le_npMax hv⟩
  have hgetD : ∀ k, k < P.values.length → npMin P.values ≤ P.values.getD k 0 ∧ P.values.getD k 0 ≤ npMax P.values := by
    intro k hk
    rw [List.getD_eq_getElem?_getD, List.getElem?_eq_getElem hk]
    exact hval _ (List.getElem_mem _)
  by_cases hen : m = .auto ∨ m = .linear ∨ m = .spline
  · refine (entire_keeps hsp hg hn hen (periodOf_pos e3) hl).2.2 ?_
    rintro rfl
    rcases hm with ⟨rfl | rfl, -⟩ | rfl | rfl | rfl | rfl | rfl | rfl | rfl <;> simp [FillMethod.ofName] at e4
  · have hsafe : Safe m a onErr short := by
      left
      rintro rfl
      rcases hm with ⟨rfl | rfl, -⟩ | rfl | rfl | rfl | rfl | rfl | rfl | rfl <;> simp [FillMethod.ofName] at e4
    have hw : (m = .average ∨ m = .weightedAvg) → ∀ w, a.weights = some (some w) → ∀ x ∈ w, 0 ≤ x := by
      intro hmm
      rcases hm with ⟨-, h⟩ | rfl | rfl | rfl | rfl | rfl | rfl | rfl
      · exact h
      all_goals
        exfalso
        simp [FillMethod.ofName] at e4
        rcases hmm with e | e <;> rw [e] at e4 <;> cases e4
    have hconst : m ≠ .constant := by
      rintro rfl
      rcases hm with ⟨rfl | rfl, -⟩ | rfl | rfl | rfl | rfl | rfl | rfl | rfl <;> simp [FillMethod.ofName] at e4
    have hspl : m ≠ .splineSeg := by
      rintro rfl
      rcases hm with ⟨rfl | rfl, -⟩ | rfl | rfl | rfl | rfl | rfl | rfl | rfl <;> simp [FillMethod.ofName] at e4
    obtain ⟨t1, t2, t3⟩ := hg.toFill
    have hloop : fillWith spline P m a onErr short period = fillLoop (stepMethod spline P a short period m) onErr P.values P.allCount
        P.allCount 0 0 P.indices (valuesToFill P.allCount P.indices P.values) := by
      cases m <;> first
        | rfl
        | simp at hen
    rw [hloop] at hl
    have hinit : Bounded (npMin P.values) (npMax P.values) (valuesToFill P.allCount P.indices P.values) := by
      intro v hv
      obtain ⟨k, hk⟩ := List.mem_iff_getElem?.1 hv
      by_cases hx : Missing P.obs k
      · have := t3 k (by rw [← t1]; exact (List.getElem?_eq_some_iff.1 hk).1) hx
        rw [this] at hk
        cases hk
      · unfold Missing at hx
        push Not at hx
        obtain ⟨w, hw'⟩ := hx
        have := t2 _ hw'
        rw [this] at hk
        cases hk
        exact hval _ (List.of_mem_zip hw').2
    have hone : ∀ p g, Bounded (npMin P.values) (npMax P.values) g → ∀ v,
        stepMethod spline P a short period m p (rankOf P.indices p) g = .ok (.one v) →
          ∀ x, v = some x → npMin P.values ≤ x ∧ x ≤ npMax P.values := by
      intro p g hgb v hv
      cases m <;> simp only [stepMethod, except_map_ok] at hv
      case constant => exact absurd rfl hconst
      case splineSeg => exact absurd rfl hspl
      case linearSeg => cases hv
      case last =>
        split at hv
        · rename_i w hw'
          cases hv
          intro x hx
          cases hx
          exact hval _ (List.mem_of_getElem? hw')
        · cases hv
      case weightedAvg =>
        split at hv
        · cases hv
        · rename_i ws hws
          rw [except_map_ok] at hv
          obtain ⟨o, ho, e⟩ := hv
          cases e
          exact basicFunc_bounds (fun w e => hw (.inr rfl) w (by rw [hws, e])) hval hgb ho
      case average =>
        obtain ⟨o, ho, e⟩ := hv
        cases e
        refine basicFunc_bounds (fun w e => hw (.inl rfl) w ?_) hval hgb ho
        cases hws : a.weights with
        | none => rw [hws] at e; cases e
        | some z => rw [hws] at e; simp only [Option.getD_some] at e; rw [e]
      case auto => simp at hen
      case linear => simp at hen
      case spline => simp at hen
      all_goals
        obtain ⟨o, ho, e⟩ := hv
        cases e
        exact basicFunc_bounds (by simp) hval hgb ho
    have key := (step_fill hsp hg hn (m := m) (a := a) (period := period) hsafe (Bounded (npMin P.values) (npMax P.values))
      (fun _ _ v => ∀ x, v = some x → npMin P.values ≤ x ∧ x ≤ npMax P.values) hinit
      (fun p _ _ g hgb _ v hv => ⟨bounded_set hgb (hone p g hgb v hv), hone p g hgb v hv⟩)
      (by
        intro p hp hpm hst g hgb hgl l hl
        have hmm := (stepMethod_many hsp hl).1.resolve_right hspl
        subst hmm
        simp only [stepMethod, Except.ok.injEq, Fill.many.injEq] at hl
        have hr1 := rankOf_bounds hg hp hpm
        have hin : ∀ v ∈ l, npMin P.values ≤ v ∧ v ≤ npMax P.values := by
          intro v hv
          rw [← hl] at hv
          exact linearSeg_bounds (hgetD _ (by omega)) (hgetD _ hr1.2) hv
        refine ⟨?_, fun t ht x hx => by cases hx; exact hin _ (List.getElem_mem _)⟩
        intro v hv
        unfold setSlice at hv
        rcases List.mem_append.1 hv with hv | hv
        · rcases List.mem_append.1 hv with hv | hv
          · exact hgb v (List.mem_of_mem_take hv)
          · obtain ⟨w, hw', e⟩ := List.mem_map.1 hv
            cases e
            exact hin _ hw'
        · exact hgb v (List.mem_of_mem_drop hv))
      (fun _ p _ _ g hgb => ⟨bounded_set hgb (by simp), by simp⟩)
      (fun _ p _ _ g hgb v hv => by
        have := hval v (List.mem_of_getElem? hv)
        exact ⟨bounded_set hgb (by rintro x ⟨⟩; exact this), by rintro x ⟨⟩; exact this⟩)).2 l hl
    obtain ⟨r1, r2, r3⟩ := key
    intro v hv
    obtain ⟨k, hk⟩ := List.mem_iff_getElem?.1 hv
    have hkn : k < P.allCount := by rw [← r1]; exact (List.getElem?_eq_some_iff.1 hk).1
    by_cases hx : k ∈ P.indices
    · obtain ⟨w, hw'⟩ := mem_zip_of_mem hg.len hx
      have := r2 _ hw'
      rw [this] at hk
      cases hk
      exact hval _ (List.of_mem_zip hw').2
    · obtain ⟨o, ho, hq⟩ := r3 k hkn hx
      rw [ho] at hk
      cases hk
      exact hq v rfl

/-! ### non-vacuity -/

/-- a series with two gaps of two positions -/
def demoProc : FillProc := ⟨[0, 1, 2, 5, 6, 7, 10, 11], [1, 2, 3, 9, 3, 2, 1, 2], 12, 4, true,
  [⟨false, 0, 0⟩, ⟨false, 0, 0⟩, ⟨false, 0, 0⟩, ⟨true, 2, 2⟩, ⟨true, 1, 2⟩, ⟨false, 0, 0⟩, ⟨false, 0, 0⟩, ⟨false, 0, 0⟩, ⟨true, 2, 2⟩,
    ⟨true, 1, 2⟩, ⟨false, 0, 0⟩, ⟨false, 0, 0⟩]⟩

example : FillProc.init [0, 1, 2, 5, 6, 7, 10, 11] [1, 2, 3, 9, 3, 2, 1, 2] = .ok demoProc := rfl

/-- the values of a call on it -/
def demoCall (method : String) (a : FillArgs) : Option (List (Option ℚ)) :=
  match demoProc.fillUp linearSpline method a with
  | .ok (some r) => some r.1
  | _ => none

example : demoCall "spline_seg" { backwardN := some 2, forwardN := some 2 } = some ([some 1, some 2, some 3, some 5, some 7, some 9, some 3, some 2, some (5/3), some (4/3), some 1, some 2]) := by decide +kernel
example : demoCall "spline" {} = some ([some 1, some 2, some 3, some 5, some 7, some 9, some 3, some 2, some (5/3), some (4/3), some 1, some 2]) := by decide +kernel
example : SafeCall "spline_seg" { backwardN := some 2, forwardN := some 2 } := .inr (.inl (.inl rfl))
example : Averaging "median" { backwardN := some 2, forwardN := some 1 } := by simp [Averaging]

end Verif
