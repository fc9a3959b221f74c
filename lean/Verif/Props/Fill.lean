import Verif.Spec.Fill
import Verif.Uni.FillUp

/-!
# Gap filling (C25-C27)
-/

namespace Verif

open Spec

/-! ### The constructor -/

theorem orderLoop_ok {prev : Int} {t : List Int} {found : Bool} {m : Int}
    (h : orderLoop prev t = .ok (found, m)) :
    (prev :: t).Pairwise (· < ·) ∧ m = (prev :: t).getLast (by simp) - prev - t.length ∧
      (found = true ↔ 0 < m) ∧ 0 ≤ m := by
  induction t generalizing prev found m with
  | nil => simp [orderLoop] at h; obtain ⟨rfl, rfl⟩ := h; simp
  | cons k t ih =>
    rw [orderLoop] at h
    split at h
    · cases h
    · rename_i hk
      split at h
      · cases h
      · rename_i f' m' h'
        obtain ⟨h1, h2, h3, h4⟩ := ih h'
        simp only [Except.ok.injEq, Prod.mk.injEq] at h
        obtain ⟨rfl, rfl⟩ := h
        refine ⟨?_, ?_, ?_, by omega⟩
        · rw [List.pairwise_cons]
          refine ⟨?_, h1⟩
          intro x hx
          rcases List.mem_cons.1 hx with rfl | hx
          · omega
          · have := (List.pairwise_cons.1 h1).1 x hx; omega
        · rw [List.getLast_cons (by simp)]
          rw [h2]
          simp only [List.length_cons]
          push_cast
          ring
        · simp only [Bool.or_eq_true, decide_eq_true_eq, h3]
          omega

/-- What the constructor guarantees for a nonempty series. -/
structure FillProc.Good (P : FillProc) : Prop where
  len : P.indices.length = P.values.length
  sorted : P.indices.Pairwise (· < ·)
  head : 0 ∈ P.indices
  pos : 0 < P.allCount
  last : P.allCount - 1 ∈ P.indices
  inside : ∀ k ∈ P.indices, k < P.allCount
  need : P.need = true ↔ P.indices.length < P.allCount ∧ P.allCount ≤ 17280
  missing : P.missing + P.indices.length = P.allCount
  info : P.need = true → P.info = gapLoop P.allCount 0 P.indices 0

theorem FillProc.init_good {idx : List Int} {vs : List ℚ} {P : FillProc} (hne : idx ≠ [])
    (h : FillProc.init idx vs = .ok P) :
    P.Good ∧ idx = P.indices.map Int.ofNat ∧ P.values = vs := by
  cases idx with
  | nil => simp at hne
  | cons k0 t =>
    unfold FillProc.init at h
    simp only at h
    split at h
    · cases h
    rename_i hlen
    split at h
    · cases h
    rename_i found m ho
    split at h
    · cases h
    rename_i hk0
    simp only [ne_eq, not_not] at hk0 hlen
    subst hk0
    obtain ⟨hs, hm, hf, hm0⟩ := orderLoop_ok ho
    simp only [Except.ok.injEq] at h
    subst h
    have hnn : ∀ x ∈ (0 : Int) :: t, 0 ≤ x := by
      intro x hx
      rcases List.mem_cons.1 hx with rfl | hx
      · exact le_refl _
      · exact le_of_lt ((List.pairwise_cons.1 hs).1 x hx)
    have hmap : (0 : Int) :: t = (((0 : Int) :: t).map Int.toNat).map Int.ofNat := by
      rw [List.map_map]
      conv_lhs => rw [← List.map_id (0 :: t)]
      apply List.map_congr_left
      intro x hx
      have := hnn x hx
      simp only [id_eq, Function.comp_apply, Int.ofNat_eq_natCast]
      omega
    have hlast : ((0 : Int) :: t).getLast?.getD 0 = ((0 : Int) :: t).getLast (by simp) := by
      rw [List.getLast?_eq_getLast_of_ne_nil (by simp)]; rfl
    have hL := hnn _ (List.getLast_mem (l := (0 : Int) :: t) (by simp))
    have hle : ∀ x ∈ (0 : Int) :: t, x ≤ ((0 : Int) :: t).getLast (by simp) := by
      intro x hx
      have hs' := hs
      rw [← List.dropLast_concat_getLast (l := (0 : Int) :: t) (by simp)] at hs' hx
      rcases List.mem_append.1 hx with hx | hx
      · exact le_of_lt ((List.pairwise_append.1 hs').2.2 x hx _ (by simp))
      · simp at hx; omega
    have hmt : (m.toNat : Int) = m := by omega
    refine ⟨?_, hmap, rfl⟩
    refine { len := by simpa using hlen, sorted := ?_, head := by simp, pos := by simp, last := ?_,
             inside := ?_, need := ?_, missing := ?_, info := ?_ }
    · simp only
      rw [List.pairwise_map]
      refine hs.imp_of_mem ?_
      intro a b ha hb hab
      have := hnn a ha
      have := hnn b hb
      omega
    · simp only [hlast, Nat.add_sub_cancel]
      exact List.mem_map_of_mem (List.getLast_mem _)
    · intro k hk
      obtain ⟨x, hx, rfl⟩ := List.mem_map.1 hk
      have h1 := hnn x hx
      have h2 := hle x hx
      simp only [hlast]
      omega
    · simp only [hlast, Bool.and_eq_true, decide_eq_true_eq, hf, maxFillUpLength, List.length_map,
        List.length_cons]
      constructor
      · rintro ⟨a, b⟩; exact ⟨by omega, by omega⟩
      · rintro ⟨a, b⟩; exact ⟨by omega, by omega⟩
    · simp only [hlast, List.length_map, List.length_cons]
      omega
    · intro hn
      simp only at hn ⊢
      rw [if_pos hn]

/-- observed pairs -/
def FillProc.obs (P : FillProc) : List (Nat × ℚ) := P.indices.zip P.values

theorem pairwise_zip_fst {R : Nat → Nat → Prop} {l : List Nat} {vs : List ℚ} (h : l.Pairwise R) :
    (l.zip vs).Pairwise fun a b => R a.1 b.1 := by
  induction l generalizing vs with
  | nil => simp
  | cons a t ih =>
    cases vs with
    | nil => simp
    | cons v vs =>
      rw [List.zip_cons_cons, List.pairwise_cons]
      rw [List.pairwise_cons] at h
      exact ⟨fun b hb => h.1 _ (List.of_mem_zip hb).1, ih h.2⟩

theorem mem_zip_of_mem {l : List Nat} {vs : List ℚ} (hl : l.length = vs.length) {k : Nat} (h : k ∈ l) :
    ∃ v, (k, v) ∈ l.zip vs := by
  obtain ⟨i, hi, rfl⟩ := List.mem_iff_getElem.1 h
  refine ⟨vs[i]'(by omega), ?_⟩
  rw [List.mem_iff_getElem]
  exact ⟨i, by simp; omega, by simp⟩

theorem FillProc.Good.gapped {P : FillProc} (h : P.Good) : Gapped P.obs P.allCount where
  ascending := pairwise_zip_fst h.sorted
  first := mem_zip_of_mem h.len h.head
  last := by
    obtain ⟨v, hv⟩ := mem_zip_of_mem h.len h.last
    exact ⟨v, h.pos, hv⟩
  inside := fun a ha => h.inside _ (List.of_mem_zip ha).1

theorem FillProc.Good.missing_iff {P : FillProc} (h : P.Good) (p : Nat) : Missing P.obs p ↔ p ∉ P.indices := by
  constructor
  · intro hm hp
    obtain ⟨v, hv⟩ := mem_zip_of_mem h.len hp
    exact hm v hv
  · intro hp v hv
    exact hp (List.of_mem_zip hv).1

/-! ### The sweep over the grid -/

/-- `idx` is an ascending set of positions in `[i, i+n)` that contains the last one -/
structure Covers (idx : List Nat) (i n : Nat) : Prop where
  sorted : idx.Pairwise (· < ·)
  mem : ∀ k ∈ idx, i ≤ k ∧ k < i + n
  last : 0 < n → i + n - 1 ∈ idx

theorem Covers.hit {i n : Nat} {t : List Nat} (h : Covers (i :: t) i (n + 1)) : Covers t (i + 1) n where
  sorted := (List.pairwise_cons.1 h.sorted).2
  mem := fun k hk => by
    have := h.mem k (by simp [hk])
    have := (List.pairwise_cons.1 h.sorted).1 k hk
    omega
  last := fun hn => by
    have := h.last (by omega)
    rcases List.mem_cons.1 this with h' | h'
    · omega
    · rwa [show i + 1 + n - 1 = i + (n + 1) - 1 by omega]

theorem Covers.miss {i n k : Nat} {t : List Nat} (h : Covers (k :: t) i (n + 1)) (hk : k ≠ i) :
    Covers (k :: t) (i + 1) n where
  sorted := h.sorted
  mem := fun x hx => by
    have h1 := h.mem x hx
    have h2 := h.mem k (by simp)
    rcases List.mem_cons.1 hx with rfl | hx
    · omega
    · have := (List.pairwise_cons.1 h.sorted).1 x hx; omega
  last := fun hn => by
    have := h.last (by omega)
    rwa [show i + 1 + n - 1 = i + (n + 1) - 1 by omega]

theorem Covers.notMem {i n k : Nat} {t : List Nat} (h : Covers (k :: t) i n) (hk : k ≠ i) : i ∉ k :: t := by
  intro hi
  rcases List.mem_cons.1 hi with h' | h'
  · exact hk h'.symm
  · have h1 := (List.pairwise_cons.1 h.sorted).1 i h'
    have h2 := (h.mem k (by simp)).1
    omega

theorem Covers.ne_nil {i n : Nat} {idx : List Nat} (h : Covers idx i (n + 1)) : idx ≠ [] := by
  intro e
  have := h.last (by omega)
  rw [e] at this
  simp at this

theorem FillProc.Good.covers {P : FillProc} (h : P.Good) : Covers P.indices 0 P.allCount where
  sorted := h.sorted
  mem := fun k hk => ⟨by omega, by have := h.inside k hk; omega⟩
  last := fun _ => by simpa using h.last

theorem gapLoop_tags {n i c : Nat} {idx : List Nat} (h : Covers idx i n) :
    (gapLoop n i idx c).map (·.tag) = (List.range' i n).map fun p => decide (p ∉ idx) := by
  induction n generalizing i idx c with
  | zero => simp [gapLoop]
  | succ n ih =>
    cases idx with
    | nil => exact absurd rfl h.ne_nil
    | cons k t =>
      rw [gapLoop, List.range'_succ]
      split
      · rename_i hk
        subst hk
        simp only [List.map_cons, ih h.hit]
        congr 1
        · simp
        · apply List.map_congr_left
          intro p hp
          have : k + 1 ≤ p := (List.mem_range'_1.1 hp).1
          simp; omega
      · rename_i hk
        simp only [List.map_cons, ih (h.miss hk)]
        congr 1
        have := h.notMem hk
        simp only [this, not_false_eq_true, decide_true]

theorem FillProc.Good.tagged {P : FillProc} (h : P.Good) (hn : P.need = true) :
    Tagged P.obs P.allCount P.tags := by
  unfold FillProc.tags
  rw [h.info hn, gapLoop_tags h.covers]
  refine ⟨by simp, ?_⟩
  intro p hp
  rw [h.missing_iff]
  simp [List.getElem?_map, List.getElem?_range', hp]

/-! ### Values placed on the grid -/

theorem valuesToFill_go {obs : List (Nat × ℚ)} (hs : obs.Pairwise fun a b => a.1 < b.1)
    (base : List (Option ℚ)) (hin : ∀ a ∈ obs, a.1 < base.length) :
    let r := obs.foldl (fun full (kv : Nat × ℚ) => full.set kv.1 (some kv.2)) base
    r.length = base.length ∧ (∀ a ∈ obs, r[a.1]? = some (some a.2)) ∧
      ∀ p, Missing obs p → r[p]? = base[p]? := by
  induction obs generalizing base with
  | nil => simp
  | cons a t ih =>
    rw [List.pairwise_cons] at hs
    have h' := ih hs.2 (base.set a.1 (some a.2)) (by
      intro b hb
      rw [List.length_set]
      exact hin b (by simp [hb]))
    obtain ⟨h1, h2, h3⟩ := h'
    simp only [List.foldl_cons]
    refine ⟨by rw [h1, List.length_set], ?_, ?_⟩
    · intro b hb
      rcases List.mem_cons.1 hb with rfl | hb
      · rw [h3 b.1]
        · simp [hin b (by simp)]
        · intro v hv
          have := hs.1 _ hv
          simp at this
      · exact h2 b hb
    · intro p hp
      rw [h3 p (fun v hv => hp v (by simp [hv]))]
      have : a.1 ≠ p := by
        rintro rfl
        exact hp a.2 (by simp)
      simp [List.getElem?_set, this]

theorem FillProc.Good.toFill {P : FillProc} (h : P.Good) :
    let r := valuesToFill P.allCount P.indices P.values
    r.length = P.allCount ∧ (∀ a ∈ P.obs, r[a.1]? = some (some a.2)) ∧
      ∀ p < P.allCount, Missing P.obs p → r[p]? = some none := by
  obtain ⟨h1, h2, h3⟩ := valuesToFill_go (obs := P.obs) h.gapped.ascending (List.replicate P.allCount none)
    (by simpa using h.gapped.inside)
  refine ⟨h1.trans (by simp), h2, ?_⟩
  intro p hp hm
  exact (h3 p hm).trans (by simp [hp])

/-! ### Step by step filling -/

/-- how many observed positions lie before `p` -/
def rankOf (idx : List Nat) (p : Nat) : Nat := (idx.filter (· < p)).length

/-- The loop fills each missing position once, in order, keeping `Inv`; `Q p j v` relates position, rank of the
next observation and value. -/
theorem stepLoop_spec {f : Nat → Nat → List (Option ℚ) → Except PyErr (Option ℚ)} {onErr : IfException}
    (Inv : List (Option ℚ) → Prop) (Q : Nat → Nat → Option ℚ → Prop) {n i j : Nat} {idx : List Nat}
    {full r : List (Option ℚ)} (hc : Covers idx i n) (hlen : i + n = full.length) (hI : Inv full)
    (hf : ∀ p, i ≤ p → p < i + n → p ∉ idx → ∀ g, Inv g → g.length = full.length →
      (∀ v, f p (j + rankOf idx p) g = .ok v → Inv (g.set p v) ∧ Q p (j + rankOf idx p) v) ∧
      (onErr = .fillWithNone → Inv (g.set p none) ∧ Q p (j + rankOf idx p) none))
    (h : stepLoop f onErr n i j idx full = .ok r) :
    r.length = full.length ∧ Inv r ∧ (∀ p, p < i ∨ p ∈ idx → r[p]? = full[p]?) ∧
      ∀ p, i ≤ p → p < i + n → p ∉ idx → ∃ v, r[p]? = some v ∧ Q p (j + rankOf idx p) v := by
  induction n generalizing i j idx full with
  | zero =>
    simp only [stepLoop, Except.ok.injEq] at h
    subst h
    exact ⟨rfl, hI, fun _ _ => rfl, fun p a b => by omega⟩
  | succ n ih =>
    cases idx with
    | nil => exact absurd rfl hc.ne_nil
    | cons k t =>
      rw [stepLoop] at h
      have step : ∀ v, Inv (full.set i v) → Q i (j + rankOf (k :: t) i) v → k ≠ i →
          stepLoop f onErr n (i + 1) j (k :: t) (full.set i v) = .ok r →
          r.length = full.length ∧ Inv r ∧ (∀ p, p < i ∨ p ∈ k :: t → r[p]? = full[p]?) ∧
          ∀ p, i ≤ p → p < i + (n + 1) → p ∉ k :: t → ∃ v, r[p]? = some v ∧ Q p (j + rankOf (k :: t) p) v := by
        intro v hi hq hk hstep
        obtain ⟨h1, h2, h3, h4⟩ := ih (hc.miss hk) (by rw [List.length_set]; omega) hi
          (by
            intro p a b c g hg hgl
            rw [List.length_set] at hgl
            exact hf p (by omega) (by omega) c g hg hgl) hstep
        refine ⟨by rw [h1, List.length_set], h2, ?_, ?_⟩
        · intro p hp
          have hpi : i ≠ p := by
            rintro rfl
            rcases hp with hp | hp
            · omega
            · exact hc.notMem hk hp
          rw [h3 p (by rcases hp with hp | hp <;> [left; right] <;> [omega; exact hp])]
          simp [List.getElem?_set, hpi]
        · intro p a b c
          rcases Nat.lt_or_ge i p with hip | hip
          · exact h4 p (by omega) (by omega) c
          · have : p = i := by omega
            subst this
            refine ⟨v, ?_, hq⟩
            rw [h3 p (.inl (by omega))]
            simp [show p < full.length by omega]
      split at h
      · rename_i hk
        subst hk
        have hr : ∀ p, k + 1 ≤ p → p ∉ k :: t → j + 1 + rankOf t p = j + rankOf (k :: t) p := by
          intro p hp _
          unfold rankOf
          rw [List.filter_cons_of_pos (by simp; omega)]
          simp; omega
        obtain ⟨h1, h2, h3, h4⟩ := ih hc.hit (by omega) hI (by
            intro p a b c g hg hgl
            have hnm : p ∉ k :: t := by simp; exact ⟨by omega, c⟩
            rw [hr p a hnm]
            exact hf p (by omega) (by omega) hnm g hg hgl) h
        refine ⟨h1, h2, ?_, ?_⟩
        · intro p hp
          refine h3 p ?_
          rcases hp with hp | hp
          · left; omega
          · rcases List.mem_cons.1 hp with rfl | hp
            · left; omega
            · exact .inr hp
        · intro p a b c
          have hpk : p ≠ k := by rintro rfl; simp at c
          have := h4 p (by omega) (by omega) (fun hm => c (by simp [hm]))
          rwa [hr p (by omega) c] at this
      · rename_i hk
        have hfi := hf i (by omega) (by omega) (hc.notMem hk) full hI rfl
        have hr0 : rankOf (k :: t) i = 0 := by
          unfold rankOf
          rw [List.length_eq_zero_iff, List.filter_eq_nil_iff]
          intro x hx
          have := (hc.mem x hx).1
          simp; omega
        rw [hr0] at hfi
        split at h
        · rename_i v hv
          obtain ⟨a, b⟩ := hfi.1 v hv
          exact step v a (by rw [hr0]; exact b) hk h
        · cases onErr with
          | raise => simp at h
          | fillWithNone =>
            obtain ⟨a, b⟩ := hfi.2 rfl
            exact step none a (by rw [hr0]; exact b) hk h

theorem rankOf_getElem {idx : List Nat} (hs : idx.Pairwise (· < ·)) {p k : Nat} (hk : k < idx.length)
    (h1 : idx[k] < p) (h2 : ∀ x ∈ idx, x < p → x ≤ idx[k]) : rankOf idx p = k + 1 := by
  have e : idx.filter (· < p) = idx.take (k + 1) := by
    conv_lhs => rw [← List.take_append_drop (k + 1) idx]
    rw [List.filter_append]
    have a : (idx.take (k + 1)).filter (· < p) = idx.take (k + 1) := by
      rw [List.filter_eq_self]
      intro x hx
      obtain ⟨m, hm, rfl⟩ := List.mem_iff_getElem.1 hx
      rw [List.length_take] at hm
      rw [List.getElem_take]
      have : idx[m] ≤ idx[k] := by
        rcases Nat.lt_or_ge m k with hmk | hmk
        · exact le_of_lt (List.pairwise_iff_getElem.1 hs m k (by omega) hk hmk)
        · have : m = k := by omega
          subst this; exact le_refl _
      simp; omega
    have b : (idx.drop (k + 1)).filter (· < p) = [] := by
      rw [List.filter_eq_nil_iff]
      intro x hx
      obtain ⟨m, hm, rfl⟩ := List.mem_iff_getElem.1 hx
      rw [List.length_drop] at hm
      rw [List.getElem_drop]
      have h3 := List.pairwise_iff_getElem.1 hs k (k + 1 + m) hk (by omega) (by omega)
      simp only [decide_eq_true_eq]
      intro h4
      have := h2 _ (List.getElem_mem (by omega)) h4
      omega
    rw [a, b, List.append_nil]
  unfold rankOf
  rw [e, List.length_take]; omega

/-- Every missing position has an observation before and after it. -/
theorem exists_lastBefore {obs : List (Nat × ℚ)} {n p : Nat} (h : Gapped obs n) (hm : Missing obs p) :
    ∃ a, LastBefore obs p a := by
  obtain ⟨v, hv⟩ := h.first
  have hp : 0 < p := by
    rcases Nat.eq_zero_or_pos p with rfl | hp
    · exact absurd hv (hm v)
    · exact hp
  have : ∀ l : List (Nat × ℚ), (∃ a ∈ l, a.1 < p) → ∃ a ∈ l, a.1 < p ∧ ∀ b ∈ l, b.1 < p → b.1 ≤ a.1 := by
    intro l
    induction l with
    | nil => simp
    | cons a t ih =>
      rintro ⟨b, hb, hbp⟩
      by_cases ht : ∃ c ∈ t, c.1 < p
      · obtain ⟨c, hc, hcp, hmax⟩ := ih ht
        by_cases hac : a.1 < p ∧ c.1 < a.1
        · refine ⟨a, by simp, hac.1, ?_⟩
          intro d hd hdp
          rcases List.mem_cons.1 hd with rfl | hd
          · exact le_refl _
          · have := hmax d hd hdp; omega
        · refine ⟨c, by simp [hc], hcp, ?_⟩
          intro d hd hdp
          rcases List.mem_cons.1 hd with rfl | hd
          · push Not at hac
            exact hac hdp
          · exact hmax d hd hdp
      · push Not at ht
        rcases List.mem_cons.1 hb with rfl | hb
        · refine ⟨b, by simp, hbp, ?_⟩
          intro d hd hdp
          rcases List.mem_cons.1 hd with rfl | hd
          · exact le_refl _
          · have := ht d hd; omega
        · have := ht b hb; omega
  obtain ⟨a, ha⟩ := this obs ⟨_, hv, hp⟩
  exact ⟨a, ha⟩

theorem exists_firstAfter {obs : List (Nat × ℚ)} {n p : Nat} (h : Gapped obs n) (hpn : p < n)
    (hm : Missing obs p) : ∃ a, FirstAfter obs p a := by
  obtain ⟨v, hn, hv⟩ := h.last
  have hp : p < n - 1 := by
    rcases Nat.lt_or_ge p (n - 1) with hp | hp
    · exact hp
    · have : p = n - 1 := by omega
      subst this
      exact absurd hv (hm v)
  have : ∀ l : List (Nat × ℚ), (∃ a ∈ l, p < a.1) → ∃ a ∈ l, p < a.1 ∧ ∀ b ∈ l, p < b.1 → a.1 ≤ b.1 := by
    intro l
    induction l with
    | nil => simp
    | cons a t ih =>
      rintro ⟨b, hb, hbp⟩
      by_cases ht : ∃ c ∈ t, p < c.1
      · obtain ⟨c, hc, hcp, hmax⟩ := ih ht
        by_cases hac : p < a.1 ∧ a.1 < c.1
        · refine ⟨a, by simp, hac.1, ?_⟩
          intro d hd hdp
          rcases List.mem_cons.1 hd with rfl | hd
          · exact le_refl _
          · have := hmax d hd hdp; omega
        · refine ⟨c, by simp [hc], hcp, ?_⟩
          intro d hd hdp
          rcases List.mem_cons.1 hd with rfl | hd
          · push Not at hac
            exact hac hdp
          · exact hmax d hd hdp
      · push Not at ht
        rcases List.mem_cons.1 hb with rfl | hb
        · refine ⟨b, by simp, hbp, ?_⟩
          intro d hd hdp
          rcases List.mem_cons.1 hd with rfl | hd
          · exact le_refl _
          · have := ht d hd; omega
        · have := ht b hb; omega
  obtain ⟨a, ha⟩ := this obs ⟨_, hv, hp⟩
  exact ⟨a, ha⟩

/-- a list of values all present -/
theorem exists_values {l : List (Option ℚ)} (h : ∀ p < l.length, ∃ v, l[p]? = some (some v)) :
    ∃ full : List ℚ, l = full.map some := by
  induction l with
  | nil => exact ⟨[], rfl⟩
  | cons a t ih =>
    obtain ⟨v, hv⟩ := h 0 (by simp)
    obtain ⟨full, rfl⟩ := ih fun p hp => h (p + 1) (by simpa using hp)
    simp only [List.getElem?_cons_zero, Option.some.injEq] at hv
    exact ⟨v :: full, by simp [hv]⟩

theorem getElem?_map_some {full : List ℚ} {p : Nat} {v : ℚ} :
    (full.map some)[p]? = some (some v) ↔ full[p]? = some v := by
  rw [List.getElem?_map]
  cases full[p]? <;> simp

/-- mode `previous` / `last` -/
theorem fillLast_spec {P : FillProc} (h : P.Good) {l : List (Option ℚ)} (hl : P.fillLast = .ok l) :
    ∃ full, l = full.map some ∧ Completes P.obs P.allCount full ∧ FilledPrevious P.obs P.allCount full := by
  obtain ⟨t1, t2, t3⟩ := h.toFill
  have hs := stepLoop_spec (fun _ => True) (fun _ j v => funcLast P.values j = .ok v) h.covers
    (by rw [t1]; omega) trivial (by
      intro p _ _ _ g _ _
      exact ⟨fun v hv => ⟨trivial, hv⟩, fun e => by cases e⟩) hl
  obtain ⟨s1, -, s3, s4⟩ := hs
  rw [t1] at s1
  have key : ∀ p < P.allCount, Missing P.obs p → ∀ a, LastBefore P.obs p a → l[p]? = some (some a.2) := by
    intro p hp hm a ha
    obtain ⟨v, hv, hQ⟩ := s4 p (by omega) (by omega) ((h.missing_iff p).1 hm)
    obtain ⟨k, hk, rfl⟩ := List.mem_iff_getElem.1 ha.1
    have hkl : k < P.indices.length := by
      unfold FillProc.obs at hk; rw [List.length_zip] at hk; omega
    have hkv : k < P.values.length := by rw [← h.len]; exact hkl
    have e1 : (P.obs[k]).1 = P.indices[k] := by simp [FillProc.obs]
    have e2 : (P.obs[k]).2 = P.values[k] := by simp [FillProc.obs]
    have hr : rankOf P.indices p = k + 1 := by
      apply rankOf_getElem h.sorted hkl
      · rw [← e1]; exact ha.2.1
      · intro x hx hxp
        obtain ⟨w, hw⟩ := mem_zip_of_mem h.len hx
        rw [← e1]
        exact ha.2.2 _ hw hxp
    rw [hr] at hQ
    unfold funcLast at hQ
    simp only [Nat.zero_add, Nat.add_sub_cancel, List.getElem?_eq_getElem hkv, Except.ok.injEq] at hQ
    rw [hv, ← hQ, e2]
  have hall : ∀ p < l.length, ∃ v, l[p]? = some (some v) := by
    intro p hp
    rw [s1] at hp
    by_cases hm : Missing P.obs p
    · obtain ⟨a, ha⟩ := exists_lastBefore h.gapped hm
      exact ⟨a.2, key p hp hm a ha⟩
    · unfold Missing at hm
      push Not at hm
      obtain ⟨v, hv⟩ := hm
      refine ⟨v, ?_⟩
      rw [s3 p (.inr (List.of_mem_zip hv).1)]
      exact t2 _ hv
  obtain ⟨full, rfl⟩ := exists_values hall
  refine ⟨full, rfl, ⟨by simpa using s1, ?_⟩, ?_⟩
  · intro a ha
    rw [← getElem?_map_some, s3 a.1 (.inr (List.of_mem_zip (b := a.2) ha).1)]
    exact t2 a ha
  · intro p hp hm a ha
    rw [← getElem?_map_some]
    exact key p hp hm a ha

/-- mode `fixed` -/
theorem fillConstant_spec {P : FillProc} (h : P.Good) {c : Option ℚ} {l : List (Option ℚ)}
    (hl : P.fillConstant c = .ok l) :
    l.length = P.allCount ∧ (∀ a ∈ P.obs, l[a.1]? = some (some a.2)) ∧
      ∀ p < P.allCount, Missing P.obs p → l[p]? = some c := by
  obtain ⟨t1, t2, t3⟩ := h.toFill
  have hs := stepLoop_spec (fun _ => True) (fun _ _ v => v = c) h.covers
    (by rw [t1]; omega) trivial (by
      intro p _ _ _ g _ _
      refine ⟨fun v hv => ⟨trivial, ?_⟩, fun e => by cases e⟩
      simp only [Except.ok.injEq] at hv
      exact hv.symm) hl
  obtain ⟨s1, -, s3, s4⟩ := hs
  rw [t1] at s1
  refine ⟨s1, ?_, ?_⟩
  · intro a ha
    rw [s3 a.1 (.inr (List.of_mem_zip (b := a.2) ha).1)]
    exact t2 a ha
  · intro p hp hm
    obtain ⟨v, hv, rfl⟩ := s4 p (by omega) (by omega) ((h.missing_iff p).1 hm)
    exact hv

/-! ### Linear interpolation -/

theorem npInterp_seg {obs : List (Nat × ℚ)} (hs : obs.Pairwise fun a b => a.1 < b.1) {p : Nat} {a b : Nat × ℚ}
    (ha : a ∈ obs) (hb : b ∈ obs) (hap : a.1 < p) (hpb : p ≤ b.1)
    (h1 : ∀ c ∈ obs, c.1 < p → c.1 ≤ a.1) (h2 : ∀ c ∈ obs, p ≤ c.1 → b.1 ≤ c.1) :
    npInterp (obs.map fun x => ((x.1 : ℚ), x.2)) p =
      a.2 + (b.2 - a.2) / ((b.1 : ℚ) - a.1) * ((p : ℚ) - a.1) := by
  induction obs with
  | nil => simp at ha
  | cons c t ih =>
    rw [List.pairwise_cons] at hs
    cases t with
    | nil =>
      simp only [List.mem_singleton] at ha hb
      subst ha
      subst hb
      omega
    | cons d t =>
      have hcd : c.1 < d.1 := hs.1 d (by simp)
      have hcp : c.1 < p := by
        rcases List.mem_cons.1 ha with rfl | ha'
        · exact hap
        · have := hs.1 a ha'; omega
      simp only [List.map_cons, npInterp]
      rw [if_neg (by push Not; exact_mod_cast hcp)]
      by_cases hpd : p ≤ d.1
      · rw [if_pos (by exact_mod_cast hpd)]
        have eb : b = d := by
          rcases List.mem_cons.1 hb with rfl | hb'
          · omega
          · rcases List.mem_cons.1 hb' with rfl | hb'
            · rfl
            · have := (List.pairwise_cons.1 hs.2).1 b hb'
              have := h2 d (by simp) hpd
              omega
        have ea : a = c := by
          rcases List.mem_cons.1 ha with rfl | ha'
          · rfl
          · exfalso
            rcases List.mem_cons.1 ha' with rfl | ha'
            · omega
            · have := (List.pairwise_cons.1 hs.2).1 a ha'
              omega
        subst ea
        subst eb
        rfl
      · rw [if_neg (by push Not; push Not at hpd; exact_mod_cast hpd)]
        have ha' : a ∈ d :: t := by
          rcases List.mem_cons.1 ha with rfl | ha'
          · have := h1 d (by simp) (by omega); omega
          · exact ha'
        have hb' : b ∈ d :: t := by
          rcases List.mem_cons.1 hb with rfl | hb'
          · omega
          · exact hb'
        have := ih hs.2 ha' hb' (fun c hc => h1 c (by simp [hc])) (fun c hc => h2 c (by simp [hc]))
        simpa using this

theorem npInterp_knot {obs : List (Nat × ℚ)} (hs : obs.Pairwise fun a b => a.1 < b.1) {a : Nat × ℚ}
    (ha : a ∈ obs) : npInterp (obs.map fun x => ((x.1 : ℚ), x.2)) a.1 = a.2 := by
  induction obs with
  | nil => simp at ha
  | cons c t ih =>
    have hs' := hs
    rw [List.pairwise_cons] at hs
    cases t with
    | nil =>
      simp only [List.mem_singleton] at ha
      subst ha
      rfl
    | cons d t =>
      have hcd : c.1 < d.1 := hs.1 d (by simp)
      simp only [List.map_cons, npInterp]
      rcases List.mem_cons.1 ha with rfl | ha'
      · simp
      · have hca := hs.1 a ha'
        rw [if_neg (by push Not; exact_mod_cast hca)]
        have h := ih hs.2 ha'
        rcases List.mem_cons.1 ha' with rfl | ha''
        · rw [if_pos (le_refl _)]
          have : (a.1 : ℚ) - c.1 ≠ 0 := by
            have : (c.1 : ℚ) < a.1 := by exact_mod_cast hca
            linarith
          field_simp
          ring
        · have := (List.pairwise_cons.1 hs.2).1 a ha''
          rw [if_neg (by push Not; exact_mod_cast this)]
          simpa using h

theorem knots_eq (P : FillProc) : knots P.indices P.values = P.obs.map fun x => ((x.1 : ℚ), x.2) := by
  unfold knots FillProc.obs
  rw [List.zip_map_left]
  rfl

theorem fillLinear_spec {P : FillProc} (h : P.Good) :
    Completes P.obs P.allCount P.fillLinear ∧ FilledLinear P.obs P.allCount P.fillLinear := by
  unfold FillProc.fillLinear linearEntire
  rw [knots_eq]
  have hs := h.gapped.ascending
  refine ⟨⟨by simp, ?_⟩, ?_⟩
  · intro a ha
    have := h.gapped.inside a ha
    rw [List.getElem?_map, List.getElem?_range this]
    simp only [Option.map_some, Option.some.injEq]
    exact npInterp_knot hs ha
  · intro p hp hm a b ha hb
    rw [List.getElem?_map, List.getElem?_range hp]
    simp only [Option.map_some, Option.some.injEq]
    rw [npInterp_seg hs ha.1 hb.1 ha.2.1 (le_of_lt hb.2.1) ha.2.2]
    · ring
    · intro c hc hpc
      refine hb.2.2 c hc ?_
      rcases Nat.lt_or_ge p c.1 with h' | h'
      · exact h'
      · have : c.1 = p := by omega
        exact absurd hc (by rw [← this] at hm; exact hm c.2)

/-- a point of a segment lies between its ends -/
theorem between_of_seg {u v t : ℚ} {lo hi : ℚ} (hu : lo ≤ u ∧ u ≤ hi) (hv : lo ≤ v ∧ v ≤ hi) (h0 : 0 ≤ t)
    (h1 : t ≤ 1) : lo ≤ u + (v - u) * t ∧ u + (v - u) * t ≤ hi := by
  constructor <;> nlinarith

theorem linear_bounds {obs : List (Nat × ℚ)} {n : Nat} {full : List ℚ} (hg : Gapped obs n)
    (hc : Completes obs n full) (hl : FilledLinear obs n full) {lo hi : ℚ}
    (hb : ∀ a ∈ obs, lo ≤ a.2 ∧ a.2 ≤ hi) : ∀ x ∈ full, lo ≤ x ∧ x ≤ hi := by
  intro x hx
  obtain ⟨p, hp, rfl⟩ := List.mem_iff_getElem.1 hx
  have hpn : p < n := by rw [← hc.len]; exact hp
  by_cases hm : Missing obs p
  · obtain ⟨a, ha⟩ := exists_lastBefore hg hm
    obtain ⟨b, hb'⟩ := exists_firstAfter hg hpn hm
    have := hl p hpn hm a b ha hb'
    rw [List.getElem?_eq_getElem hp, Option.some.injEq] at this
    rw [this, mul_div_assoc]
    have h1 : (a.1 : ℚ) < p := by exact_mod_cast ha.2.1
    have h2 : (p : ℚ) < b.1 := by exact_mod_cast hb'.2.1
    apply between_of_seg (hb a ha.1) (hb b hb'.1)
    · apply div_nonneg <;> linarith
    · rw [div_le_one (by linarith)]; linarith
  · unfold Missing at hm
    push Not at hm
    obtain ⟨v, hv⟩ := hm
    have := hc.keeps _ hv
    rw [List.getElem?_eq_getElem hp, Option.some.injEq] at this
    rw [this]
    exact hb _ hv

/-! ### Automatic filling -/

theorem Gapped.unique {obs : List (Nat × ℚ)} {n m : Nat} (h : Gapped obs n) (h' : Gapped obs m) : n = m := by
  obtain ⟨v, hn, hv⟩ := h.last
  obtain ⟨w, hm, hw⟩ := h'.last
  have h1 := h.inside _ hw
  have h2 := h'.inside _ hv
  simp only at h1 h2
  omega

theorem mem_presentFrom {F : List (Option ℚ)} {i p : Nat} {v : ℚ} :
    (p, v) ∈ presentFrom i F ↔ i ≤ p ∧ F[p - i]? = some (some v) := by
  induction F generalizing i with
  | nil => simp [presentFrom]
  | cons o t ih =>
    have key : (i + 1 ≤ p ∧ t[p - (i + 1)]? = some (some v)) ↔
        (i < p ∧ (o :: t)[p - i]? = some (some v)) := by
      constructor
      · rintro ⟨a, b⟩
        refine ⟨by omega, ?_⟩
        rw [show p - i = (p - (i + 1)) + 1 by omega, List.getElem?_cons_succ]
        exact b
      · rintro ⟨a, b⟩
        refine ⟨by omega, ?_⟩
        rw [show p - i = (p - (i + 1)) + 1 by omega, List.getElem?_cons_succ] at b
        exact b
    cases o with
    | none =>
      rw [presentFrom, ih, key]
      constructor
      · rintro ⟨a, b⟩; exact ⟨by omega, b⟩
      · rintro ⟨a, b⟩
        refine ⟨?_, b⟩
        rcases Nat.lt_or_ge i p with h | h
        · exact h
        · rw [show p - i = 0 by omega] at b
          simp at b
    | some w =>
      rw [presentFrom, List.mem_cons, ih, key, Prod.mk.injEq]
      constructor
      · rintro (⟨rfl, rfl⟩ | ⟨a, b⟩)
        · simp
        · exact ⟨by omega, b⟩
      · rintro ⟨a, b⟩
        rcases Nat.lt_or_ge i p with h | h
        · exact .inr ⟨h, b⟩
        · left
          have : p = i := by omega
          subst this
          simp at b
          exact ⟨rfl, b.symm⟩

theorem presentFrom_sorted (F : List (Option ℚ)) (i : Nat) :
    (presentFrom i F).Pairwise fun a b => a.1 < b.1 := by
  induction F generalizing i with
  | nil => simp [presentFrom]
  | cons o t ih =>
    cases o with
    | none => exact ih _
    | some w =>
      rw [presentFrom, List.pairwise_cons]
      refine ⟨?_, ih _⟩
      rintro ⟨p, v⟩ hb
      have := (mem_presentFrom.1 hb).1
      simp only
      omega

theorem presentFrom_length (F : List (Option ℚ)) (i : Nat) :
    (presentFrom i F).length ≤ F.length ∧
      ((presentFrom i F).length = F.length → F = (presentFrom i F).map fun x => some x.2) := by
  induction F generalizing i with
  | nil => simp [presentFrom]
  | cons o t ih =>
    obtain ⟨h1, h2⟩ := ih (i + 1)
    cases o with
    | none =>
      rw [presentFrom]
      simp only [List.length_cons]
      exact ⟨by omega, fun h => by omega⟩
    | some w =>
      rw [presentFrom]
      simp only [List.length_cons, List.map_cons]
      refine ⟨by omega, fun h => ?_⟩
      rw [← h2 (by omega)]

/-- values of a partially filled grid lie in `[lo, hi]` -/
def Bounded (lo hi : ℚ) (F : List (Option ℚ)) : Prop := ∀ v, some v ∈ F → lo ≤ v ∧ v ≤ hi

/-- the observed values are in place -/
def Keeps (obs : List (Nat × ℚ)) (F : List (Option ℚ)) : Prop := ∀ a ∈ obs, F[a.1]? = some (some a.2)

/-- a partially filled grid is again a gapped series -/
theorem presentFrom_gapped {obs : List (Nat × ℚ)} {n : Nat} {F : List (Option ℚ)} (hg : Gapped obs n)
    (hk : Keeps obs F) (hl : F.length = n) : Gapped (presentFrom 0 F) n where
  ascending := presentFrom_sorted F 0
  first := by
    obtain ⟨v, hv⟩ := hg.first
    exact ⟨v, mem_presentFrom.2 ⟨by omega, by simpa using hk _ hv⟩⟩
  last := by
    obtain ⟨v, hn, hv⟩ := hg.last
    exact ⟨v, hn, mem_presentFrom.2 ⟨by omega, by simpa using hk _ hv⟩⟩
  inside := by
    rintro ⟨p, v⟩ ha
    have := (mem_presentFrom.1 ha).2
    have h := (List.getElem?_eq_some_iff.1 this).1
    simp only at h ⊢
    omega

theorem zip_fst_snd (l : List (Nat × ℚ)) : (l.map (·.1)).zip (l.map (·.2)) = l := by
  induction l with
  | nil => rfl
  | cons a t ih => simp [ih]

theorem init_present {obs : List (Nat × ℚ)} {n : Nat} {F : List (Option ℚ)} (hg : Gapped obs n)
    (hk : Keeps obs F) (hl : F.length = n) {Q : FillProc}
    (h : FillProc.init ((presentFrom 0 F).map fun x => (x.1 : Int)) ((presentFrom 0 F).map (·.2)) = .ok Q) :
    Q.Good ∧ Q.obs = presentFrom 0 F ∧ Q.allCount = n ∧ Q.indices = (presentFrom 0 F).map (·.1) := by
  have hg' := presentFrom_gapped hg hk hl
  have hne : presentFrom 0 F ≠ [] := by
    obtain ⟨v, hv⟩ := hg'.first
    intro e
    rw [e] at hv
    simp at hv
  obtain ⟨hQ, hi, hv⟩ := FillProc.init_good (by simpa using hne) h
  have e1 : Q.indices = (presentFrom 0 F).map (·.1) := by
    have : Function.Injective (Int.ofNat) := fun a b h => by simpa using h
    apply List.map_injective_iff.2 this
    rw [← hi, List.map_map]
    rfl
  have e2 : Q.obs = presentFrom 0 F := by
    unfold FillProc.obs
    rw [e1, hv]
    exact zip_fst_snd _
  refine ⟨hQ, e2, ?_, e1⟩
  have h1 := hQ.gapped
  rw [e2] at h1
  exact Gapped.unique h1 hg'

theorem length_setSlice {α} {full res : List α} {i : Nat} (h : i + res.length ≤ full.length) :
    (setSlice full i res).length = full.length := by
  simp [setSlice]; omega

theorem getElem?_setSlice {α} {full res : List α} {i p : Nat} (h : i + res.length ≤ full.length) :
    (setSlice full i res)[p]? =
      if i ≤ p ∧ p < i + res.length then res[p - i]? else full[p]? := by
  unfold setSlice
  have hl : (List.take i full).length = i := by simp; omega
  split
  · rename_i hp
    rw [List.append_assoc, List.getElem?_append_right (by omega), hl,
      List.getElem?_append_left (by omega)]
  · rename_i hp
    rcases Nat.lt_or_ge p i with h' | h'
    · rw [List.append_assoc, List.getElem?_append_left (by omega), List.getElem?_take_of_lt h']
    · rw [List.getElem?_append_right (by simp; omega)]
      simp only [List.length_append, hl]
      rw [List.getElem?_drop]
      congr 1
      omega

theorem length_linearSeg (a b : ℚ) (c : Nat) : (linearSeg a b c).length = c := by simp [linearSeg]

theorem filterMap_full {F : List (Option ℚ)} {i c : Nat}
    (h : ∀ p, i ≤ p → p < i + c → ∃ v, F[p]? = some (some v)) :
    ((List.range c).filterMap fun k => F.getD (i + k) none).length = c := by
  induction c with
  | zero => simp
  | succ c ih =>
    rw [List.range_succ, List.filterMap_append, List.length_append, ih fun p a b => h p a (by omega)]
    obtain ⟨v, hv⟩ := h (i + c) (by omega) (by omega)
    simp [List.getD_eq_getElem?_getD, hv]

theorem scatterSegment_eq (values : List ℚ) (info : List GapInfo) (period : Nat) {lo hi : ℚ} (hlh : lo ≤ hi)
    (j : Nat) {i c : Nat} {F : List (Option ℚ)} (h : ∀ p, i ≤ p → p < i + c → ∃ v, F[p]? = some (some v)) :
    ∃ res : List (Option ℚ), res.length = c ∧ Bounded lo hi res ∧
      scatterSegment values info period lo hi i j c F = setSlice F i res := by
  unfold scatterSegment
  split
  · refine ⟨_, List.length_replicate, ?_, rfl⟩
    intro v hv
    have := List.eq_of_mem_replicate hv
    simp at this
  · refine ⟨_, ?_, ?_, rfl⟩
    · rw [List.length_map]
      split
      · dsimp only
        split
        · exact length_linearSeg _ _ _
        · exact filterMap_full h
      · exact filterMap_full h
    · intro v hv
      obtain ⟨w, -, hw⟩ := List.mem_map.1 hv
      simp only [Option.some.injEq] at hw
      subst hw
      exact ⟨le_min (le_max_right _ _) hlh, min_le_right _ _⟩

theorem scatterLoop_spec (values : List ℚ) (info : List GapInfo) (period : Nat) {lo hi : ℚ} (hlh : lo ≤ hi)
    {obs : List (Nat × ℚ)} (hob : ∀ a ∈ obs, lo ≤ a.2 ∧ a.2 ≤ hi) (j : Nat) {i n : Nat} {idx : List Nat}
    (hc : Covers idx i n) (hidx : ∀ p, i ≤ p → p < i + n → (p ∈ idx ↔ ∃ v, (p, v) ∈ obs))
    {F : List (Option ℚ)} (hl : F.length = i + n) (hk : Keeps obs F)
    (hb : ∀ p < i, ∀ v, F[p]? = some (some v) → lo ≤ v ∧ v ≤ hi)
    (hs : ∀ p, i ≤ p → p < i + n → ∃ v, F[p]? = some (some v)) :
    let r := scatterLoop values info period lo hi i j idx F
    r.length = F.length ∧ Keeps obs r ∧ Bounded lo hi r := by
  induction idx generalizing i j n F with
  | nil =>
    have hn : n = 0 := by
      by_contra h
      have := hc.last (by omega)
      simp at this
    subst hn
    refine ⟨rfl, hk, ?_⟩
    intro v hv
    obtain ⟨p, hp, e⟩ := List.mem_iff_getElem.1 hv
    have hp' : p < F.length := hp
    refine hb p (by omega) v ?_
    rw [List.getElem?_eq_getElem hp']
    simp only [scatterLoop] at e
    rw [e]
  | cons k t ih =>
    have hki := hc.mem k (by simp)
    -- the grid after this segment
    have step : ∀ F' : List (Option ℚ), F'.length = F.length → Keeps obs F' →
        (∀ p < k + 1, ∀ v, F'[p]? = some (some v) → lo ≤ v ∧ v ≤ hi) →
        (∀ p, k ≤ p → F'[p]? = F[p]?) →
        let r := scatterLoop values info period lo hi (k + 1) (j + 1) t F'
        r.length = F.length ∧ Keeps obs r ∧ Bounded lo hi r := by
      intro F' h1 h2 h3 h4
      have hcov : Covers t (k + 1) (i + n - (k + 1)) :=
        { sorted := (List.pairwise_cons.1 hc.sorted).2
          mem := fun x hx => by
            have a := hc.mem x (by simp [hx])
            have b := (List.pairwise_cons.1 hc.sorted).1 x hx
            omega
          last := fun hpos => by
            have := hc.last (by omega)
            rcases List.mem_cons.1 this with h' | h'
            · omega
            · rwa [show k + 1 + (i + n - (k + 1)) - 1 = i + n - 1 by omega] }
      have := ih (j + 1) hcov (F := F') (by
          intro p a b
          rw [← hidx p (by omega) (by omega), List.mem_cons]
          constructor
          · exact .inr
          · rintro (h | h)
            · omega
            · exact h) (by omega) h2 h3 (by
          intro p a b
          rw [h4 p (by omega)]
          exact hs p (by omega) (by omega))
      simp only at this ⊢
      rw [h1] at this
      exact this
    have hkb : ∀ v, F[k]? = some (some v) → lo ≤ v ∧ v ≤ hi := by
      intro v hv
      obtain ⟨w, hw⟩ := (hidx k hki.1 hki.2).1 (by simp)
      have := hk _ hw
      simp only at this
      rw [this] at hv
      simp only [Option.some.injEq] at hv
      subst hv
      exact hob _ hw
    rw [scatterLoop]
    split
    · rename_i hk'
      subst hk'
      refine step F rfl hk ?_ (fun _ _ => rfl)
      intro p hp v hv
      rcases Nat.lt_or_ge p k with h' | h'
      · exact hb p h' v hv
      · have : p = k := by omega
        subst this
        exact hkb v hv
    · rename_i hk'
      obtain ⟨res, hr1, hr2, hr3⟩ := scatterSegment_eq values info period hlh j (i := i) (c := k - i) (F := F)
        (fun p a b => hs p a (by omega))
      rw [hr3]
      have hbound : i + res.length ≤ F.length := by omega
      refine step _ (length_setSlice hbound) ?_ ?_ ?_
      · intro a ha
        rw [getElem?_setSlice hbound, if_neg]
        · exact hk a ha
        · rintro ⟨h1, h2⟩
          have hmem : a.1 ∈ k :: t := (hidx a.1 h1 (by omega)).2 ⟨a.2, ha⟩
          rcases List.mem_cons.1 hmem with h' | h'
          · omega
          · have := (List.pairwise_cons.1 hc.sorted).1 a.1 h'
            omega
      · intro p hp v hv
        rw [getElem?_setSlice hbound] at hv
        split at hv
        · exact hr2 v (List.mem_of_getElem? hv)
        · rename_i hnp
          rcases Nat.lt_or_ge p i with h' | h'
          · exact hb p h' v hv
          · have : p = k := by omega
            subst this
            exact hkb v hv
      · intro p hp
        rw [getElem?_setSlice hbound, if_neg (by omega)]

theorem periodicalLoop_mem {arr : List (Option ℚ)} {info : List GapInfo} {fw : Bool} {sp : Int} {n : Nat}
    {i : Int} {v : ℚ} (h : some v ∈ periodicalLoop arr info fw sp n i) : some v ∈ arr := by
  induction n generalizing i with
  | zero => simp [periodicalLoop] at h
  | succ n ih =>
    rw [periodicalLoop] at h
    split at h
    · split at h
      · simp at h
      · split at h
        · simp only [List.mem_cons, reduceCtorEq, false_or] at h
          exact ih h
        · rcases List.mem_cons.1 h with h | h
          · rw [List.getD_eq_getElem?_getD] at h
            cases ha : arr[i.toNat]? with
            | none => rw [ha] at h; simp at h
            | some o =>
              rw [ha] at h
              simp only [Option.getD_some] at h
              rw [h]
              exact List.mem_of_getElem? ha
          · exact ih h
    · simp at h

theorem periodicalLoop_length {arr : List (Option ℚ)} {info : List GapInfo} {fw : Bool} {sp : Int} {n : Nat}
    {i : Int} : (periodicalLoop arr info fw sp n i).length ≤ n := by
  induction n generalizing i with
  | zero => simp [periodicalLoop]
  | succ n ih =>
    rw [periodicalLoop]
    split
    · split
      · simp
      · split
        · simp only [List.length_cons]
          exact Nat.succ_le_succ ih
        · simp only [List.length_cons]
          exact Nat.succ_le_succ ih
    · simp

theorem weightedAverage_bounds {vs ws : List ℚ} {lo hi : ℚ} (hl : vs.length = ws.length) (hne : vs ≠ [])
    (hw : ∀ w ∈ ws, 0 < w) (hv : ∀ v ∈ vs, lo ≤ v ∧ v ≤ hi) :
    lo ≤ weightedAverage vs ws ∧ weightedAverage vs ws ≤ hi := by
  have key : lo * ws.sum ≤ (List.zipWith (· * ·) vs ws).sum ∧ (List.zipWith (· * ·) vs ws).sum ≤ hi * ws.sum := by
    clear hne
    induction vs generalizing ws with
    | nil =>
      have : ws = [] := List.length_eq_zero_iff.1 hl.symm
      subst this; simp
    | cons v vs ih =>
      cases ws with
      | nil => simp at hl
      | cons w ws =>
        obtain ⟨h1, h2⟩ := ih (by simpa using hl) (fun x hx => hw x (by simp [hx]))
          (fun x hx => hv x (by simp [hx]))
        have hw0 := hw w (by simp)
        obtain ⟨h3, h4⟩ := hv v (by simp)
        simp only [List.zipWith_cons_cons, List.sum_cons]
        constructor <;> nlinarith
  have hpos : 0 < ws.sum := by
    apply List.sum_pos _ hw
    intro e
    rw [e] at hl
    exact hne (List.length_eq_zero_iff.1 hl)
  unfold weightedAverage
  constructor
  · rw [le_div_iff₀ hpos]; exact key.1
  · rw [div_le_iff₀ hpos]; exact key.2

theorem funcWeightedAvg_bounds {info : List GapInfo} {period i : Nat} {full : List (Option ℚ)} {lo hi : ℚ}
    (hb : Bounded lo hi full) {o : Option ℚ} (h : funcWeightedAvg info period i full = .ok o) :
    ∀ v, o = some v → lo ≤ v ∧ v ≤ hi := by
  intro v hv
  subst hv
  unfold funcWeightedAvg at h
  simp only at h
  split at h
  · simp at h
  · rename_i hne
    simp only [Except.ok.injEq, Option.some.injEq] at h
    subst h
    have lb : ((periodicalValues full info i 3 period false).filterMap id).length ≤ 3 := by
      refine le_trans (List.length_filterMap_le _ _) ?_
      unfold periodicalValues
      simp only [Bool.false_eq_true, if_false, List.length_reverse]
      exact periodicalLoop_length
    have lf : ((periodicalValues full info i 3 period true).filterMap id).length ≤ 3 := by
      refine le_trans (List.length_filterMap_le _ _) ?_
      unfold periodicalValues
      simp only [if_true]
      exact periodicalLoop_length
    apply weightedAverage_bounds
    · simp only [List.length_append, List.length_take, List.length_drop, autoWeights, List.length_cons,
        List.length_nil]
      omega
    · intro e
      apply hne
      rw [← List.length_eq_zero_iff, List.length_append] at e
      omega
    · intro w hw
      have := List.mem_of_mem_drop (List.mem_of_mem_take hw)
      simp only [autoWeights, List.mem_cons, List.not_mem_nil, or_false] at this
      rcases this with rfl | rfl | rfl | rfl | rfl | rfl <;> norm_num
    · intro x hx
      apply hb
      rcases List.mem_append.1 hx with hx | hx
      · obtain ⟨o, ho, e⟩ := List.mem_filterMap.1 hx
        simp only [id_eq] at e
        subst e
        unfold periodicalValues at ho
        simp only [Bool.false_eq_true, if_false, List.mem_reverse] at ho
        exact periodicalLoop_mem ho
      · obtain ⟨o, ho, e⟩ := List.mem_filterMap.1 hx
        simp only [id_eq] at e
        subst e
        unfold periodicalValues at ho
        simp only [if_true] at ho
        exact periodicalLoop_mem ho

/-- laws of the interpolating spline -/
structure SplineLaws (s : SplineOracle) : Prop where
  len : ∀ i v n r, s i v n = .ok r → r.length = n
  knot : ∀ (i : List Nat) (v : List ℚ) (n : Nat) (r : List ℚ), s i v n = .ok r →
    ∀ k, k < i.length → i.getD k 0 < n → r.getD (i.getD k 0) 0 = v.getD k 0

theorem bounded_set {lo hi : ℚ} {g : List (Option ℚ)} (hg : Bounded lo hi g) {p : Nat} {o : Option ℚ}
    (h : ∀ v, o = some v → lo ≤ v ∧ v ≤ hi) : Bounded lo hi (g.set p o) := by
  intro v hv
  rcases List.mem_or_eq_of_mem_set hv with h' | h'
  · exact hg v h'
  · exact h v h'.symm

/-- mode `auto` -/
theorem fillAuto_spec {spline : SplineOracle} (hsp : SplineLaws spline) {P : FillProc} (h : P.Good)
    (hn : P.need = true) {period : Nat} {l : List (Option ℚ)} (hl : P.fillAuto spline period = .ok l) :
    ∃ full, l = full.map some ∧ Completes P.obs P.allCount full ∧
      ∀ x ∈ full, npMin P.values ≤ x ∧ x ≤ npMax P.values := by
  have hvne : P.values ≠ [] := by
    intro e
    have := h.len
    rw [e] at this
    have hh := h.head
    rw [List.length_eq_zero_iff.1 this] at hh
    simp at hh
  set lo := npMin P.values with hlo
  set hi := npMax P.values with hhi
  have hob : ∀ a ∈ P.obs, lo ≤ a.2 ∧ a.2 ≤ hi := by
    intro a ha
    have := (List.of_mem_zip (a := a.1) (b := a.2) ha).2
    exact ⟨npMin_le this, le_npMax this⟩
  have hlh : lo ≤ hi := le_npMax (npMin_mem hvne)
  have hlin : ∃ full, P.fillLinear.map some = full.map some ∧ Completes P.obs P.allCount full ∧
      ∀ x ∈ full, lo ≤ x ∧ x ≤ hi := by
    obtain ⟨h1, h2⟩ := fillLinear_spec h
    exact ⟨_, rfl, h1, linear_bounds h.gapped h1 h2 hob⟩
  unfold FillProc.fillAuto at hl
  split at hl
  · rename_i l' hbody
    simp only [Except.ok.injEq] at hl
    subst hl
    unfold FillProc.autoBody at hbody
    split at hbody
    · rename_i hper
      have hn2 := (h.need.1 hn).2
      split at hbody
      · simp [throw, throwThe, MonadExceptOf.throw, Bind.bind, Except.bind] at hbody
      · simp only [Bind.bind, Except.bind, pure, Except.pure] at hbody
        split at hbody
        · simp at hbody
        · rename_i sp hspl
          have hspl' : spline P.indices P.values P.allCount = .ok sp := hspl
          have hlen : sp.length = P.allCount := hsp.len _ _ _ _ hspl'
          have hkeep0 : Keeps P.obs (sp.map some) := by
            intro a ha
            have hin := h.gapped.inside a ha
            obtain ⟨k, hk, rfl⟩ := List.mem_iff_getElem.1 ha
            have hkl : k < P.indices.length := by
              unfold FillProc.obs at hk; rw [List.length_zip] at hk; omega
            have hkv : k < P.values.length := by rw [← h.len]; exact hkl
            have e1 : (P.obs[k]).1 = P.indices[k] := by simp [FillProc.obs]
            have e2 : (P.obs[k]).2 = P.values[k] := by simp [FillProc.obs]
            have eg : P.indices.getD k 0 = P.indices[k] := by simp [List.getD_eq_getElem?_getD, hkl]
            have := hsp.knot _ _ _ _ hspl' k hkl (by rw [eg, ← e1]; exact hin)
            rw [getElem?_map_some, e2]
            rw [eg, ← e1] at this
            have hlt : (P.obs[k]).1 < sp.length := by omega
            rw [List.getD_eq_getElem?_getD, List.getD_eq_getElem?_getD,
              List.getElem?_eq_getElem hlt, List.getElem?_eq_getElem hkv] at this
            rw [List.getElem?_eq_getElem hlt]
            simpa using this
          obtain ⟨a1, a2, a3⟩ := scatterLoop_spec P.values P.info (max period 1) hlh hob 0 h.covers
            (by
              intro p _ _
              constructor
              · exact fun hp => mem_zip_of_mem h.len hp
              · rintro ⟨v, hv⟩; exact (List.of_mem_zip hv).1)
            (F := sp.map some) (by simp [hlen]) hkeep0 (by intro p hp; omega) (by
              intro p _ hp
              refine ⟨sp[p]'(by omega), ?_⟩
              rw [getElem?_map_some, List.getElem?_eq_getElem])
          set F1 := scatterLoop P.values P.info (max period 1) lo hi 0 0 P.indices (sp.map some) with hF1
          have hF1l : F1.length = P.allCount := by rw [a1]; simpa using hlen
          -- finish: from a partially filled grid to the answer
          have fin : ∀ F : List (Option ℚ), F.length = P.allCount → Keeps P.obs F → Bounded lo hi F →
              ∀ R, FillProc.init ((presentFrom 0 F).map fun x => (x.1 : Int)) ((presentFrom 0 F).map (·.2)) = .ok R →
              (if R.need = true then .ok (R.fillLinear.map some)
                else (.ok ((presentFrom 0 F).map fun x : Nat × ℚ => some x.2) : Except PyErr (List (Option ℚ)))) = .ok l' →
              ∃ full, l' = full.map some ∧ Completes P.obs P.allCount full ∧ ∀ x ∈ full, lo ≤ x ∧ x ≤ hi := by
            intro F f1 f2 f3 R hR f4
            · obtain ⟨r1, r2, r3, r4⟩ := init_present h.gapped f2 f1 hR
              have robs : ∀ a ∈ R.obs, lo ≤ a.2 ∧ a.2 ≤ hi := by
                rintro ⟨p, v⟩ ha
                rw [r2] at ha
                exact f3 v (List.mem_of_getElem? (mem_presentFrom.1 ha).2)
              have rsub : ∀ a ∈ P.obs, a ∈ R.obs := by
                rintro ⟨p, v⟩ ha
                rw [r2]
                exact mem_presentFrom.2 ⟨by omega, by simpa using f2 _ ha⟩
              split at f4
              · rename_i hRn
                simp only [Except.ok.injEq] at f4
                subst f4
                obtain ⟨c1, c2⟩ := fillLinear_spec r1
                refine ⟨_, rfl, ⟨by rw [c1.len, r3], fun a ha => c1.keeps a (rsub a ha)⟩, ?_⟩
                exact linear_bounds r1.gapped c1 c2 robs
              · rename_i hRn
                simp only [Except.ok.injEq] at f4
                have hlenR : (presentFrom 0 F).length = F.length := by
                  have h1 := r1.need.not.1 hRn
                  rw [r4, List.length_map, r3] at h1
                  have h2 := (presentFrom_length F 0).1
                  omega
                have hF := (presentFrom_length F 0).2 hlenR
                refine ⟨(presentFrom 0 F).map fun x => x.2, ?_, ⟨by rw [List.length_map, hlenR, f1], ?_⟩, ?_⟩
                · rw [← f4, List.map_map]; rfl
                · intro a ha
                  rw [← getElem?_map_some, List.map_map]
                  have := f2 a ha
                  rw [hF] at this
                  exact this
                · intro x hx
                  obtain ⟨⟨p, v⟩, hb, rfl⟩ := List.mem_map.1 hx
                  exact f3 v (List.mem_of_getElem? (mem_presentFrom.1 hb).2)
          split at hbody
          · cases hbody
          · rename_i Q hQ
            obtain ⟨q1, q2, q3, q4⟩ := init_present h.gapped a2 hF1l hQ
            by_cases hQn : Q.need = true
            · rw [if_pos hQn] at hbody
              split at hbody
              · cases hbody
              · rename_i F2 hF2
                · obtain ⟨t1, t2, t3⟩ := q1.toFill
                  have b0 : Bounded lo hi (valuesToFill Q.allCount Q.indices Q.values) := by
                    intro v hv
                    obtain ⟨p, hp, e⟩ := List.mem_iff_getElem.1 hv
                    by_cases hm : Missing Q.obs p
                    · have := t3 p (by omega) hm
                      rw [List.getElem?_eq_getElem hp, e] at this
                      simp at this
                    · unfold Missing at hm
                      push Not at hm
                      obtain ⟨w, hw⟩ := hm
                      have := t2 _ hw
                      rw [List.getElem?_eq_getElem hp, e] at this
                      simp only [Option.some.injEq] at this
                      rw [q2] at hw
                      rw [this]
                      exact a3 w (List.mem_of_getElem? (mem_presentFrom.1 hw).2)
                  obtain ⟨s1, s2, s3, -⟩ := stepLoop_spec (Bounded lo hi) (fun _ _ _ => True) q1.covers
                    (by rw [t1]; omega) b0 (by
                      intro p _ _ _ g hg _
                      refine ⟨fun v hv => ⟨bounded_set hg (funcWeightedAvg_bounds hg hv), trivial⟩,
                        fun _ => ⟨bounded_set hg (by simp), trivial⟩⟩) hF2
                  split at hbody
                  · cases hbody
                  rename_i R hR
                  refine fin F2 (by rw [s1, t1, q3]) ?_ s2 R hR hbody
                  · intro a ha
                    have haQ : a ∈ Q.obs := by
                      rw [q2]
                      exact mem_presentFrom.2 ⟨by omega, by simpa using a2 _ ha⟩
                    rw [s3 a.1 (.inr (List.of_mem_zip (a := a.1) (b := a.2) haQ).1)]
                    exact t2 _ haQ
            · rw [if_neg hQn] at hbody
              simp only [hQ] at hbody
              exact fin F1 hF1l a2 a3 Q hQ hbody
    · simp only [Except.ok.injEq] at hbody
      subst hbody
      exact hlin
  · cases hl

/-! ### The properties -/

/-- the observations of a request: positions and values -/
def observations (idx : List Int) (vs : List ℚ) : List (Nat × ℚ) := (idx.map Int.toNat).zip vs

theorem obs_eq {idx : List Int} {vs : List ℚ} {P : FillProc} (hne : idx ≠ [])
    (h : FillProc.init idx vs = .ok P) : P.obs = observations idx vs := by
  obtain ⟨-, h1, h2⟩ := FillProc.init_good hne h
  unfold FillProc.obs observations
  rw [h2, h1, List.map_map]
  have : (Int.toNat ∘ Int.ofNat) = id := by funext x; simp
  rw [this, List.map_id]

/-- the three shapes of an executed filling -/
theorem fill_cases {spline : SplineOracle} {P : FillProc} {mode : FillUpMode} {fixed : Option ℚ} {period : Nat}
    {l : List (Option ℚ)} {tags : List Bool}
    (hr : fillUpOnDemand spline P mode fixed period = .ok (some (l, tags))) :
    P.need = true ∧ tags = P.tags ∧
      (((mode = .previous ∨ mode = .use_last) ∧ P.fillLast = .ok l) ∨
       (mode = .fixed ∧ P.fillConstant fixed = .ok l) ∨
       (mode = .linear ∧ l = P.fillLinear.map some) ∨
       (mode = .auto ∧ P.fillAuto spline period = .ok l)) := by
  have aux : ∀ x : Except PyErr (List (Option ℚ)), x.map (fun l => some (l, P.tags)) = .ok (some (l, tags)) →
      tags = P.tags ∧ x = .ok l := by
    intro x hx
    cases x with
    | error e => simp [Except.map] at hx
    | ok a =>
      simp only [Except.map, Except.ok.injEq, Option.some.injEq, Prod.mk.injEq] at hx
      obtain ⟨rfl, rfl⟩ := hx
      exact ⟨rfl, rfl⟩
  by_cases hn : P.need = true
  · refine ⟨hn, ?_⟩
    cases mode <;> simp only [fillUpOnDemand, hn, if_true] at hr
    · obtain ⟨a, b⟩ := aux _ hr; exact ⟨a, .inl ⟨.inr rfl, b⟩⟩
    · cases hr
    · obtain ⟨a, b⟩ := aux _ hr; exact ⟨a, .inr (.inr (.inr ⟨rfl, b⟩))⟩
    · obtain ⟨a, b⟩ := aux _ hr; exact ⟨a, .inl ⟨.inl rfl, b⟩⟩
    · simp only [Except.ok.injEq, Option.some.injEq, Prod.mk.injEq] at hr
      obtain ⟨rfl, rfl⟩ := hr
      exact ⟨rfl, .inr (.inr (.inl ⟨rfl, rfl⟩))⟩
    · cases hr
    · obtain ⟨a, b⟩ := aux _ hr; exact ⟨a, .inr (.inl ⟨rfl, b⟩)⟩
    · cases hr
  · exfalso
    cases mode <;> simp [fillUpOnDemand, hn] at hr

/-- **C25** (imputation keeps observed points). Whatever the mode, an executed filling returns one entry per grid
position, keeps every observation in place and tags exactly the missing positions. -/
theorem C25_imputation_keeps_observed {spline : SplineOracle} (hsp : SplineLaws spline) {idx : List Int}
    {vs : List ℚ} {P : FillProc} (hne : idx ≠ []) (hP : FillProc.init idx vs = .ok P) {mode : FillUpMode}
    {fixed : Option ℚ} {period : Nat} {l : List (Option ℚ)} {tags : List Bool}
    (hr : fillUpOnDemand spline P mode fixed period = .ok (some (l, tags))) :
    ∃ n, Gapped (observations idx vs) n ∧ l.length = n ∧
      (∀ a ∈ observations idx vs, l[a.1]? = some (some a.2)) ∧ Tagged (observations idx vs) n tags := by
  obtain ⟨hn, rfl, hc⟩ := fill_cases hr
  obtain ⟨hg, -, -⟩ := FillProc.init_good hne hP
  rw [← obs_eq hne hP]
  have conv : ∀ full : List ℚ, Completes P.obs P.allCount full →
      (full.map some).length = P.allCount ∧ ∀ a ∈ P.obs, (full.map some)[a.1]? = some (some a.2) := by
    intro full hf
    exact ⟨by rw [List.length_map, hf.len], fun a ha => getElem?_map_some.2 (hf.keeps a ha)⟩
  refine ⟨P.allCount, hg.gapped, ?_⟩
  rw [← and_assoc]
  refine ⟨?_, hg.tagged hn⟩
  rcases hc with ⟨-, h⟩ | ⟨-, h⟩ | ⟨-, rfl⟩ | ⟨-, h⟩
  · obtain ⟨full, rfl, hf, -⟩ := fillLast_spec hg h
    exact conv full hf
  · obtain ⟨a, b, -⟩ := fillConstant_spec hg h
    exact ⟨a, b⟩
  · exact conv _ (fillLinear_spec hg).1
  · obtain ⟨full, rfl, hf, -⟩ := fillAuto_spec hsp hg hn h
    exact conv full hf

/-- **C26** (imputation values per mode). -/
theorem C26_imputation_values {spline : SplineOracle} {idx : List Int} {vs : List ℚ} {P : FillProc}
    (hne : idx ≠ []) (hP : FillProc.init idx vs = .ok P) {mode : FillUpMode} {fixed : Option ℚ} {period : Nat}
    {l : List (Option ℚ)} {tags : List Bool}
    (hr : fillUpOnDemand spline P mode fixed period = .ok (some (l, tags))) :
    ∃ n, Gapped (observations idx vs) n ∧
      (mode = .previous ∨ mode = .use_last →
        ∃ full, l = full.map some ∧ FilledPrevious (observations idx vs) n full) ∧
      (mode = .linear → ∃ full, l = full.map some ∧ FilledLinear (observations idx vs) n full) ∧
      (∀ c, mode = .fixed → fixed = some c →
        ∃ full, l = full.map some ∧ FilledConstant (observations idx vs) n c full) := by
  obtain ⟨hn, rfl, hc⟩ := fill_cases hr
  obtain ⟨hg, -, -⟩ := FillProc.init_good hne hP
  rw [← obs_eq hne hP]
  refine ⟨P.allCount, hg.gapped, ?_⟩
  rcases hc with ⟨hm, h⟩ | ⟨rfl, h⟩ | ⟨rfl, rfl⟩ | ⟨rfl, h⟩
  · refine ⟨fun _ => ?_, ?_, ?_⟩
    · obtain ⟨full, a, -, b⟩ := fillLast_spec hg h
      exact ⟨full, a, b⟩
    · rintro rfl; simp at hm
    · rintro c rfl; simp at hm
  · refine ⟨by simp, by simp, ?_⟩
    rintro c - rfl
    obtain ⟨a, b, d⟩ := fillConstant_spec hg h
    obtain ⟨full, rfl⟩ := exists_values (l := l) (by
      intro p hp
      by_cases hm : Missing P.obs p
      · exact ⟨c, d p (by omega) hm⟩
      · unfold Missing at hm
        push Not at hm
        obtain ⟨v, hv⟩ := hm
        exact ⟨v, b _ hv⟩)
    exact ⟨full, rfl, fun p hp hm => getElem?_map_some.1 (d p hp hm)⟩
  · exact ⟨by simp, fun _ => ⟨_, rfl, (fillLinear_spec hg).2⟩, by simp⟩
  · exact ⟨by simp, by simp, by simp⟩

/-- **C27** (automatic imputation stays within the observed range and leaves nothing empty). -/
theorem C27_auto_within_observed {spline : SplineOracle} (hsp : SplineLaws spline) {idx : List Int}
    {vs : List ℚ} {P : FillProc} (hne : idx ≠ []) (hP : FillProc.init idx vs = .ok P)
    {fixed : Option ℚ} {period : Nat} {l : List (Option ℚ)} {tags : List Bool}
    (hr : fillUpOnDemand spline P .auto fixed period = .ok (some (l, tags))) :
    ∃ full, l = full.map some ∧ WithinObserved (observations idx vs) full := by
  obtain ⟨hn, rfl, hc⟩ := fill_cases hr
  obtain ⟨hg, -, hv⟩ := FillProc.init_good hne hP
  rw [← obs_eq hne hP]
  simp only [reduceCtorEq, false_and, true_and, false_or, or_self] at hc
  obtain ⟨full, rfl, hf, hb⟩ := fillAuto_spec hsp hg hn hc
  refine ⟨full, rfl, ?_⟩
  have hvne : P.values ≠ [] := by
    intro e
    have := hg.len
    rw [e] at this
    have hh := hg.head
    rw [List.length_eq_zero_iff.1 this] at hh
    simp at hh
  have mem : ∀ v ∈ P.values, ∃ a ∈ P.obs, a.2 = v := by
    intro v hv
    obtain ⟨k, hk, rfl⟩ := List.mem_iff_getElem.1 hv
    have hkl : k < P.indices.length := by rw [hg.len]; exact hk
    refine ⟨P.obs[k]'(by unfold FillProc.obs; rw [List.length_zip]; omega), List.getElem_mem _, ?_⟩
    simp [FillProc.obs]
  intro x hx
  obtain ⟨h1, h2⟩ := hb x hx
  obtain ⟨a, ha, ea⟩ := mem _ (npMin_mem hvne)
  obtain ⟨b, hb, eb⟩ := mem _ (npMax_mem hvne)
  exact ⟨⟨a, ha, by rw [ea]; exact h1⟩, b, hb, by rw [eb]; exact h2⟩

/-- an interpolating spline oracle: linear interpolation (used for examples) -/
def linearSpline : SplineOracle := fun i v n =>
  if i.Pairwise (· < ·) ∧ i.length = v.length then .ok (linearEntire i v n) else .error .valueError

theorem linearSpline_laws : SplineLaws linearSpline where
  len := by
    intro i v n r h
    unfold linearSpline at h
    split at h
    · simp only [Except.ok.injEq] at h; subst h; simp [linearEntire]
    · cases h
  knot := by
    intro i v n r h k hk hkn
    unfold linearSpline at h
    split at h
    · rename_i hc
      simp only [Except.ok.injEq] at h
      subst h
      have ek : i.getD k 0 = i[k] := by simp [List.getD_eq_getElem?_getD, hk]
      have hkv : k < v.length := by omega
      rw [ek] at hkn ⊢
      have hm : (i[k], v[k]) ∈ i.zip v := by
        rw [List.mem_iff_getElem]
        exact ⟨k, by simp; omega, by simp⟩
      have := npInterp_knot (pairwise_zip_fst (vs := v) hc.1) hm
      rw [List.getD_eq_getElem?_getD, List.getD_eq_getElem?_getD, List.getElem?_eq_getElem hkv]
      unfold linearEntire
      rw [List.getElem?_map, List.getElem?_range hkn]
      simp only [Option.map_some, Option.getD_some]
      refine Eq.trans ?_ this
      congr 1
      unfold knots
      rw [List.zip_map_left]
      rfl
    · cases h

/-- a filling, for the examples -/
def demoFill (mode : FillUpMode) (period : Nat) : Option (List (Option ℚ) × List Bool) :=
  match FillProc.init [0, 1, 2, 5, 6, 7, 16, 17] [1, 2, 3, 9, 3, 2, 1, 2] with
  | .ok P => match fillUpOnDemand linearSpline P mode (some 4) period with
    | .ok (some r) => some r
    | _ => none
  | .error _ => none

/-- non-vacuity: three observations, then a gap of two, then a gap of eight -/
example : (demoFill .previous 1).map (·.1) =
    some ([1, 2, 3, 3, 3, 9, 3, 2, 2, 2, 2, 2, 2, 2, 2, 2, 1, 2].map some) := by decide +kernel
example : (demoFill .fixed 1).map (·.1) =
    some ([1, 2, 3, 4, 4, 9, 3, 2, 4, 4, 4, 4, 4, 4, 4, 4, 1, 2].map some) := by decide +kernel
example : (demoFill .linear 1).map (·.1) =
    some ([1, 2, 3, 5, 7, 9, 3, 2, 17/9, 16/9, 15/9, 14/9, 13/9, 12/9, 11/9, 10/9, 1, 2].map some) := by
  decide +kernel
example : (demoFill .auto 4).map (·.2) =
    some [false, false, false, true, true, false, false, false, true, true, true, true, true, true, true, true,
      false, false] := by decide +kernel

end Verif
