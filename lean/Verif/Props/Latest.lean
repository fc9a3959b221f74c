import Verif.Props.Detectors
import Verif.Props.Count
import Verif.Props.Sens
import Verif.Props.LibReal
import Verif.Spec.Modes

/-!
# What the fusion selects, and the latest point in the two modes (C114, C115)
-/

namespace Verif

open Spec

/-! ### the fusion, when two detectors share a ranking -/

theorem prio_two {n : Nat} {p q r : List Nat} {x : Nat} (hp : 2 * p.length ≤ n) (hq : 2 * q.length ≤ n)
    (hr : 2 * r.length ≤ n) (hx : x ∈ p ∨ x ∈ q) : priority n [p, q, r] x < 2 * n := by
  have k1 : (if x ∈ p then p.idxOf x else 0) ≤ p.length := by split; exacts [List.idxOf_le_length, by omega]
  have k2 : (if x ∈ q then q.idxOf x else 0) ≤ q.length := by split; exacts [List.idxOf_le_length, by omega]
  have k3 : (if x ∈ r then r.idxOf x else 0) ≤ r.length := by split; exacts [List.idxOf_le_length, by omega]
  by_cases h : x ∈ p
  · have h1 : p.idxOf x < p.length := List.idxOf_lt_length_of_mem h
    have e : [p, q, r].findIdx (·.contains x) = 0 := by simp [List.findIdx_cons, h]
    simp only [priority, e, List.map_cons, List.map_nil, List.sum_cons, List.sum_nil, h, if_true]
    omega
  · have h' : x ∈ q := hx.resolve_left h
    have h1 : q.idxOf x < q.length := List.idxOf_lt_length_of_mem h'
    have e : [p, q, r].findIdx (·.contains x) = 1 := by simp [List.findIdx_cons, h, h']
    simp only [priority, e, List.map_cons, List.map_nil, List.sum_cons, List.sum_nil, h, h', if_true, if_false]
    omega

theorem prio_third {n : Nat} {p q r : List Nat} {x : Nat} (hp : x ∉ p) (hq : x ∉ q) (hr : x ∈ r) :
    priority n [p, q, r] x = 2 * n + r.idxOf x := by
  have e : [p, q, r].findIdx (·.contains x) = 2 := by simp [List.findIdx_cons, hp, hq, hr]
  simp only [priority, e, List.map_cons, List.map_nil, List.sum_cons, List.sum_nil, hp, hq, hr, if_true, if_false]
  omega

theorem mem_take_idxOf {r : List Nat} {x y : Nat} : y ∈ r.take (r.idxOf x) → y ∈ r ∧ r.idxOf y < r.idxOf x := by
  intro h
  refine ⟨List.mem_of_mem_take h, ?_⟩
  obtain ⟨i, hi, rfl⟩ := List.mem_iff_getElem.1 h
  rw [List.length_take] at hi
  rw [List.getElem_take]
  have : r.idxOf r[i] ≤ i := by
    by_contra hc
    have := List.not_of_lt_findIdx (p := (· == r[i])) (xs := r) (i := i) (by simpa [List.idxOf] using not_le.1 hc)
    simp at this
  omega

theorem mem_take_of_idxOf {r : List Nat} {x y : Nat} (hy : y ∈ r) (h : r.idxOf y < r.idxOf x) :
    y ∈ r.take (r.idxOf x) := by
  have hl := List.idxOf_lt_length_of_mem hy
  refine List.mem_iff_getElem.2 ⟨r.idxOf y, by rw [List.length_take]; omega, ?_⟩
  rw [List.getElem_take]
  exact List.getElem_idxOf hl

theorem fused_two {n m : Nat} {p q S L : List Nat} (hS : S.length ≤ m) (hp : ∀ x ∈ p, x ∈ S) (hq : ∀ x ∈ q, x ∈ S)
    (h : Fused n m [p, q] L) (x : Nat) : x ∈ L ↔ x ∈ p ∨ x ∈ q := by
  have hsub : ∀ y ∈ L, y ∈ p ∨ y ∈ q := by
    intro y hy
    obtain ⟨l, hl, hy⟩ := h.proposed y hy
    simp only [List.mem_cons, List.not_mem_nil, or_false] at hl
    rcases hl with rfl | rfl
    exacts [.inl hy, .inr hy]
  refine ⟨hsub x, fun hx => ?_⟩
  by_contra hc
  have hpx : Proposed [p, q] x := by
    rcases hx with hx | hx
    exacts [⟨p, by simp, hx⟩, ⟨q, by simp, hx⟩]
  have hlen : L.length = m := le_antisymm h.bound (not_lt.1 fun hlt => hc (h.full hlt x hpx))
  have hin : ∀ y, y ∈ p ∨ y ∈ q → y ∈ S := fun y hy => hy.elim (hp y) (hq y)
  have hnd : (x :: L).Nodup := List.nodup_cons.2 ⟨hc, h.nodup⟩
  have : (x :: L).length ≤ S.length := (hnd.subperm fun y hy => by
    rcases List.mem_cons.1 hy with rfl | hy
    exacts [hin _ hx, hin _ (hsub y hy)]).length_le
  simp at this
  omega

/-- with three detectors, the first two of which propose from the same `m` points: everything they propose is selected,
and a point proposed by the third only is selected exactly when there is room left for it -/
theorem fused_three {n m : Nat} {p q r S L : List Nat} (hm : 2 * m ≤ n) (hS : S.length ≤ m)
    (hpl : p.length ≤ m) (hql : q.length ≤ m) (hrl : r.length ≤ m)
    (hp : ∀ x ∈ p, x ∈ S) (hq : ∀ x ∈ q, x ∈ S) (h : Fused n m [p, q, r] L) (x : Nat) :
    x ∈ L ↔ x ∈ p ∨ x ∈ q ∨ x ∈ r ∧ (p ++ q ++ r.take (r.idxOf x)).toFinset.card < m := by
  have hsub : ∀ y ∈ L, y ∈ p ∨ y ∈ q ∨ y ∈ r := by
    intro y hy
    obtain ⟨l, hl, hy⟩ := h.proposed y hy
    simp only [List.mem_cons, List.not_mem_nil, or_false] at hl
    rcases hl with rfl | rfl | rfl
    exacts [.inl hy, .inr (.inl hy), .inr (.inr hy)]
  have hprop : ∀ y, y ∈ p ∨ y ∈ q ∨ y ∈ r → Proposed [p, q, r] y := by
    rintro y (hy | hy | hy)
    exacts [⟨p, by simp, hy⟩, ⟨q, by simp, hy⟩, ⟨r, by simp, hy⟩]
  have hin : ∀ y, y ∈ p ∨ y ∈ q → y ∈ S := fun y hy => hy.elim (hp y) (hq y)
  have hlow : ∀ y, y ∈ p ∨ y ∈ q → priority n [p, q, r] y < 2 * n := fun y hy =>
    prio_two (by omega) (by omega) (by omega) hy
  have first : ∀ y, y ∈ p ∨ y ∈ q → y ∈ L := by
    intro y hy
    by_contra hc
    have hpy := hprop y (hy.elim .inl fun hy => .inr (.inl hy))
    have hlen : L.length = m := le_antisymm h.bound (not_lt.1 fun hlt => hc (h.full hlt y hpy))
    have hnd : (y :: L).Nodup := List.nodup_cons.2 ⟨hc, h.nodup⟩
    have : (y :: L).length ≤ S.length := (hnd.subperm fun z hz => by
      rcases List.mem_cons.1 hz with rfl | hz
      · exact hin _ hy
      · refine hin _ ?_
        by_contra hpq
        rw [not_or] at hpq
        have hzr : z ∈ r := ((hsub z hz).resolve_left hpq.1).resolve_left hpq.2
        have e := prio_third (n := n) hpq.1 hpq.2 hzr
        have := h.best z hz y hpy hc
        have := hlow y hy
        omega).length_le
    simp at this
    omega
  by_cases hpx : x ∈ p
  · simp [hpx, first x (.inl hpx)]
  by_cases hqx : x ∈ q
  · simp [hqx, first x (.inr hqx)]
  by_cases hrx : x ∈ r
  swap
  · refine ⟨fun hx => ?_, fun hx => ?_⟩
    · rcases hsub x hx with hx | hx | hx <;> contradiction
    · rcases hx with hx | hx | ⟨hx, -⟩ <;> contradiction
  have ex := prio_third (n := n) hpx hqx hrx
  simp only [hpx, hqx, hrx, false_or, true_and]
  have hB : ∀ y, y ∈ (p ++ q ++ r.take (r.idxOf x)).toFinset ↔
      (y ∈ p ∨ y ∈ q) ∨ (y ∈ r ∧ r.idxOf y < r.idxOf x) := by
    intro y
    rw [List.mem_toFinset, List.mem_append, List.mem_append]
    exact or_congr_right ⟨mem_take_idxOf, fun h => mem_take_of_idxOf h.1 h.2⟩
  have hxB : x ∉ (p ++ q ++ r.take (r.idxOf x)).toFinset := by
    rw [hB]
    rintro ((h | h) | h)
    exacts [hpx h, hqx h, lt_irrefl _ h.2]
  constructor
  · intro hx
    have hle : (insert x (p ++ q ++ r.take (r.idxOf x)).toFinset).card ≤ L.toFinset.card := by
      refine Finset.card_le_card fun y hy => ?_
      rw [List.mem_toFinset]
      rcases Finset.mem_insert.1 hy with rfl | hy
      · exact hx
      · by_cases hpq : y ∈ p ∨ y ∈ q
        · exact first y hpq
        · obtain ⟨hyr, hlt⟩ := ((hB y).1 hy).resolve_left hpq
          rw [not_or] at hpq
          by_contra hc
          have := h.best x hx y (hprop y (.inr (.inr hyr))) hc
          rw [ex, prio_third hpq.1 hpq.2 hyr] at this
          omega
    rw [Finset.card_insert_of_notMem hxB, List.toFinset_card_of_nodup h.nodup] at hle
    have := h.bound
    omega
  · intro hlt
    by_contra hc
    have hpx' := hprop x (.inr (.inr hrx))
    have hlen : L.length = m := le_antisymm h.bound (not_lt.1 fun hlt => hc (h.full hlt x hpx'))
    have hle : L.toFinset.card ≤ (p ++ q ++ r.take (r.idxOf x)).toFinset.card := by
      refine Finset.card_le_card fun y hy => ?_
      rw [List.mem_toFinset] at hy
      rw [hB]
      by_cases hpq : y ∈ p ∨ y ∈ q
      · exact .inl hpq
      · right
        rw [not_or] at hpq
        have hyr := ((hsub y hy).resolve_left hpq.1).resolve_left hpq.2
        refine ⟨hyr, ?_⟩
        have := h.best y hy x hpx' hc
        rw [ex, prio_third hpq.1 hpq.2 hyr] at this
        have hne : r.idxOf y ≠ r.idxOf x := by
          intro e
          exact hc (((List.idxOf_inj hyr).1 e) ▸ hy)
        omega
    rw [List.toFinset_card_of_nodup h.nodup] at hle
    omega

/-! ### the detectors of one series propose from the same points -/

open Classical in
theorem candidates_prefix {E : Env} (hE : E.WF) (data : List ℚ) (dir : Direction) :
    candidates E data dir <+: order E data dir := by
  by_cases h : ∃ m, IsMajority E.gaussC data m
  · obtain ⟨m, hm⟩ := h
    obtain ⟨k, -, h2, h3, h4⟩ := majorityCut_filter (order_ranking hE data dir) (majority_mem hm)
    have : (order E data dir).take k = candidates E data dir := by
      unfold candidates
      refine take_eq_filter h2 (fun i h hk => ?_) (fun i h hk => ?_)
      · apply decide_eq_true
        intro m' hm'
        rw [majority_unique hm' hm]
        exact h3 i h hk
      · apply decide_eq_false
        intro hc
        exact h4 i h hk (hc m hm)
    rw [← this]
    exact List.take_prefix _ _
  · rw [candidates_none (not_exists.1 h)]

theorem esd_prefix {E : Env} {data : List ℚ} {mx : Nat} {alpha : PyFloat} {dir : Direction} {last : Bool}
    {r : List Nat} (h : EsdProposes E data mx alpha dir last r) :
    r.length ≤ mx ∧ r <+: candidates E data dir := by
  rcases h with ⟨-, -, rfl⟩ | ⟨-, h⟩
  · simp
  · exact ⟨(C37_latest h).1, (C37_latest h).2.1⟩

theorem esd_top {E : Env} (hE : E.WF) {data : List ℚ} {mx : Nat} {alpha : PyFloat} {dir : Direction} {last : Bool}
    {r : List Nat} (h : EsdProposes E data mx alpha dir last r) : ∀ x ∈ r, x ∈ (order E data dir).take mx := by
  obtain ⟨h1, h2⟩ := esd_prefix h
  have := h2.trans (candidates_prefix hE data dir)
  intro x hx
  rw [List.prefix_iff_eq_take.1 this] at hx
  exact (List.take_subset_take_left _ h1) hx

theorem z_top {E : Env} {data : List ℚ} {mx : Nat} {dir : Direction} {r : List Nat} (h : ZProposes E data mx dir r) :
    r.length ≤ mx ∧ ∀ x ∈ r, x ∈ (order E data dir).take mx := by
  obtain ⟨c, s, -, rfl⟩ := h
  exact ⟨(List.length_filter_le _ _).trans (List.length_take_le _ _), fun x hx => (List.mem_filter.1 hx).1⟩

theorem two_max (n : Nat) (ratio : ℚ) : 2 * maxOutliersOf n ratio ≤ n := by
  have : maxOutliersOf n ratio ≤ n / 2 - 1 := min_le_right _ _
  omega

theorem maxOutliersOf_mono {n : Nat} {r r' : ℚ} (h : r ≤ r') : maxOutliersOf n r ≤ maxOutliersOf n r' := by
  have h1 : dmul n r ≤ dmul n r' :=
    roundSigned_mono (mul_le_mul_of_nonneg_left h (by exact_mod_cast n.zero_le))
  have h2 : (dmul n r).ceil ≤ (dmul n r').ceil := by
    rw [Rat.ceil_le_iff]
    exact h1.trans Rat.le_ceil
  unfold maxOutliersOf
  omega

/-- the points flagged by the dynamic threshold model, from the proposals of its detectors -/
theorem dt_members {E : Env} (hE : E.WF) {data : List ℚ} (hd : data ≠ []) {alpha : PyFloat} {ratio : ℚ} {last : Bool}
    {an : List Nat} {model : ModelType} (h : dtAnomalies E data alpha ratio last = .ok (an, model)) :
    ∃ e : Direction → List Nat, (∀ dir, EsdProposes E data (maxOutliersOf data.length ratio) alpha dir last (e dir)) ∧
      ∀ x, x ∈ an ↔ ∃ dir, x ∈ e dir ∨
        x ∈ zscoreDetect E (sortedSeries E data) (maxOutliersOf data.length ratio) dir := by
  set mx := maxOutliersOf data.length ratio with hmx
  obtain ⟨eu, h1, h2⟩ := C77_esd hE hd ratio alpha .upper last
  obtain ⟨el, h3, h4⟩ := C77_esd hE hd ratio alpha .lower last
  have zp : ∀ dir, ZProposes E data mx dir (zscoreDetect E (sortedSeries E data) mx dir) := fun dir =>
    C78_zscore hE hd mx dir
  have nu : ∀ p ∈ [eu, zscoreDetect E (sortedSeries E data) mx .upper], p.Nodup := by
    simp only [List.mem_cons, List.not_mem_nil, or_false]
    rintro p (rfl | rfl)
    exacts [esd_nodup hE h2, z_nodup hE (zp _)]
  have nl : ∀ p ∈ [el, zscoreDetect E (sortedSeries E data) mx .lower], p.Nodup := by
    simp only [List.mem_cons, List.not_mem_nil, or_false]
    rintro p (rfl | rfl)
    exacts [esd_nodup hE h4, z_nodup hE (zp _)]
  have e : an = detectFuse data.length mx [eu, zscoreDetect E (sortedSeries E data) mx .upper]
      [el, zscoreDetect E (sortedSeries E data) mx .lower] := by
    unfold dtAnomalies at h
    dsimp only at h
    rw [h1, h3] at h
    cases h
    rfl
  have hfu := (C38_detect (n := data.length) (m := mx) nu nl).2
  have su := fused_two (S := (order E data .upper).take mx) (List.length_take_le _ _) (esd_top hE h2) (z_top (zp _)).2
    (fused_of (n := data.length) (m := mx) nu)
  have sl := fused_two (S := (order E data .lower).take mx) (List.length_take_le _ _) (esd_top hE h4) (z_top (zp _)).2
    (fused_of (n := data.length) (m := mx) nl)
  refine ⟨fun | .upper => eu | .lower => el, ?_, fun x => ?_⟩
  · rintro (_ | _)
    exacts [h2, h4]
  · rw [e, hfu x, su x, sl x]
    constructor
    · rintro (h | h)
      exacts [⟨.upper, h⟩, ⟨.lower, h⟩]
    · rintro ⟨_ | _, h⟩
      exacts [.inl h, .inr h]

/-- the points flagged by the seasonal model -/
theorem ts_members {E : Env} (hE : E.WF) {data rem : List ℚ} (hd : data ≠ []) (hr : rem.length = data.length)
    {alpha : PyFloat} {ratio : ℚ} {last : Bool} {an : List Nat} {model : ModelType}
    (h : tsAnomalies E data rem alpha ratio last = .ok (an, model)) :
    ∃ e e' : Direction → List Nat,
      (∀ dir, EsdProposes E data (maxOutliersOf data.length ratio) alpha dir last (e dir)) ∧
      (∀ dir, EsdProposes E rem (maxOutliersOf data.length ratio) alpha dir last (e' dir)) ∧
      ∀ x, x ∈ an ↔ ∃ dir, x ∈ e dir ∨
        x ∈ zscoreDetect E (sortedSeries E data) (maxOutliersOf data.length ratio) dir ∨ x ∈ e' dir ∧
          Room (maxOutliersOf data.length ratio) (e dir)
            (zscoreDetect E (sortedSeries E data) (maxOutliersOf data.length ratio) dir) (e' dir) x := by
  have hd' : rem ≠ [] := by
    rintro rfl
    exact hd (List.length_eq_zero_iff.1 hr.symm)
  have hmr : maxOutliersOf rem.length ratio = maxOutliersOf data.length ratio := by rw [hr]
  set mx := maxOutliersOf data.length ratio with hmx
  obtain ⟨eu, h1, h2⟩ := C77_esd hE hd ratio alpha .upper last
  obtain ⟨el, h3, h4⟩ := C77_esd hE hd ratio alpha .lower last
  obtain ⟨ru, h5, h6⟩ := C77_esd hE hd' ratio alpha .upper last
  obtain ⟨rl, h7, h8⟩ := C77_esd hE hd' ratio alpha .lower last
  rw [hmr] at h5 h6 h7 h8
  have zp : ∀ dir, ZProposes E data mx dir (zscoreDetect E (sortedSeries E data) mx dir) := fun dir =>
    C78_zscore hE hd mx dir
  have nu : ∀ p ∈ [eu, zscoreDetect E (sortedSeries E data) mx .upper, ru], p.Nodup := by
    simp only [List.mem_cons, List.not_mem_nil, or_false]
    rintro p (rfl | rfl | rfl)
    exacts [esd_nodup hE h2, z_nodup hE (zp _), esd_nodup hE h6]
  have nl : ∀ p ∈ [el, zscoreDetect E (sortedSeries E data) mx .lower, rl], p.Nodup := by
    simp only [List.mem_cons, List.not_mem_nil, or_false]
    rintro p (rfl | rfl | rfl)
    exacts [esd_nodup hE h4, z_nodup hE (zp _), esd_nodup hE h8]
  have e : an = detectFuse data.length mx [eu, zscoreDetect E (sortedSeries E data) mx .upper, ru]
      [el, zscoreDetect E (sortedSeries E data) mx .lower, rl] := by
    unfold tsAnomalies at h
    dsimp only at h
    rw [h1, h3, h5, h7] at h
    cases h
    rfl
  have hfu := (C38_detect (n := data.length) (m := mx) nu nl).2
  have su := fused_three (S := (order E data .upper).take mx) (two_max _ _) (List.length_take_le _ _) (esd_prefix h2).1
    (z_top (zp _)).1 (esd_prefix h6).1 (esd_top hE h2) (z_top (zp _)).2 (fused_of (n := data.length) (m := mx) nu)
  have sl := fused_three (S := (order E data .lower).take mx) (two_max _ _) (List.length_take_le _ _) (esd_prefix h4).1
    (z_top (zp _)).1 (esd_prefix h8).1 (esd_top hE h4) (z_top (zp _)).2 (fused_of (n := data.length) (m := mx) nl)
  refine ⟨fun | .upper => eu | .lower => el, fun | .upper => ru | .lower => rl, ?_, ?_, fun x => ?_⟩
  · rintro (_ | _)
    exacts [h2, h4]
  · rintro (_ | _)
    exacts [h6, h8]
  · rw [e, hfu x, su x, sl x]
    constructor
    · rintro (h | h)
      exacts [⟨.upper, h⟩, ⟨.lower, h⟩]
    · rintro ⟨_ | _, h⟩
      exacts [.inl h, .inr h]

/-! ### the latest point -/

/-- in latest mode the detector proposes the latest point whenever it does in entire mode, even with a smaller bound -/
theorem esd_last {E : Env} {data : List ℚ} {me ml : Nat} {alpha : PyFloat} {dir : Direction} {re rl : List Nat}
    (he : EsdProposes E data me alpha dir false re) (hl : EsdProposes E data ml alpha dir true rl) (hm : me ≤ ml)
    (h : data.length - 1 ∈ re) : data.length - 1 ∈ rl := by
  rcases he with ⟨he, -⟩ | ⟨-, he⟩
  · cases he
  have hc : data.length - 1 ∈ candidates E data dir := (C37_latest he).2.1.subset h
  rcases hl with ⟨-, hn, -⟩ | ⟨-, hl⟩
  · exact absurd hc hn
  have hlt := List.idxOf_lt_length_of_mem hc
  rcases he with ⟨rfl, -⟩ | ⟨k, rfl, -, h2, h3, -⟩
  · cases h
  have hik : (candidates E data dir).idxOf (data.length - 1) ≤ k := by
    obtain ⟨i, hi, e⟩ := List.mem_iff_getElem.1 h
    rw [List.length_take] at hi
    rw [List.getElem_take] at e
    by_contra hc
    have := List.not_of_lt_findIdx (p := (· == data.length - 1)) (xs := candidates E data dir) (i := i)
      (by have : i < (candidates E data dir).idxOf (data.length - 1) := by omega
          simpa [List.idxOf] using this)
    simp [e] at this
  rcases (C37_latest hl).2.2 _ (data.length - 1) (if_pos rfl) (List.getElem?_eq_some_iff.2 ⟨hlt, List.getElem_idxOf hlt⟩)
    with rfl | h'
  · rcases hl with ⟨-, hl⟩ | ⟨k', e, -⟩
    · exact absurd h3 (hl k (by simpa using hik) (by omega))
    · have hne : candidates E data dir ≠ [] := List.ne_nil_of_mem hc
      have := congrArg List.length e
      have hpos := List.length_pos_iff.2 hne
      rw [List.length_take, List.length_nil] at this
      omega
  · exact h'

/-- with the same bound, latest mode proposes a part of what entire mode does -/
theorem esd_part {E : Env} {data : List ℚ} {m : Nat} {alpha : PyFloat} {dir : Direction} {re rl : List Nat}
    (he : EsdProposes E data m alpha dir false re) (hl : EsdProposes E data m alpha dir true rl) : rl <+: re := by
  rcases hl with ⟨-, -, rfl⟩ | ⟨-, hl⟩
  · exact List.nil_prefix
  rcases he with ⟨he, -⟩ | ⟨-, he⟩
  · cases he
  rcases hl with ⟨rfl, -⟩ | ⟨k, rfl, -, h2, h3, -⟩
  · exact List.nil_prefix
  rcases he with ⟨rfl, he⟩ | ⟨k', rfl, -, -, -, he, -⟩
  · exact absurd h3 (he k (by simp) h2)
  · have : k ≤ k' := by
      by_contra hc
      exact he (by simp) k (by omega) h2 h3
    exact List.take_prefix_take_left (by omega)

theorem z_mono (E : Env) (s : List (Nat × ℚ)) {m m' : Nat} (h : m ≤ m') (dir : Direction) {x : Nat}
    (hx : x ∈ zscoreDetect E s m dir) : x ∈ zscoreDetect E s m' dir := by
  have key : ∀ c d : ℚ, x ∈ (if d = 0 then [] else
      (((tailView s dir).take m).filter fun y => decide (3 < |y.2 - c| / d)).map (·.1)) →
      x ∈ (if d = 0 then [] else (((tailView s dir).take m').filter fun y => decide (3 < |y.2 - c| / d)).map (·.1)) := by
    intro c d hx
    split at hx
    · cases hx
    · rw [if_neg (by assumption)]
      obtain ⟨y, hy, rfl⟩ := List.mem_map.1 hx
      obtain ⟨h1, h2⟩ := List.mem_filter.1 hy
      exact List.mem_map.2 ⟨y, List.mem_filter.2 ⟨List.take_subset_take_left _ h h1, h2⟩, rfl⟩
  exact key _ _ hx

theorem dt_last {E : Env} (hE : E.WF) {data : List ℚ} (hd : data ≠ []) {alpha : PyFloat} {re rl : ℚ} (hr : re ≤ rl)
    {ae al : List Nat} {me ml : ModelType} (he : dtAnomalies E data alpha re false = .ok (ae, me))
    (hl : dtAnomalies E data alpha rl true = .ok (al, ml)) (h : data.length - 1 ∈ ae) : data.length - 1 ∈ al := by
  obtain ⟨e1, h1, h2⟩ := dt_members hE hd he
  obtain ⟨e2, h3, h4⟩ := dt_members hE hd hl
  have hm := maxOutliersOf_mono (n := data.length) hr
  rw [h4]
  obtain ⟨dir, h | h⟩ := (h2 _).1 h
  · exact ⟨dir, .inl (esd_last (h1 dir) (h3 dir) hm h)⟩
  · exact ⟨dir, .inr (z_mono E _ hm dir h)⟩

theorem dt_part {E : Env} (hE : E.WF) {data : List ℚ} (hd : data ≠ []) {alpha : PyFloat} {r : ℚ}
    {ae al : List Nat} {me ml : ModelType} (he : dtAnomalies E data alpha r false = .ok (ae, me))
    (hl : dtAnomalies E data alpha r true = .ok (al, ml)) : ∀ x ∈ al, x ∈ ae := by
  obtain ⟨e1, h1, h2⟩ := dt_members hE hd he
  obtain ⟨e2, h3, h4⟩ := dt_members hE hd hl
  intro x hx
  rw [h2]
  obtain ⟨dir, h | h⟩ := (h4 _).1 hx
  · exact ⟨dir, .inl ((esd_part (h1 dir) (h3 dir)).subset h)⟩
  · exact ⟨dir, .inr h⟩

theorem ts_last {E : Env} (hE : E.WF) {data rem : List ℚ} (hd : data ≠ []) (hn : rem.length = data.length)
    {alpha : PyFloat} {r : ℚ} {ae al : List Nat} {me ml : ModelType}
    (he : tsAnomalies E data rem alpha r false = .ok (ae, me))
    (hl : tsAnomalies E data rem alpha r true = .ok (al, ml)) (h : data.length - 1 ∈ ae) : data.length - 1 ∈ al := by
  obtain ⟨e1, r1, h1, h1', h2⟩ := ts_members hE hd hn he
  obtain ⟨e2, r2, h3, h3', h4⟩ := ts_members hE hd hn hl
  rw [h4]
  obtain ⟨dir, h | h | ⟨h, hroom⟩⟩ := (h2 _).1 h
  · exact ⟨dir, .inl (esd_last (h1 dir) (h3 dir) le_rfl h)⟩
  · exact ⟨dir, .inr (.inl h)⟩
  · have hin : data.length - 1 ∈ r2 dir := by
      rw [← hn] at h ⊢
      exact esd_last (h1' dir) (h3' dir) le_rfl h
    refine ⟨dir, .inr (.inr ⟨hin, ?_⟩)⟩
    refine lt_of_le_of_lt (Finset.card_le_card fun x hx => ?_) hroom
    have hp := esd_part (h1' dir) (h3' dir)
    obtain ⟨t, ht⟩ := hp
    have e : (r1 dir).take ((r1 dir).idxOf (data.length - 1)) = (r2 dir).take ((r2 dir).idxOf (data.length - 1)) := by
      rw [← ht, List.idxOf_append_of_mem hin,
        List.take_append_of_le_length (List.idxOf_lt_length_of_mem hin).le]
    rw [List.mem_toFinset, List.mem_append, List.mem_append] at hx ⊢
    rw [e]
    exact hx.imp_left (Or.imp_left fun h => (esd_part (h1 dir) (h3 dir)).subset h)

/-! ### rows -/

theorem length_assemble (values expected : List ℚ) (trend score : Option (List ℚ)) (an : List Nat) :
    (assemble values expected trend score an).length = values.length := by
  simp [assemble]

theorem flagged_assemble_mono {values e e' : List ℚ} {t t' s s' : Option (List ℚ)} {an an' : List Nat}
    (h : ∀ x ∈ an, x ∈ an') : flagged (assemble values e t s an) ≤ flagged (assemble values e' t' s' an') := by
  unfold flagged assemble
  rw [List.countP_map, List.countP_map]
  refine List.countP_mono_left fun i _ hi => ?_
  simp only [Function.comp, List.contains_iff_mem] at hi ⊢
  exact h i hi

/-- the second pass, with the condition under which it runs -/
theorem mergeWithDelta_iff {E : Env} {rows out : List Row} {series : List ℚ} {ratio : ℚ}
    {run : List ℚ → ℚ → Except PyErr (List Row × ModelType)} (h : mergeWithDelta E rows series ratio run = .ok out) :
    (out = rows ∧ ∀ delta ds, shouldIncludeDelta E series = .ok (some (delta, ds)) → delta ≠ 0 →
      max ((dmul ds.length ratio).floor.toNat) 1 ≤ flagged rows) ∨
    ∃ (delta : Nat) (ds : List ℚ) (drows : List Row) (md : ModelType) (newE newT : List ℚ),
      shouldIncludeDelta E series = .ok (some (delta, ds)) ∧ delta ≠ 0 ∧ ds.length = series.length ∧
      flagged rows < max ((dmul ds.length ratio).floor.toNat) 1 ∧
      run ds (ddiv ((max ((dmul ds.length ratio).floor.toNat) 1 - flagged rows : Nat) : ℚ)
        ds.length) = .ok (drows, md) ∧ out = mergeRows rows drows newE newT := by
  rw [← flagged_filter]
  unfold mergeWithDelta at h
  obtain ⟨o, ho, h⟩ := ebind_ok.1 h
  split at h
  · refine .inl ⟨(epure_ok.1 h).symm, fun delta ds h' => ?_⟩
    rw [ho] at h'
    cases h'
  · refine .inl ⟨(epure_ok.1 h).symm, fun delta ds h' hd => ?_⟩
    rw [ho] at h'
    cases h'
    exact absurd rfl hd
  · rename_i delta ds hd
    dsimp only at h
    split at h
    · rename_i hlt
      obtain ⟨⟨drows, md⟩, h1, h⟩ := ebind_ok.1 h
      obtain ⟨newE, -, h⟩ := ebind_ok.1 h
      obtain ⟨newT, -, h⟩ := ebind_ok.1 h
      exact .inr ⟨delta, ds, drows, md, newE, newT, ho, hd, (deltaLoop_len ho).1, hlt, h1, (epure_ok.1 h).symm⟩
    · rename_i hlt
      refine .inl ⟨(epure_ok.1 h).symm, fun delta ds h' _ => ?_⟩
      rw [ho] at h'
      cases h'
      exact not_lt.1 hlt

theorem anom_mergeRows {rows drows : List Row} {newE newT : List ℚ} (h : drows.length = rows.length) {i : Nat}
    {r d o : Row} (hr : rows[i]? = some r) (hd : drows[i]? = some d) (ho : (mergeRows rows drows newE newT)[i]? = some o) :
    o.anom = (r.anom || d.anom) := by
  obtain ⟨h1, rfl⟩ := List.getElem?_eq_some_iff.1 hr
  obtain ⟨h2, rfl⟩ := List.getElem?_eq_some_iff.1 hd
  obtain ⟨h3, rfl⟩ := List.getElem?_eq_some_iff.1 ho
  rw [getElem_mergeRows h h1]
  cases e1 : rows[i].anom <;> cases e2 : drows[i].anom <;> simp [e1, mergedRow]

theorem run_threshold {E : Env} {M : Model} {series : List ℚ} {ratio : ℚ} {p : Nat} {last : Bool} {rows : List Row}
    {model : ModelType} (hp : p ≤ 1) (hs : shouldTriggerSr E M.gran M.interval series = false)
    (h : M.run E series ratio p last = .ok (rows, model)) :
    ∃ rows0 trend, dtDetection E series trend M.alpha ratio M.needTrend last = .ok (rows0, model) ∧
      mergeWithDelta E rows0 series ratio (fun s r => dtDetection E s trend M.alpha r M.needTrend last) = .ok rows := by
  unfold Model.run at h
  rw [if_neg (by omega), hs] at h
  obtain ⟨trend, -, h⟩ := ebind_ok.1 h
  obtain ⟨⟨rows0, md⟩, h1, h⟩ := ebind_ok.1 h
  obtain ⟨rows1, h2, h⟩ := ebind_ok.1 h
  have := epure_ok.1 h
  simp only [Prod.mk.injEq] at this
  obtain ⟨rfl, rfl⟩ := this
  exact ⟨rows0, trend, h1, h2⟩

theorem normalize_ne {l : List ℚ} (h : l ≠ []) : normalize l ≠ [] := by
  intro e
  have := normalize_length l
  rw [e] at this
  exact h (List.length_eq_zero_iff.1 this.symm)

/-- the latest row in the two modes, one pass of the dynamic threshold model -/
theorem dtDetection_last {E : Env} (hE : E.WF) {series te tl : List ℚ} (hd : series ≠ []) {alpha : PyFloat} {qe ql : ℚ}
    (hq : qe ≤ ql) {ne nl : Bool} {re rl : List Row} {me ml : ModelType}
    (he : dtDetection E series te alpha qe ne false = .ok (re, me))
    (hl : dtDetection E series tl alpha ql nl true = .ok (rl, ml)) {a b : Row}
    (ha : re[series.length - 1]? = some a) (hb : rl[series.length - 1]? = some b) (h : a.anom = true) : b.anom = true := by
  obtain ⟨ae, _, h1, -, rfl⟩ := dtDetection_ok he
  obtain ⟨al, _, h2, -, rfl⟩ := dtDetection_ok hl
  rw [assemble_anom ha] at h
  rw [assemble_anom hb]
  have := dt_last hE (normalize_ne hd) hq h1 h2
  rw [normalize_length] at this
  exact this h

theorem dtDetection_flagged {E : Env} (hE : E.WF) {series te tl : List ℚ} (hd : series ≠ []) {alpha : PyFloat} {q : ℚ}
    {ne nl : Bool} {re rl : List Row} {me ml : ModelType}
    (he : dtDetection E series te alpha q ne false = .ok (re, me))
    (hl : dtDetection E series tl alpha q nl true = .ok (rl, ml)) : flagged rl ≤ flagged re := by
  obtain ⟨ae, _, h1, -, rfl⟩ := dtDetection_ok he
  obtain ⟨al, _, h2, -, rfl⟩ := dtDetection_ok hl
  exact flagged_assemble_mono (dt_part hE (normalize_ne hd) h1 h2)

theorem dtDetection_length {E : Env} {series trend : List ℚ} {alpha : PyFloat} {q : ℚ} {n l : Bool} {rows : List Row}
    {md : ModelType} (h : dtDetection E series trend alpha q n l = .ok (rows, md)) : rows.length = series.length := by
  obtain ⟨an, t, -, -, rfl⟩ := dtDetection_ok h
  exact length_assemble ..

/-- **C114** (dynamic threshold): a row is flagged exactly if one of the two detectors proposes it in one of the two
directions. No proposal is dropped. -/
theorem C114_threshold {E : Env} (hE : E.WF) {series trend : List ℚ} (hd : series ≠ []) {alpha : PyFloat} {ratio : ℚ}
    {needTrend last : Bool} {rows : List Row} {model : ModelType}
    (h : dtDetection E series trend alpha ratio needTrend last = .ok (rows, model)) :
    ∃ data, Normalised series data ∧ ∃ e z : Direction → List Nat,
      (∀ dir, EsdProposes E data (maxOutliersOf series.length ratio) alpha dir last (e dir)) ∧
      (∀ dir, ZProposes E data (maxOutliersOf series.length ratio) dir (z dir)) ∧
      ∀ i r, rows[i]? = some r → (r.anom = true ↔ ∃ dir, i ∈ e dir ∨ i ∈ z dir) := by
  obtain ⟨an, t, h1, -, rfl⟩ := dtDetection_ok h
  obtain ⟨e, h2, h3⟩ := dt_members hE (normalize_ne hd) h1
  rw [normalize_length] at h2 h3
  exact ⟨_, normalize_spec hd, e, _, h2, fun dir => C78_zscore hE (normalize_ne hd) _ dir,
    fun i r hr => (assemble_anom hr).trans (h3 i)⟩

theorem tsDetection_parts {E : Env} (hE : E.WF) {series : List ℚ} {period : Nat} {ratio : ℚ} {alpha : PyFloat}
    {needTrend last : Bool} {rows : List Row} {model : ModelType}
    (h : tsDetection E series period ratio alpha needTrend last = .ok (rows, model)) :
    ∃ d an ex t s deS rem, tsDecompose E series period last = .ok d ∧ deS = List.zipWith (· - ·) series d.seasonal ∧
      rem = List.zipWith (· - ·) deS d.trend ∧ deS.length = series.length ∧ rem.length = series.length ∧ deS ≠ [] ∧ rem ≠ [] ∧
      tsAnomalies E (normalize deS) (normalize rem) alpha (max ratio (ddiv 1 series.length)) last = .ok (an, model) ∧
      rows = assemble series ex t s an := by
  unfold tsDetection at h
  dsimp only at h
  split at h
  · cases h
  split at h
  · cases h
  rename_i hn
  split at h
  · cases h
  obtain ⟨d, hdec, h⟩ := ebind_ok.1 h
  obtain ⟨⟨an, md⟩, h1, h⟩ := ebind_ok.1 h
  obtain ⟨t, -, h⟩ := ebind_ok.1 h
  have := epure_ok.1 h
  simp only [Prod.mk.injEq] at this
  obtain ⟨rfl, rfl⟩ := this
  obtain ⟨l1, l2, l3⟩ := tsDecompose_len hE hdec
  have e1 : (List.zipWith (· - ·) series d.seasonal).length = series.length := by simp [l2]
  have e2 : (List.zipWith (· - ·) (List.zipWith (· - ·) series d.seasonal) d.trend).length = series.length := by
    simp [l1, l2]
  refine ⟨d, an, _, _, _, _, _, hdec, rfl, rfl, e1, e2, fun e => hn ?_, fun e => hn ?_, h1, rfl⟩
  · rw [← e1, e]; rfl
  · rw [← e2, e]; rfl

/-- **C114** (seasonal): a row is flagged exactly if, in one of the two directions, one of the two detectors of the
deseasonalised series proposes it, or the detector of the remainder proposes it and there is room. In particular no
point proposed for the deseasonalised series is dropped, whatever the detector of the remainder proposes. -/
theorem C114_seasonal {E : Env} (hE : E.WF) {series : List ℚ} {period : Nat} {ratio : ℚ} {alpha : PyFloat}
    {needTrend last : Bool} {rows : List Row} {model : ModelType}
    (h : tsDetection E series period ratio alpha needTrend last = .ok (rows, model)) :
    ∃ d, tsDecompose E series period last = .ok d ∧ ∃ data rem,
      Normalised (List.zipWith (· - ·) series d.seasonal) data ∧
      Normalised (List.zipWith (· - ·) (List.zipWith (· - ·) series d.seasonal) d.trend) rem ∧
      ∃ e z e' : Direction → List Nat,
        let mx := maxOutliersOf series.length (max ratio (ddiv 1 series.length))
        (∀ dir, EsdProposes E data mx alpha dir last (e dir) ∧ ZProposes E data mx dir (z dir) ∧
          EsdProposes E rem mx alpha dir last (e' dir)) ∧
        ∀ i r, rows[i]? = some r → (r.anom = true ↔
          ∃ dir, i ∈ e dir ∨ i ∈ z dir ∨ i ∈ e' dir ∧ Room mx (e dir) (z dir) (e' dir) i) := by
  obtain ⟨d, an, ex, t, s, deS, rem, hdec, h1, h2, l1, l2, n1, n2, h3, rfl⟩ := tsDetection_parts hE h
  obtain ⟨e, e', h4, h5, h6⟩ := ts_members hE (normalize_ne n1)
    (by rw [normalize_length, normalize_length, l1, l2]) h3
  rw [normalize_length, l1] at h4 h5 h6
  rw [h1] at *
  rw [h2] at *
  exact ⟨d, hdec, _, _, normalize_spec n1, normalize_spec n2, e, _, e',
    fun dir => ⟨h4 dir, C78_zscore hE (normalize_ne n1) _ dir, h5 dir⟩,
    fun i r hr => (assemble_anom hr).trans (h6 i)⟩

/-- **C115** (dynamic threshold, one pass): with the same ratio the latest row is flagged in LATEST mode exactly if it is
flagged in ENTIRE mode. -/
theorem C115_threshold {E : Env} (hE : E.WF) {series te tl : List ℚ} (hd : series ≠ []) {alpha : PyFloat} {q : ℚ}
    {ne nl : Bool} {re rl : List Row} {me ml : ModelType}
    (he : dtDetection E series te alpha q ne false = .ok (re, me))
    (hl : dtDetection E series tl alpha q nl true = .ok (rl, ml)) {a b : Row}
    (ha : re[series.length - 1]? = some a) (hb : rl[series.length - 1]? = some b) : a.anom = b.anom := by
  refine Bool.eq_iff_iff.2 ⟨dtDetection_last hE hd le_rfl he hl ha hb, ?_⟩
  obtain ⟨ae, _, h1, -, rfl⟩ := dtDetection_ok he
  obtain ⟨al, _, h2, -, rfl⟩ := dtDetection_ok hl
  rw [assemble_anom ha, assemble_anom hb]
  exact dt_part hE (normalize_ne hd) h1 h2 _

/-- **C115** (seasonal): with the same ratio, and if both modes decompose the series alike, a latest row that ENTIRE mode
flags is flagged in LATEST mode. -/
theorem C115_seasonal {E : Env} (hE : E.WF) {series : List ℚ} {period : Nat} {ratio : ℚ} {alpha : PyFloat}
    {ne nl : Bool} {re rl : List Row} {me ml : ModelType}
    (hdec : tsDecompose E series period false = tsDecompose E series period true)
    (he : tsDetection E series period ratio alpha ne false = .ok (re, me))
    (hl : tsDetection E series period ratio alpha nl true = .ok (rl, ml)) {a b : Row}
    (ha : re[series.length - 1]? = some a) (hb : rl[series.length - 1]? = some b) (h : a.anom = true) : b.anom = true := by
  obtain ⟨d, an, ex, t, s, deS, rem, h0, h1, h2, l1, l2, n1, n2, h3, rfl⟩ := tsDetection_parts hE he
  obtain ⟨d', an', ex', t', s', deS', rem', h0', h1', h2', -, -, -, -, h3', rfl⟩ := tsDetection_parts hE hl
  rw [hdec, h0'] at h0
  cases h0
  rw [← h1] at h1'
  subst h1'
  rw [← h2] at h2'
  subst h2'
  rw [assemble_anom ha] at h
  rw [assemble_anom hb]
  have := ts_last hE (normalize_ne n1) (by rw [normalize_length, normalize_length, l1, l2]) h3 h3'
  rw [normalize_length, l1] at this
  exact this h

theorem ddiv_mono {a b n : Nat} (h : a ≤ b) : ddiv (a : ℚ) n ≤ ddiv (b : ℚ) n :=
  roundSigned_mono (div_le_div_of_nonneg_right (by exact_mod_cast h) (by exact_mod_cast n.zero_le))

/-- the latest row in the two modes, both passes of the dynamic threshold model -/
theorem run_last {E : Env} (hE : E.WF) {M : Model} {series : List ℚ} (hd : series ≠ []) {ratio : ℚ} {p : Nat}
    (hp : p ≤ 1) (hs : shouldTriggerSr E M.gran M.interval series = false) {re rl : List Row} {me ml : ModelType}
    (he : M.run E series ratio p false = .ok (re, me)) (hl : M.run E series ratio p true = .ok (rl, ml)) {a b : Row}
    (ha : re[series.length - 1]? = some a) (hb : rl[series.length - 1]? = some b) (h : a.anom = true) : b.anom = true := by
  obtain ⟨re0, te, h1, h2⟩ := run_threshold hp hs he
  obtain ⟨rl0, tl, h3, h4⟩ := run_threshold hp hs hl
  have hpos := List.length_pos_iff.2 hd
  have l1 := dtDetection_length h1
  have l3 := dtDetection_length h3
  obtain ⟨a0, ha0⟩ : ∃ a0, re0[series.length - 1]? = some a0 := ⟨_, List.getElem?_eq_getElem (by omega)⟩
  obtain ⟨b0, hb0⟩ : ∃ b0, rl0[series.length - 1]? = some b0 := ⟨_, List.getElem?_eq_getElem (by omega)⟩
  have hfl := dtDetection_flagged hE hd h1 h3
  have hfirst := dtDetection_last hE hd le_rfl h1 h3 ha0 hb0
  -- what the first pass flags stays flagged
  have keep : b0.anom = true → b.anom = true := by
    intro hb0'
    rcases mergeWithDelta_iff h4 with ⟨rfl, -⟩ | ⟨delta, ds, drows, md, newE, newT, -, -, hlen, -, hrun, rfl⟩
    · rw [hb] at hb0
      cases hb0
      exact hb0'
    · have ld := dtDetection_length hrun
      obtain ⟨d0, hd0⟩ : ∃ d0, drows[series.length - 1]? = some d0 := ⟨_, List.getElem?_eq_getElem (by omega)⟩
      rw [anom_mergeRows (by omega) hb0 hd0 hb, hb0']
      rfl
  rcases mergeWithDelta_iff h2 with ⟨rfl, -⟩ | ⟨delta, ds, drows, md, newE, newT, hi, hdelta, hlen, hlt, hrun, rfl⟩
  · rw [ha] at ha0
    cases ha0
    exact keep (hfirst h)
  · have ld := dtDetection_length hrun
    obtain ⟨d0, hd0⟩ : ∃ d0, drows[series.length - 1]? = some d0 := ⟨_, List.getElem?_eq_getElem (by omega)⟩
    rw [anom_mergeRows (by omega) ha0 hd0 ha, Bool.or_eq_true] at h
    rcases h with h | h
    · exact keep (hfirst h)
    · rcases mergeWithDelta_iff h4 with ⟨rfl, hno⟩ | ⟨delta', ds', drows', md', newE', newT', hi', -, hlen', -, hrun', rfl⟩
      · have := hno delta ds hi hdelta
        omega
      · rw [hi] at hi'
        cases hi'
        have ld' := dtDetection_length hrun'
        obtain ⟨d1, hd1⟩ : ∃ d1, drows'[series.length - 1]? = some d1 := ⟨_, List.getElem?_eq_getElem (by omega)⟩
        rw [anom_mergeRows (by omega) hb0 hd1 hb, Bool.or_eq_true]
        right
        have hne : ds ≠ [] := List.ne_nil_of_length_pos (by omega)
        refine dtDetection_last hE hne (ddiv_mono ?_) hrun hrun' (a := d0) (by rw [hlen]; exact hd0) (by rw [hlen]; exact hd1) h
        omega

/-! ### the same request in both modes -/

/-- the trace of a run, on a given model -/
theorem trace_of_run {E : Env} {d : Detector} {data : DataArg} {params : Params} {items : List Item}
    {hasTs hasValue : Bool} {rows : List (PyVal × PyVal)} {mp : ModelParams} {p' : Params} {m : PyVal} {l : List ℚ}
    {idx : List Int} {M : Model} (hd : data = .frame hasTs hasValue rows) (hp : Parsed E hasTs hasValue rows params p' mp)
    (hm : currentMode d.mode p' = some m)
    (hv : Validated E hasTs hasValue rows mp.granularity mp.interval (l.map .fin) idx)
    (hi : mp.indices = PyVal.ofIntList idx) (hM : Model.init E (l.map .fin) mp = .ok M)
    (hr : runModel E m hasTs hasValue rows mp p' = .ok items) :
    ∃ T : Trace E d data params items, T.M = M ∧ T.after = p' ∧ T.rows = rows ∧ T.idx = idx := by
  obtain ⟨vs', M', rs, per, model, h1, h2, h3, h4⟩ := runModel_ok hr
  rw [hv.values] at h1
  cases h1
  rw [hM] at h2
  cases h2
  have hc := modelInit_ok hM
  obtain ⟨l', idx', i1, i2, i3⟩ := hc.fill
  have : idx' = idx := by
    rw [hi] at i1
    unfold PyVal.ofIntList at i1
    cases i1
    rw [PyVal.asIntList?_map] at i2
    simpa using i2.symm
  subst this
  obtain ⟨frame0, src, h5, rfl⟩ := detect_ok h3
  obtain ⟨full, ratio, raw, h6⟩ := select_ok h5
  have hval := hc.values
  rw [hval] at hv hc
  exact ⟨⟨hasTs, hasValue, rows, mp, p', m, idx', M, frame0, per, model, full, ratio, raw, hd, hp, hm, hv, hc, i3,
    h6, h4⟩, rfl, rfl, rfl, rfl⟩

theorem predict_two {E : Env} (hE : E.WF) {W : Wild} {d₁ d₂ : Detector} {data : DataArg} {params : Params}
    {items₁ items₂ : List Item} (hno : params "indices" = none) (hf : FiniteFill E data params)
    (h₁ : (predict E W d₁ data params).outcome = .ok items₁) (h₂ : (predict E W d₂ data params).outcome = .ok items₂) :
    ∃ (T₁ : Trace E d₁ data params items₁) (T₂ : Trace E d₂ data params items₂), T₁.M = T₂.M ∧ T₁.after = T₂.after ∧
      T₁.rows = T₂.rows ∧ T₁.idx = T₂.idx := by
  obtain ⟨p, r, m₁, g1, g2, g3⟩ := predict_cases h₁
  obtain ⟨p', r', m₂, k1, k2, k3⟩ := predict_cases h₂
  rw [g1] at k1
  cases k1
  obtain ⟨hd, hp⟩ := parseArg_ok g1
  obtain ⟨hasTs, hasValue, rows, mp, p'', m, vs, idx, -, -, -, -, -, -⟩ := predict_validated hno h₁
  rcases hp.indices with hi | ⟨hi, vs, hvs⟩ | ⟨vs, idx, hval, hi⟩
  · rw [hno] at hi; cases hi
  · exfalso
    have : runModel E m₁ r.hasTs r.hasValue r.rows r.mp p = .error (.err .valueError) := by
      obtain ⟨l, hl, -⟩ := mapM_finite fun v hv => (hvs.finite v hv).imp fun _ h => h.1
      unfold runModel
      rw [hvs.values]
      simp [lift, Bind.bind, Except.bind, Model.init, hl, hi]
    rw [this] at g3
    simp at g3
  · have hr₁ : runModel E m₁ r.hasTs r.hasValue r.rows r.mp p = .ok items₁ := by
      rcases g3 with h | ⟨h, -⟩
      · exact h
      · exact absurd h (run_modelled hE hp (hd ▸ hf) hval hi m₁)
    have hr₂ : runModel E m₂ r.hasTs r.hasValue r.rows r.mp p = .ok items₂ := by
      rcases k3 with h | ⟨h, -⟩
      · exact h
      · exact absurd h (run_modelled hE hp (hd ▸ hf) hval hi m₂)
    obtain ⟨vs', M, rs, per, model, h1, h2, h3, h4⟩ := runModel_ok hr₁
    rw [hval.values] at h1
    cases h1
    obtain ⟨l, hl, rfl⟩ := mapM_finite fun v hv' => (hval.toValuesOk.finite v hv').imp fun _ h => h.1
    obtain ⟨T₁, a1, a2, a3, a4⟩ := trace_of_run hd hp g2 hval hi h2 hr₁
    obtain ⟨T₂, b1, b2, b3, b4⟩ := trace_of_run hd hp k2 hval hi h2 hr₂
    exact ⟨T₁, T₂, by rw [a1, b1], by rw [a2, b2], by rw [a3, b3], by rw [a4, b4]⟩

/-- the series of the detection step and its period do not depend on the mode -/
theorem selected_same {E : Env} {M : Model} {asked : Option Nat} {l₁ l₂ : Bool} {f₁ f₂ raw₁ raw₂ : List Row} {p₁ p₂ : Nat}
    {m₁ m₂ : ModelType} {full₁ full₂ : Option (List ℚ × List Bool)} {q₁ q₂ : ℚ}
    (h₁ : Selected E M asked l₁ f₁ p₁ m₁ full₁ q₁ raw₁) (h₂ : Selected E M asked l₂ f₂ p₂ m₂ full₂ q₂ raw₂) :
    p₁ = p₂ ∧ full₁ = full₂ := by
  have hp : p₁ = p₂ := by
    rcases h₁.per with a | ⟨a, ⟨a1, a2⟩ | ⟨a1, s, a2⟩⟩ <;> rcases h₂.per with b | ⟨b, ⟨b1, b2⟩ | ⟨b1, s', b2⟩⟩
    · rw [a] at b; simpa using b
    · rw [a] at b; cases b
    · rw [a] at b; cases b
    · rw [a] at b; cases b
    · rw [a2, b2]
    · linarith
    · rw [a] at b; cases b
    · linarith
    · rw [a2] at b2
      cases b2
      rfl
  subst hp
  refine ⟨rfl, ?_⟩
  rcases h₁.fills with ⟨a, a'⟩ | ⟨a, rfl⟩ <;> rcases h₂.fills with ⟨b, b'⟩ | ⟨b, rfl⟩
  · rw [a'] at b'
    simpa using b'
  · exact absurd a b
  · exact absurd b a
  · rfl

theorem getLast_dropFilled {rows : List Row} {tags : List Bool} (h : tags.getD (rows.length - 1) false = false) :
    (dropFilled rows tags).getLast? = rows.getLast? := by
  rcases List.eq_nil_or_concat rows with rfl | ⟨t, r, rfl⟩
  · rfl
  · unfold dropFilled
    simp only [List.concat_eq_append, List.length_append, List.length_singleton, Nat.add_sub_cancel] at h
    rw [List.concat_eq_append, List.zipIdx_append, List.filter_append, List.map_append]
    have h' : tags[t.length]?.getD false = false := h
    simp [List.zipIdx_cons, h']

/-- the latest row of the frame is the latest row of the series -/
theorem Trace.latest {E : Env} (hE : E.WF) {d : Detector} {data : DataArg} {params : Params} {items : List Item}
    (T : Trace E d data params items) :
    T.frame0.getLast? = T.raw[((T.full.map (·.1)).getD T.M.values).length - 1]? ∧
      (T.full.map (·.1)).getD T.M.values ≠ [] := by
  have hlen := T.len hE
  have hsel := T.selected
  obtain ⟨-, h0, hle⟩ := frameOk_selected hE hlen.2.2.2 T.fillInit (by omega) hsel
  have hl0 := h0.len
  have hne : (T.full.map (·.1)).getD T.M.values ≠ [] := List.ne_nil_of_length_pos (by omega)
  refine ⟨?_, hne⟩
  rw [← hl0, ← List.getLast?_eq_getElem?]
  have hout := hsel.out
  have hfills := hsel.fills
  generalize T.full = full at *
  cases full with
  | none =>
    simp only at hout
    rw [hout]
  | some ft =>
    obtain ⟨l, tags⟩ := ft
    simp only at hout
    rw [hout]
    have hfull : T.M.filled E T.M.mode T.period = .ok (some (l, tags)) := by
      rcases hfills with ⟨-, h⟩ | ⟨-, h⟩
      · exact h
      · cases h
    rcases filled_ok hfull with ⟨h, -⟩ | ⟨l', tags', h, hod⟩
    · cases h
    simp only [Option.some.injEq, Prod.mk.injEq] at h
    obtain ⟨rfl, rfl⟩ := h
    obtain ⟨n, hg, hn, -, htag⟩ := C25_imputation_keeps_observed (WF.splineLaws hE) hlen.2.2.2 T.fillInit hod
    rw [List.length_map] at hn
    simp only [Option.map_some, Option.getD_some] at hl0 hle
    refine getLast_dropFilled ?_
    rw [hl0, hn]
    obtain ⟨v, hpos, hv⟩ := hg.last
    have : tags[n - 1]? ≠ some true := fun h => (htag.2 (n - 1) (by omega)).1 h v hv
    rw [List.getD_eq_getElem?_getD]
    cases e : tags[n - 1]? with
    | none => rfl
    | some b =>
      cases b
      · rfl
      · exact absurd e this

theorem Trace.rowValue {E : Env} {d : Detector} {data : DataArg} {params : Params} {items : List Item}
    (T : Trace E d data params items) {i : Nat} {q : ℚ} (h : T.M.values[i]? = some q) :
    RowValue E.parseFloat T.rows i q := by
  have hv := T.validated.values
  unfold cellValues at hv
  split at hv
  · have hf := mapM_except_ok hv
    obtain ⟨hi, rfl⟩ := List.getElem?_eq_some_iff.1 h
    have hl := hf.length_eq
    rw [List.length_map] at hl
    have h1 := (List.forall₂_iff_get.1 hf).2 i (by omega) (by simpa using hi)
    simp only [List.get_eq_getElem, List.getElem_map] at h1
    exact ⟨_, List.getElem?_eq_getElem (by omega), cellFloat_reads h1⟩
  · split at hv
    · rename_i hz
      have := T.parsed.nonempty
      exact absurd hz this
    · cases hv

/-- **C115** (same request in both modes): without a period, with a granularity other than minutely and secondly, and
values spread over their range, every latest point that ENTIRE mode reports is flagged by the detection of LATEST mode
too. At sensitivity 100 LATEST mode then reports it, unless its own expected value is within 1e-8 of the value. -/
theorem C115_modes {E : Env} (hE : E.WF) {W : Wild} {de dl : Detector} {data : DataArg} {params : Params}
    {entire latest : List Item} {v : PyVal} (hs : params "sensitivity" = some v) (hv : IsInt v 100)
    (hno : params "indices" = none) (hf : FiniteFill E data params) (hme : InMode de params .ENTIRE)
    (hml : InMode dl params .LATEST) (hg : params "granularity" ≠ some (.str "minutely") ∧
      params "granularity" ≠ some (.str "secondly")) (hsp : Spread E data)
    (he : (predict E W de data params).outcome = .ok entire) (hl : (predict E W dl data params).outcome = .ok latest)
    {a b : Item} (ha : entire.getLast? = some a) (hb : latest = [b]) (hper : a.period ≤ 1) (h : a.anom = true) :
    b.anom = true ∨ ∃ hasTs hasValue rows q, data = .frame hasTs hasValue rows ∧
      RowValue E.parseFloat rows (rows.length - 1) q ∧ |q - b.expected| < 1 / 10 ^ 8 := by
  obtain ⟨Te, Tl, hM, hafter, hrows, -⟩ := predict_two hE hno hf he hl
  obtain ⟨fe, ge⟩ := Te.full_sensitivity hE hs hv hme
  obtain ⟨fl, gl⟩ := Tl.full_sensitivity hE hs hv hml
  have hlen := Te.len hE
  have hlenl := Tl.len hE
  -- the latest items
  have hne : entire.length = Te.rows.length := by
    have hfin := Te.finished
    rw [Te.mode_eq hme] at hfin
    obtain ⟨h1, h2, -⟩ := finish_entire (paramSens_range Te.parsed).2 (Te.ready hE) hfin
    rw [length_rowStamps] at h1
    omega
  rw [List.getLast?_eq_getElem?, hne] at ha
  obtain ⟨i, ra, hi, hra, ha'⟩ := ge _ _ ha
  have hi : i = Te.rows.length - 1 := hi
  subst hi
  obtain ⟨j, rb, hj, hrb, hb'⟩ := gl 0 b (by rw [hb]; rfl)
  obtain ⟨-, hj⟩ : 0 = 0 ∧ j + 1 = Tl.rows.length := hj
  have hj : j = Tl.rows.length - 1 := by omega
  subst hj
  -- the last rows of the frames
  obtain ⟨le, hse⟩ := Te.latest hE
  obtain ⟨ll, hsl⟩ := Tl.latest hE
  rw [List.getLast?_eq_getElem?, fe, hra] at le
  rw [List.getLast?_eq_getElem?, fl, hrb] at ll
  -- the same detection step
  have hsele := Te.selected
  have hsell := Tl.selected
  rw [hM, hafter] at hsele
  obtain ⟨hp, hfull⟩ := selected_same hsele hsell
  have hpe : Te.period ≤ 1 := by
    obtain ⟨sw, hit⟩ := Te.item hE hme ha rfl
    obtain ⟨r, o, ts, -, -, -, rfl⟩ := hit
    exact hper
  have hmaj : Tl.M.majority ≤ 6 / 10 := by
    rw [Tl.configured.majority]
    cases e : E.histMajority Tl.M.values with
    | none => simp only [Option.getD_none]; norm_num
    | some s => exact hsp _ _ _ _ s Tl.isFrame hlenl.2.1 (fun i q => Tl.rowValue) e
  have hratio : Te.ratio = Tl.ratio := by
    have h1 := hsele.finite
    have h2 := hsell.finite
    have hno : ∀ last, Tl.M.maxRatio last = Tl.M.ratio := by
      intro last
      unfold Model.maxRatio
      rw [if_neg]
      simp [not_lt.2 hmaj]
    rw [hno] at h1 h2
    rw [h1] at h2
    simpa using h2
  have hsr : shouldTriggerSr E Tl.M.gran Tl.M.interval ((Tl.full.map (·.1)).getD Tl.M.values) = false := by
    have h1 : Tl.M.gran ≠ .minutely ∧ Tl.M.gran ≠ .secondly := by
      rw [Tl.configured.gran]
      rcases Tl.parsed.gran with ⟨-, h⟩ | ⟨s, h, hn⟩
      · rw [h]; decide
      · have := ofName_mem hn
        refine ⟨fun e => hg.1 ?_, fun e => hg.2 ?_⟩ <;> rw [h, ← this, e] <;> rfl
    unfold shouldTriggerSr
    simp [h1.1, h1.2]
  have hrune := hsele.run
  have hrunl := hsell.run
  have mode : ∀ m : DetectType, isLatest (.dtype m) = decide (m = .LATEST) := by rintro (_ | _) <;> rfl
  rw [Te.mode_eq hme, mode, hfull, hratio, hp] at hrune
  rw [Tl.mode_eq hml, mode] at hrunl
  have key := run_last hE hsl (by omega) hsr hrune hrunl (a := ra) (b := rb) (by rw [le, hM, hfull]) ll.symm (ha'.1 h).1
  by_cases hnear : 1 / 10 ^ 8 ≤ |rb.value - rb.expected|
  · exact .inl (hb'.2 ⟨key, hnear⟩)
  · right
    have hit := Tl.item hE hml (k := 0) (it := b) (i := Tl.rows.length - 1) (by rw [hb]; rfl) ⟨rfl, by omega⟩
    obtain ⟨sw, r, o, ts, h1, h2, -, rfl⟩ := hit
    rw [List.getElem?_map, hrb] at h1
    simp only [Option.map_some, Option.some.injEq] at h1
    subst h1
    have hval : Tl.M.values[Tl.rows.length - 1]? = some rb.value := by
      rw [← (Tl.frameOk hE).values, List.getElem?_map, hrb]
      rfl
    refine ⟨_, _, _, rb.value, Tl.isFrame, Tl.rowValue hval, ?_⟩
    have : o.expected = rb.expected := by
      have := h2.expected
      rw [this]
      unfold clearNear
      split <;> rfl
    rw [not_le] at hnear
    simpa [mkItem, this] using hnear

/-! ### concrete cases -/

/-- a request for hourly data at full sensitivity without a period -/
def fullParams : Params := Params.ofList [("granularity", .str "hourly"), ("period", .int 0), ("sensitivity", .int 100)]

/-- fourteen quiet hours, then two high values, the latest one a little lower -/
def twoSpikes : List (PyVal × PyVal) := demoRows [0, 1, 0, 1, 0, 1, 0, 1, 0, 1, 0, 1, 0, 1, 100, 93] 3600

/-- the hypotheses of `C115_modes` are met and the latest point is reported in both modes -/
example : (match (predict demoEnv demoWild entireDetector (.frame true true twoSpikes) fullParams).outcome,
      (predict demoEnv demoWild latestDetector (.frame true true twoSpikes) fullParams).outcome with
    | .ok a, .ok b => decide ((a.getLast?.map fun x => (x.anom, x.period)) = some (true, 0) ∧ b.map (·.anom) = [true])
    | _, _ => false) = true ∧ Spread demoEnv (.frame true true twoSpikes) ∧ InMode entireDetector fullParams .ENTIRE ∧
    InMode latestDetector fullParams .LATEST ∧ fullParams "indices" = none ∧
    FiniteFill demoEnv (.frame true true twoSpikes) fullParams := by
  refine ⟨by decide +kernel, ?_, .inl rfl, .inl rfl, by simp [fullParams, Params.ofList, Params.set], .inl ⟨?_, ?_⟩⟩
  · rintro _ _ _ vs s - - - h
    cases h
    norm_num
  all_goals simp [fullParams, Params.ofList, Params.set]

/-- **C115**, where the values are not spread: most of the values fall into one bin of the histogram, LATEST mode then
searches with a smaller ratio, and ENTIRE mode reports the latest point where LATEST mode does not. -/
theorem C115_majority : ∃ (E : Env) (data : DataArg) (params : Params), E.WF ∧ params "indices" = none ∧
    FiniteFill E data params ∧ InMode entireDetector params .ENTIRE ∧ InMode latestDetector params .LATEST ∧
    params "sensitivity" = some (.int 100) ∧ params "granularity" = some (.str "hourly") ∧
    ∃ entire latest a b, (predict E demoWild entireDetector data params).outcome = .ok entire ∧
      (predict E demoWild latestDetector data params).outcome = .ok latest ∧ entire.getLast? = some a ∧ latest = [b] ∧
      a.period = 0 ∧ a.anom = true ∧ b.anom = false ∧ b.expected + 1 < 93 := by
  have h : (match (predict demoLib.env demoWild entireDetector (.frame true true twoSpikes) fullParams).outcome,
      (predict demoLib.env demoWild latestDetector (.frame true true twoSpikes) fullParams).outcome with
    | .ok l, .ok [b] => (match l.getLast? with
      | some a => decide (a.period = 0) && a.anom && !b.anom && decide (b.expected + 1 < 93)
      | none => false)
    | _, _ => false) = true := by decide +kernel
  split at h
  · rename_i l b hl hb
    split at h
    · rename_i a ha
      simp only [Bool.and_eq_true, Bool.not_eq_true', decide_eq_true_eq] at h
      exact ⟨demoLib.env, .frame true true twoSpikes, fullParams, Lib.env_WF demoLib_WF,
        by simp [fullParams, Params.ofList, Params.set],
        .inl (by constructor <;> simp [fullParams, Params.ofList, Params.set]), .inl rfl, .inl rfl,
        by simp [fullParams, Params.ofList, Params.set], by simp [fullParams, Params.ofList, Params.set],
        l, [b], a, b, hl, hb, ha, rfl, h.1.1.1, h.1.1.2, h.1.2, h.2⟩
    · cases h
  · cases h

/-- a decomposition whose remainder stands out at the latest point only; critical values of 2 -/
def crowdEnv : Env := { demoEnv with
  criticalTable := List.replicate 18000 2
  stl := fun _ l _ _ =>
    let rem := (List.range l.length).map fun i => if i + 1 = l.length then (1 : ℚ) else if i % 2 = 0 then 1 / 100 else 0
    .ok ⟨List.zipWith (· - ·) l rem, List.replicate l.length 0, rem⟩ }

/-- sixteen values, two of them high -/
def crowdSeries : List ℚ := [0, 13, 26, 39, 52, 0, 96, 26, 98, 52, 0, 13, 26, 39, 52, 0]

/-- **C115**, the converse for the seasonal model: with the same decomposition and ratio LATEST mode can flag a latest
point that ENTIRE mode leaves out, because in ENTIRE mode other points take all the room. -/
theorem C115_crowded : ∃ (E : Env) (series : List ℚ) (re rl : List Row) (me ml : ModelType) (a b : Row), E.WF ∧
    tsDecompose E series 3 false = tsDecompose E series 3 true ∧
    tsDetection E series 3 (1 / 8) (.fin (1 / 20)) false false = .ok (re, me) ∧
    tsDetection E series 3 (1 / 8) (.fin (1 / 20)) false true = .ok (rl, ml) ∧
    re[series.length - 1]? = some a ∧ rl[series.length - 1]? = some b ∧ a.anom = false ∧ b.anom = true := by
  have h : (match tsDetection crowdEnv crowdSeries 3 (1 / 8) (.fin (1 / 20)) false false,
      tsDetection crowdEnv crowdSeries 3 (1 / 8) (.fin (1 / 20)) false true with
    | .ok (re, _), .ok (rl, _) => (match re[15]?, rl[15]? with
      | some a, some b => !a.anom && b.anom
      | _, _ => false)
    | _, _ => false) = true := by decide +kernel
  split at h
  · rename_i re me rl ml he hl
    split at h
    · rename_i a b ha hb
      simp only [Bool.and_eq_true, Bool.not_eq_true'] at h
      exact ⟨crowdEnv, crowdSeries, re, rl, me, ml, a, b, { demoEnv_WF with
        table_len := List.length_replicate
        stl_len := fun a l p g r hr => by cases hr; simp }, rfl, he, hl, ha, hb, h.1, h.2⟩
    · cases h
  · cases h

/-- the rows flagged by the two models, for `C114_threshold` and `C114_seasonal`; here the detector of the remainder finds
room for the latest point -/
example : flagsOf (dtDetection demoEnv majoritySeries majoritySeries (.fin (1 / 100)) (1 / 4) false false) =
      some [false, false, true, false, false, true, false, false, false, false, false, true] ∧
    flagsOf (tsDetection crowdEnv crowdSeries 3 (1 / 4) (.fin (1 / 20)) false false) =
      some [true, false, false, false, false, true, true, false, true, true, true, false, false, false, true, true] := by
  decide +kernel

end Verif
