import Verif.Spec.FillMethods
import Verif.Props.FillMethods

/-!
# The values of the step-by-step fill methods (C92–C94)
-/

namespace Verif

open Spec

theorem ceilDiv_spec {a b : Int} (hb : 0 < b) : (ceilDiv a b - 1) * b < a ∧ a ≤ ceilDiv a b * b := by
  have hb' : (0 : ℚ) < b := by exact_mod_cast hb
  unfold ceilDiv
  have h1 : (a : ℚ) / b ≤ (((a : ℚ) / b).ceil : ℚ) := Rat.le_ceil
  have h2 : (((a : ℚ) / b).ceil : ℚ) < (a : ℚ) / b + 1 := Rat.ceil_lt
  rw [div_le_iff₀ hb'] at h1
  have h3 : (((a : ℚ) / b).ceil - 1 : ℚ) < (a : ℚ) / b := by linarith
  rw [lt_div_iff₀ hb'] at h3
  constructor
  · exact_mod_cast h3
  · exact_mod_cast h1

theorem ceilDiv_neg_spec {a b : Int} (hb : 0 < b) : -(ceilDiv a (-b) * b) ≤ a ∧ a < (1 - ceilDiv a (-b)) * b := by
  have hb' : (0 : ℚ) < b := by exact_mod_cast hb
  have e : ceilDiv a (-b) = ceilDiv (-a) b := by
    unfold ceilDiv
    congr 1
    push_cast
    rw [neg_div, div_neg]
  rw [e]
  obtain ⟨h1, h2⟩ := ceilDiv_spec (a := -a) hb
  constructor <;> nlinarith

/-! ### what lies ahead of a position, and behind it -/

/-- values at `i`, `i + T`, … -/
def ahead (obs : List (Nat × ℚ)) (T : Nat) (i : Int) : List ℚ :=
  (obs.filter fun a => decide (i ≤ (a.1 : Int) ∧ (a.1 : Int) % T = i % T)).map Prod.snd

/-- values at …, `i - T`, `i` -/
def behind (obs : List (Nat × ℚ)) (T : Nat) (i : Int) : List ℚ :=
  (obs.filter fun a => decide ((a.1 : Int) ≤ i ∧ (a.1 : Int) % T = i % T)).map Prod.snd

theorem phase_gt {a i T : Int} (hT : 0 < T) (h : a % T = i % T) (hi : i < a) : i + T ≤ a := by
  obtain ⟨c, hc⟩ := Int.dvd_of_emod_eq_zero (Int.emod_eq_emod_iff_emod_sub_eq_zero.1 h)
  have : 0 < c := by
    by_contra hn
    have : T * c ≤ 0 := Int.mul_nonpos_of_nonneg_of_nonpos (le_of_lt hT) (by omega)
    omega
  nlinarith

theorem emod_shift {i T k : Int} : (i + k * T) % T = i % T := by
  rw [Int.add_mul_emod_self_right]

theorem ahead_hit {obs : List (Nat × ℚ)} (hs : obs.Pairwise fun a b => a.1 < b.1) {T i : Nat} (hT : 0 < T) {v : ℚ} (h : (i, v) ∈ obs) :
    ahead obs T i = v :: ahead obs T (i + T) := by
  obtain ⟨l1, l2, rfl⟩ := List.append_of_mem h
  rw [List.pairwise_append, List.pairwise_cons] at hs
  obtain ⟨-, ⟨h2, -⟩, h3⟩ := hs
  have e1 : l1.filter (fun a => decide ((i : Int) ≤ (a.1 : Int) ∧ (a.1 : Int) % T = (i : Int) % T)) = [] := by
    rw [List.filter_eq_nil_iff]
    intro a ha
    have := h3 a ha (i, v) (by simp)
    simp at this ⊢
    omega
  have e2 : l1.filter (fun a => decide ((i : Int) + T ≤ (a.1 : Int) ∧ (a.1 : Int) % T = ((i : Int) + T) % T)) = [] := by
    rw [List.filter_eq_nil_iff]
    intro a ha
    have := h3 a ha (i, v) (by simp)
    simp only [decide_eq_true_eq, not_and] at this ⊢
    omega
  have e3 : l2.filter (fun a => decide ((i : Int) ≤ (a.1 : Int) ∧ (a.1 : Int) % T = (i : Int) % T)) =
      l2.filter (fun a => decide ((i : Int) + T ≤ (a.1 : Int) ∧ (a.1 : Int) % T = ((i : Int) + T) % T)) := by
    apply List.filter_congr
    intro a ha
    have h4 := h2 a ha
    simp only [decide_eq_decide, Int.add_emod_right]
    constructor
    · rintro ⟨-, h⟩
      exact ⟨phase_gt (by omega) h (by simpa using h4), h⟩
    · rintro ⟨-, h⟩
      exact ⟨by omega, h⟩
  unfold ahead
  rw [List.filter_append, List.filter_append, e1, e2, List.filter_cons_of_pos (by simp), List.filter_cons_of_neg (by simp; omega), e3]
  simp

theorem ahead_skip {obs : List (Nat × ℚ)} {T : Nat} {i i' : Int} (h1 : i ≤ i') (h2 : i' % T = i % T)
    (h : ∀ a ∈ obs, (a.1 : Int) % T = i % T → i ≤ (a.1 : Int) → i' ≤ (a.1 : Int)) : ahead obs T i = ahead obs T i' := by
  unfold ahead
  congr 1
  apply List.filter_congr
  intro a ha
  simp only [decide_eq_decide, h2]
  exact ⟨fun ⟨x, y⟩ => ⟨h a ha y x, y⟩, fun ⟨x, y⟩ => ⟨by omega, y⟩⟩

theorem behind_hit {obs : List (Nat × ℚ)} (hs : obs.Pairwise fun a b => a.1 < b.1) {T i : Nat} (hT : 0 < T) {v : ℚ} (h : (i, v) ∈ obs) :
    behind obs T i = behind obs T (i - T) ++ [v] := by
  obtain ⟨l1, l2, rfl⟩ := List.append_of_mem h
  rw [List.pairwise_append, List.pairwise_cons] at hs
  obtain ⟨-, ⟨h2, -⟩, h3⟩ := hs
  have e1 : l2.filter (fun a => decide ((a.1 : Int) ≤ (i : Int) ∧ (a.1 : Int) % T = (i : Int) % T)) = [] := by
    rw [List.filter_eq_nil_iff]
    intro a ha
    have := h2 a ha
    simp at this ⊢
    omega
  have e2 : l2.filter (fun a => decide ((a.1 : Int) ≤ (i : Int) - T ∧ (a.1 : Int) % T = ((i : Int) - T) % T)) = [] := by
    rw [List.filter_eq_nil_iff]
    intro a ha
    have := h2 a ha
    simp only [decide_eq_true_eq, not_and] at this ⊢
    omega
  have e3 : l1.filter (fun a => decide ((a.1 : Int) ≤ (i : Int) ∧ (a.1 : Int) % T = (i : Int) % T)) =
      l1.filter (fun a => decide ((a.1 : Int) ≤ (i : Int) - T ∧ (a.1 : Int) % T = ((i : Int) - T) % T)) := by
    apply List.filter_congr
    intro a ha
    have h4 := h3 a ha (i, v) (by simp)
    simp only [decide_eq_decide, Int.sub_emod_right]
    constructor
    · rintro ⟨-, h⟩
      have := phase_gt (a := i) (i := a.1) (T := T) (by omega) h.symm (by simpa using h4)
      exact ⟨by omega, h⟩
    · rintro ⟨-, h⟩
      exact ⟨by omega, h⟩
  unfold behind
  rw [List.filter_append, List.filter_append, List.filter_cons_of_pos (by simp), e1, List.filter_cons_of_neg (by simp; omega), e2, e3]
  simp

theorem behind_skip {obs : List (Nat × ℚ)} {T : Nat} {i i' : Int} (h1 : i' ≤ i) (h2 : i' % T = i % T)
    (h : ∀ a ∈ obs, (a.1 : Int) % T = i % T → (a.1 : Int) ≤ i → (a.1 : Int) ≤ i') : behind obs T i = behind obs T i' := by
  unfold behind
  congr 1
  apply List.filter_congr
  intro a ha
  simp only [decide_eq_decide, h2]
  exact ⟨fun ⟨x, y⟩ => ⟨h a ha y x, y⟩, fun ⟨x, y⟩ => ⟨by omega, y⟩⟩

/-- the situation in the loop: a position, its count, its cell -/
theorem walk_at {P : FillProc} (h : P.Good) (hn : P.need = true) {g : List (Option ℚ)} (hk : Keeps P.obs g) (hl : g.length = P.allCount)
    {i : Nat} (hi : i < g.length) :
    (∃ v, (i, v) ∈ P.obs ∧ P.info[i]? = some ⟨false, 0, 0⟩ ∧ g.getD i none = some v) ∨
    ∃ m k : Nat, m < i ∧ i < k ∧ (∀ a ∈ P.obs, a.1 ≤ m ∨ k ≤ a.1) ∧ ∃ t, P.info[i]? = some ⟨t, k - i, k - m - 1⟩ := by
  obtain ⟨x, h1, h2, h3⟩ := h.info_get hn (hl ▸ hi)
  by_cases hm : i ∈ P.indices
  · left
    obtain ⟨v, hv⟩ := mem_zip_of_mem h.len hm
    refine ⟨v, hv, by rw [h1, h2 hm], ?_⟩
    rw [List.getD_eq_getElem?_getD, hk _ hv]
    rfl
  · right
    obtain ⟨m, k, -, -, a3, a4, a5, -, a7, a8⟩ := h3 hm
    refine ⟨m, k, a3, a4, fun a ha => a5 _ (List.of_mem_zip (b := a.2) ha).1, x.tag, ?_⟩
    rw [h1, ← a7, ← a8]

theorem fm_none (l : List (Option ℚ)) : (none :: l).filterMap id = l.filterMap id := rfl

theorem fm_some (v : ℚ) (l : List (Option ℚ)) : (some v :: l).filterMap id = v :: l.filterMap id := rfl

/-- with 'try_best' the loop collects the nearest observed values of the phase -/
theorem walk_ahead {P : FillProc} (h : P.Good) (hn : P.need = true) {g : List (Option ℚ)} (hk : Keeps P.obs g) (hl : g.length = P.allCount)
    {T : Nat} (hT : 0 < T) {fuel n i : Nat} (hf : g.length ≤ i + fuel) :
    (walk g P.info false true true T fuel n i).filterMap id = (ahead P.obs T i).take n := by
  have out : ∀ i : Nat, g.length ≤ i → ahead P.obs T i = [] := by
    intro i hi
    unfold ahead
    rw [List.map_eq_nil_iff, List.filter_eq_nil_iff]
    intro a ha
    have := h.inside a.1 (List.of_mem_zip (b := a.2) ha).1
    simp only [decide_eq_true_eq, not_and]
    omega
  induction fuel generalizing n i with
  | zero => rw [walk, out i (by omega)]; simp
  | succ fuel ih =>
    cases n with
    | zero => simp [walk]
    | succ n =>
      rw [walk]
      split
      · rename_i hi
        have hi' : i < g.length := by omega
        rw [Int.toNat_natCast]
        rcases walk_at h hn hk hl hi' with ⟨v, hv, h1, h2⟩ | ⟨m, k, h1, h2, h3, t, h4⟩
        · rw [h1]
          simp only [Nat.lt_irrefl, and_false, if_false]
          rw [h2, ahead_hit h.gapped.ascending hT hv]
          rw [fm_some]
          simp only [reduceCtorEq, and_false, if_false, List.take_succ_cons]
          congr 1
          exact_mod_cast ih (n := n) (i := i + T) (by omega)
        · rw [h4]
          simp only [true_and, if_pos (show 0 < k - i by omega), if_true, fm_none]
          obtain ⟨c1, c2⟩ := ceilDiv_spec (a := ((k - i : Nat) : Int) - T) (b := T) (by omega)
          generalize ceilDiv (((k - i : Nat) : Int) - T) T = c at c1 c2
          have hc : 0 ≤ c := by
            by_contra hneg
            have : c * T ≤ -1 * T := by nlinarith
            omega
          obtain ⟨c, rfl⟩ := Int.eq_ofNat_of_zero_le hc
          have e : (i : Int) + (c : Int) * T + T = ((i + c * T + T : Nat) : Int) := by push_cast; ring
          have hcT : i + c * T + T ≥ i + 1 := by omega
          rw [e, ih (by omega)]
          congr 1
          symm
          refine ahead_skip (by push_cast; nlinarith) (by push_cast; rw [show (i : Int) + c * T + T = i + (c + 1) * T by ring, emod_shift]) ?_
          intro a ha hp hia
          have h5 := h3 a ha
          rw [← e]
          have := phase_gt (a := a.1) (i := i + c * T) (T := T) (by omega) (by rw [emod_shift]; exact hp) (by
            have : (k : Int) ≤ a.1 := by omega
            have h6 : ((k - i : Nat) : Int) = k - i := by omega
            nlinarith)
          exact this
      · rename_i hi
        rw [out i (by omega)]
        simp

theorem walk_behind {P : FillProc} (h : P.Good) (hn : P.need = true) {g : List (Option ℚ)} (hk : Keeps P.obs g) (hl : g.length = P.allCount)
    {T : Nat} (hT : 0 < T) {fuel n : Nat} {i : Int} (hi : i < g.length) (hf : i < fuel) :
    (walk g P.info false true false (-(T : Int)) fuel n i).filterMap id = ((behind P.obs T i).reverse).take n := by
  have out : ∀ i : Int, i < 0 → behind P.obs T i = [] := by
    intro i hi
    unfold behind
    rw [List.map_eq_nil_iff, List.filter_eq_nil_iff]
    intro a ha
    simp only [decide_eq_true_eq, not_and]
    omega
  induction fuel generalizing n i with
  | zero => rw [walk, out i (by omega)]; simp
  | succ fuel ih =>
    cases n with
    | zero => simp [walk]
    | succ n =>
      rw [walk]
      split
      · rename_i hi0
        obtain ⟨i, rfl⟩ := Int.eq_ofNat_of_zero_le hi0.1
        rw [Int.toNat_natCast]
        rcases walk_at h hn hk hl (show i < g.length by omega) with ⟨v, hv, h1, h2⟩ | ⟨m, k, h1, h2, h3, t, h4⟩
        · rw [h1]
          simp only [Nat.lt_irrefl, and_false, if_false]
          rw [h2, behind_hit h.gapped.ascending hT hv]
          rw [fm_some]
          simp only [reduceCtorEq, and_false, if_false, List.reverse_append, List.reverse_cons,
            List.reverse_nil, List.nil_append, List.singleton_append, List.take_succ_cons]
          congr 1
          have := ih (n := n) (i := (i : Int) + -(T : Int)) (by omega) (by omega)
          rw [this, sub_eq_add_neg]
        · rw [h4]
          simp only [true_and, if_pos (show 0 < k - i by omega), if_true, fm_none, Bool.false_eq_true, if_false]
          obtain ⟨c1, c2⟩ := ceilDiv_neg_spec (a := ((k - m - 1 : Nat) : Int) - ((k - i : Nat) : Int)) (b := T) (by omega)
          generalize ceilDiv (((k - m - 1 : Nat) : Int) - ((k - i : Nat) : Int)) (-(T : Int)) = c at c1 c2
          have hd : ((k - m - 1 : Nat) : Int) - ((k - i : Nat) : Int) = i - m - 1 := by omega
          rw [hd] at c1 c2
          have hc : c ≤ 0 := by
            by_contra hpos
            have : (1 - c) * T ≤ 0 := by nlinarith
            omega
          have hcT : c * T ≤ 0 := by nlinarith
          have e : (i : Int) + c * -(T : Int) * -1 + -(T : Int) = i + (c - 1) * T := by ring
          have e' : (i : Int) + (c - 1) * T = i + c * T - T := by ring
          rw [e, ih (by omega) (by omega)]
          congr 2
          symm
          refine behind_skip (by omega) emod_shift ?_
          intro a ha hp hia
          have h5 := h3 a ha
          have := phase_gt (a := i + c * T) (i := a.1) (T := T) (by omega) (by rw [emod_shift]; exact hp.symm) (by omega)
          omega
      · rename_i hi0
        rw [out i (by omega)]
        simp

theorem lastN_eq (l : List ℚ) (n : Nat) : (l.reverse.take n).reverse = lastN n l := by
  unfold lastN
  rw [List.take_reverse, List.reverse_reverse]

theorem ahead_after {obs : List (Nat × ℚ)} {p T : Nat} (hT : 0 < T) : ahead obs T ((p : Int) + T) = after (inPhase obs p T) p := by
  unfold ahead after inPhase
  rw [List.filter_filter]
  congr 1
  apply List.filter_congr
  intro a _
  rw [Bool.eq_iff_iff]
  simp only [decide_eq_true_eq, Bool.and_eq_true, Int.add_emod_right]
  constructor
  · rintro ⟨h1, h2⟩
    exact ⟨by omega, by exact_mod_cast h2⟩
  · rintro ⟨h1, h2⟩
    have h2' : (a.1 : Int) % T = (p : Int) % T := by exact_mod_cast h2
    exact ⟨phase_gt (by omega) h2' (by omega), h2'⟩

theorem behind_before {obs : List (Nat × ℚ)} {p T : Nat} (hT : 0 < T) : behind obs T ((p : Int) - T) = before (inPhase obs p T) p := by
  unfold behind before inPhase
  rw [List.filter_filter]
  congr 1
  apply List.filter_congr
  intro a _
  rw [Bool.eq_iff_iff]
  simp only [decide_eq_true_eq, Bool.and_eq_true, Int.sub_emod_right]
  constructor
  · rintro ⟨h1, h2⟩
    exact ⟨by omega, by exact_mod_cast h2⟩
  · rintro ⟨h1, h2⟩
    have h2' : (a.1 : Int) % T = (p : Int) % T := by exact_mod_cast h2
    have := phase_gt (a := p) (i := a.1) (T := T) (by omega) h2'.symm (by omega)
    exact ⟨by omega, h2'⟩

theorem inPhase_one (obs : List (Nat × ℚ)) (p : Nat) : inPhase obs p 1 = obs := by
  unfold inPhase
  rw [List.filter_eq_self]
  intro a _
  simp [Nat.mod_one]

theorem zip_before {idx : List Nat} {vs : List ℚ} (hs : idx.Pairwise (· < ·)) (hl : idx.length = vs.length) (p : Nat) :
    before (idx.zip vs) p = vs.take (rankOf idx p) := by
  unfold before rankOf
  induction idx generalizing vs with
  | nil => cases vs with
    | nil => rfl
    | cons => simp at hl
  | cons k t ih =>
    cases vs with
    | nil => simp at hl
    | cons v vs =>
      obtain ⟨h1, h2⟩ := List.pairwise_cons.1 hs
      by_cases hk : k < p
      · have := ih h2 (by simpa using hl)
        rw [List.zip_cons_cons, List.filter_cons_of_pos (by simpa using hk), List.filter_cons_of_pos (by simpa using hk)]
        simp only [List.map_cons, List.length_cons, List.take_succ_cons, this]
      · have e1 : (t.zip vs).filter (fun a => decide (a.1 < p)) = [] := by
          rw [List.filter_eq_nil_iff]
          intro a ha
          have := h1 a.1 (List.of_mem_zip (b := a.2) ha).1
          simp; omega
        have e2 : t.filter (fun a => decide (a < p)) = [] := by
          rw [List.filter_eq_nil_iff]
          intro a ha
          have := h1 a ha
          simp; omega
        rw [List.zip_cons_cons, List.filter_cons_of_neg (by simpa using hk), List.filter_cons_of_neg (by simpa using hk), e1, e2]
        simp

theorem zip_after {idx : List Nat} {vs : List ℚ} (hs : idx.Pairwise (· < ·)) (hl : idx.length = vs.length) {p : Nat} (hp : p ∉ idx) :
    after (idx.zip vs) p = vs.drop (rankOf idx p) := by
  unfold after rankOf
  induction idx generalizing vs with
  | nil => cases vs with
    | nil => rfl
    | cons => simp at hl
  | cons k t ih =>
    cases vs with
    | nil => simp at hl
    | cons v vs =>
      obtain ⟨h1, h2⟩ := List.pairwise_cons.1 hs
      simp only [List.mem_cons, not_or] at hp
      by_cases hk : k < p
      · have := ih h2 (by simpa using hl) hp.2
        rw [List.zip_cons_cons, List.filter_cons_of_neg (by simp; omega), this, List.filter_cons_of_pos (by simpa using hk)]
        simp
      · have e1 : (t.zip vs).filter (fun a => decide (p < a.1)) = t.zip vs := by
          rw [List.filter_eq_self]
          intro a ha
          have := h1 a.1 (List.of_mem_zip (b := a.2) ha).1
          simp; omega
        have e2 : t.filter (fun a => decide (a < p)) = [] := by
          rw [List.filter_eq_nil_iff]
          intro a ha
          have := h1 a ha
          simp; omega
        rw [List.zip_cons_cons, List.filter_cons_of_pos (by simp; omega), List.filter_cons_of_neg (by simpa using hk), e1, e2]
        simp only [List.map_cons, List.length_nil, List.drop_zero, List.cons.injEq, true_and]
        exact List.map_snd_zip (by simp at hl; omega)

theorem filterMap_whole {l : List (Option ℚ)} (h : none ∉ l) : (l.filterMap id).length = l.length := by
  induction l with
  | nil => rfl
  | cons a t ih =>
    cases a with
    | none => simp at h
    | some v => rw [fm_some, List.length_cons, List.length_cons, ih fun hm => h (by simp [hm])]

/-- with 'try_best' and without filled values, a method sees the nearest observations of the phase -/
theorem look_best {lev : Bool} (hlev : lev = false) {short : OnShort} (hsh : short = .tryBest) {P : FillProc} (h : P.Good) (hn : P.need = true) {g : List (Option ℚ)} (hk : Keeps P.obs g) (hl : g.length = P.allCount)
    {T : Nat} (hT : 0 < T) {bn fn p : Nat} (hp : p < P.allCount) (hm : p ∉ P.indices) (h0 : 0 < bn + fn) :
    lookAround P lev short T bn fn p (rankOf P.indices p) g =
      .ok (if nearby (inPhase P.obs p T) p bn fn = [] then none
        else some (lastN bn (before (inPhase P.obs p T) p), (after (inPhase P.obs p T) p).take fn)) := by
  have both : ∀ x y : List (Option ℚ), (if lev = false ∧ short = .tryBest ∧ T = 1 then
        (((P.values.take (rankOf P.indices p)).drop (rankOf P.indices p - min bn (rankOf P.indices p))).map some,
          ((P.values.drop (rankOf P.indices p)).take fn).map some)
      else (periodical g P.info lev (decide (short = .tryBest)) p bn T false,
        periodical g P.info lev (decide (short = .tryBest)) p fn T true)) = (x, y) →
      x.filterMap id = lastN bn (before (inPhase P.obs p T) p) ∧ y.filterMap id = (after (inPhase P.obs p T) p).take fn := by
    intro x y hxy
    split at hxy
    · rename_i hc
      obtain rfl := hc.2.2
      cases hxy
      rw [filterMap_map_some, filterMap_map_some, inPhase_one]
      unfold FillProc.obs
      rw [zip_before h.sorted h.len, zip_after h.sorted h.len hm]
      refine ⟨?_, rfl⟩
      unfold lastN
      have := (rankOf_bounds h hp hm).2
      rw [List.length_take]
      congr 1
      omega
    · cases hxy
      subst hlev hsh
      unfold periodical
      simp only [Bool.false_eq_true, if_false, if_true, decide_true]
      rw [List.filterMap_reverse, walk_behind h hn hk hl hT (by omega) (by omega), behind_before hT, lastN_eq,
        show (p : Int) + (T : Int) = ((p + T : Nat) : Int) by push_cast; rfl, walk_ahead h hn hk hl hT (by omega)]
      push_cast
      rw [ahead_after hT]
      exact ⟨rfl, rfl⟩
  obtain ⟨b1, b2⟩ := both _ _ Prod.mk.eta.symm
  unfold lookAround
  simp only
  clear both
  revert b1 b2
  generalize (if lev = false ∧ short = .tryBest ∧ T = 1 then
        (((P.values.take (rankOf P.indices p)).drop (rankOf P.indices p - min bn (rankOf P.indices p))).map some,
          ((P.values.drop (rankOf P.indices p)).take fn).map some)
      else (periodical g P.info lev (decide (short = .tryBest)) p bn T false,
        periodical g P.info lev (decide (short = .tryBest)) p fn T true)) = xy
  intro b1 b2
  have hnear : nearby (inPhase P.obs p T) p bn fn = [] ↔ xy.1.filterMap id = [] ∧ xy.2.filterMap id = [] := by
    unfold nearby
    rw [b1, b2, List.append_eq_nil_iff]
  subst hsh
  split
  · simp only [hnear]
    rw [b1, b2]
    split <;> rfl
  · rename_i hc
    push Not at hc
    obtain ⟨c1, c2, c3, c4⟩ := hc
    rw [if_neg, b1, b2]
    rw [hnear]
    rintro ⟨e1, e2⟩
    have := filterMap_whole c1
    have := filterMap_whole c3
    rw [e1] at *
    rw [e2] at *
    simp at *
    omega

/-- period that a step-by-step method works with -/
def Phase (a : FillArgs) (T : Nat) : Prop := (a.considerPeriod = true ∧ a.periodOf = .ok T) ∨ (a.considerPeriod = false ∧ T = 1)

theorem Phase.eff {a : FillArgs} {T period : Nat} (h : Phase a T) (hp : a.periodOf = .ok period) :
    (if a.considerPeriod = true ∧ 1 < period then period else 1) = T ∧ 0 < T := by
  have hpos := periodOf_pos hp
  rcases h with ⟨h1, h2⟩ | ⟨h1, rfl⟩
  · rw [h2] at hp
    cases hp
    refine ⟨?_, hpos⟩
    split
    · rfl
    · rename_i hc
      push Not at hc
      have := hc h1
      omega
  · rw [h1]
    simp

theorem basicFunc_best {P : FillProc} (h : P.Good) (hn : P.need = true) {g : List (Option ℚ)} (hk : Keeps P.obs g) (hl : g.length = P.allCount)
    {a : FillArgs} {period T : Nat} (hper : a.periodOf = .ok period) (hph : Phase a T) (hlev : a.leverage = false) {bn : Nat}
    (hbn : a.backwardN = some bn) (h0 : 0 < bn + a.forwardN.getD 0) {p : Nat} (hp : p < P.allCount) (hm : p ∉ P.indices) (op : Reduction)
    (ws : Option (List ℚ)) :
    basicFunc P a .tryBest period op ws p (rankOf P.indices p) g =
      if nearby (inPhase P.obs p T) p bn (a.forwardN.getD 0) = [] then .ok none
      else (reduceWith op ws bn (a.forwardN.getD 0) (lastN bn (before (inPhase P.obs p T) p))
        ((after (inPhase P.obs p T) p).take (a.forwardN.getD 0))).map some := by
  obtain ⟨e, hT⟩ := hph.eff hper
  unfold basicFunc
  rw [hbn]
  simp only
  rw [e, look_best hlev rfl h hn hk hl hT hp hm h0]
  split <;> rename_i hc
  · cases hc
  · split at hc
    · rw [if_pos (by assumption)]
    · cases hc
  · split at hc
    · cases hc
    · rw [if_neg (by assumption)]
      cases hc
      rfl

/-! ### the loop returns -/

theorem fillLoop_total {f : Nat → Nat → List (Option ℚ) → Except FillStop Fill} {onErr : OnError} {values : List ℚ} {n : Nat}
    (Inv : List (Option ℚ) → Prop) {fuel i j : Nat} {idx : List Nat} {full : List (Option ℚ)}
    (hfuel : n ≤ i + fuel) (hin : i ≤ n) (hc : Covers idx i (n - i)) (hI : Inv full)
    (hf : ∀ p, i ≤ p → p < n → p ∉ idx → ∀ g, Inv g → ∃ v, f p (j + rankOf idx p) g = .ok (.one v) ∧ Inv (g.set p v)) :
    ∃ r, fillLoop f onErr values n fuel i j idx full = .ok r := by
  induction fuel generalizing i j idx full with
  | zero =>
    unfold fillLoop
    rw [if_pos (by omega)]
    exact ⟨_, rfl⟩
  | succ fuel ih =>
    unfold fillLoop
    by_cases hni : n ≤ i
    · rw [if_pos hni]
      exact ⟨_, rfl⟩
    rw [if_neg hni]
    cases idx with
    | nil => exact absurd rfl (Covers.ne_nil (n := n - i - 1) (by rwa [show n - i - 1 + 1 = n - i by omega]))
    | cons k t =>
      have hc' : Covers (k :: t) i (n - i - 1 + 1) := by rwa [show n - i - 1 + 1 = n - i by omega]
      by_cases hk : k = i
      · subst hk
        simp only [if_true]
        refine ih (by omega) (by omega) (by rw [show n - (k + 1) = n - k - 1 by omega]; exact hc'.hit) hI ?_
        intro p a b c g hg
        have hnm : p ∉ k :: t := by simp; exact ⟨by omega, c⟩
        have hr : j + 1 + rankOf t p = j + rankOf (k :: t) p := by
          unfold rankOf
          rw [List.filter_cons_of_pos (by simp; omega)]
          simp; omega
        rw [hr]
        exact hf p (by omega) b hnm g hg
      · have hik : i < k := by have := (hc.mem k (by simp)).1; omega
        simp only [if_neg hk, if_neg (show ¬ k < i by omega)]
        obtain ⟨v, hv, hI'⟩ := hf i (le_refl _) (by omega) (hc'.notMem hk) full hI
        have hr0 : rankOf (k :: t) i = 0 := rankOf_zero fun x hx => (hc.mem x hx).1
        rw [hr0, Nat.add_zero] at hv
        rw [hv]
        exact ih (by omega) (by omega) (by rw [show n - (i + 1) = n - i - 1 by omega]; exact hc'.miss hk) hI'
          (fun p a b c g hg => hf p (by omega) b c g hg)

theorem keeps_set {P : FillProc} {g : List (Option ℚ)} (hk : Keeps P.obs g) {p : Nat} (hm : p ∉ P.indices) (v : Option ℚ) :
    Keeps P.obs (g.set p v) := by
  intro a ha
  have : p ≠ a.1 := fun e => hm (e ▸ (List.of_mem_zip (b := a.2) ha).1)
  rw [List.getElem?_set_ne this]
  exact hk a ha

/-- a method that always answers with one value -/
theorem loop_one {P : FillProc} (h : P.Good) {f : Nat → Nat → List (Option ℚ) → Except FillStop Fill} {onErr : OnError}
    (Q : Nat → Option ℚ → Prop)
    (hf : ∀ p < P.allCount, p ∉ P.indices → ∀ g, Keeps P.obs g → g.length = P.allCount →
      ∃ v, f p (rankOf P.indices p) g = .ok (.one v) ∧ Q p v) :
    ∃ r, fillLoop f onErr P.values P.allCount P.allCount 0 0 P.indices (valuesToFill P.allCount P.indices P.values) = .ok r ∧
      ∀ p < P.allCount, p ∉ P.indices → ∃ v, r[p]? = some v ∧ Q p v := by
  obtain ⟨t1, t2, -⟩ := h.toFill
  obtain ⟨r, hr⟩ := fillLoop_total (f := f) (onErr := onErr) (values := P.values) (n := P.allCount)
    (fun g => Keeps P.obs g ∧ g.length = P.allCount) (fuel := P.allCount) (i := 0) (j := 0) (idx := P.indices)
    (full := valuesToFill P.allCount P.indices P.values) (by omega) (by omega) (by simpa using h.covers) ⟨t2, t1⟩ (by
      intro p _ hp hm g hg
      obtain ⟨v, hv, -⟩ := hf p hp hm g hg.1 hg.2
      exact ⟨v, by rw [Nat.zero_add]; exact hv, keeps_set hg.1 hm v, by rw [List.length_set]; exact hg.2⟩)
  refine ⟨r, hr, ?_⟩
  have hspec := fillLoop_spec (f := f) (onErr := onErr) (values := P.values) (n := P.allCount)
    (fun _ g => Keeps P.obs g) (fun p _ v => Q p v) (fuel := P.allCount) (i := 0) (j := 0) (idx := P.indices)
    (full := valuesToFill P.allCount P.indices P.values) (by omega) (by omega) (by simpa using h.covers) t1 t2 (fun _ _ _ hg => hg) (by
      intro p _ hp hm g hg hgl
      rw [Nat.zero_add]
      obtain ⟨v, hv, hq⟩ := hf p hp hm g hg hgl
      rw [hv]
      refine ⟨by simp, ?_, by simp, by simp⟩
      intro w hw
      cases hw
      exact ⟨keeps_set hg hm v, hq⟩)
  exact fun p hp hm => (hspec.2 r hr).2.2 p (by omega) hp hm

/-! ### the theorems -/

/-- the plain methods: no weights -/
def Plain (method : String) (a : FillArgs) : Prop :=
  method = "min" ∨ method = "max" ∨ method = "median" ∨ (method = "average" ∧ (a.weights = none ∨ a.weights = some none))

theorem reduceWith_plain {method : String} {a : FillArgs} (hm : Plain method a) :
    ∃ op ws, (∀ (spline : SplineOracle) (P : FillProc) (short : OnShort) (period i j : Nat) (full : List (Option ℚ)) (m : FillMethod),
        FillMethod.ofName method = some m →
        stepMethod spline P a short period m i j full = (basicFunc P a short period op ws i j full).map .one) ∧
      ∀ (bn fn : Nat) (b f : List ℚ), b ++ f ≠ [] → ∃ v, reduceWith op ws bn fn b f = .ok v ∧ Reduces method (b ++ f) v := by
  rcases hm with rfl | rfl | rfl | ⟨rfl, hw⟩
  · refine ⟨.min, none, ?_, fun bn fn b f hne =>
      ⟨npMin (b ++ f), by simp [reduceWith, hne], .inl ⟨rfl, npMin_mem hne, fun x hx => npMin_le hx⟩⟩⟩
    intro _ _ _ _ _ _ _ m e
    simp [FillMethod.ofName] at e
    subst e; rfl
  · refine ⟨.max, none, ?_, fun bn fn b f hne =>
      ⟨npMax (b ++ f), by simp [reduceWith, hne], .inr (.inl ⟨rfl, npMax_mem hne, fun x hx => le_npMax hx⟩)⟩⟩
    intro _ _ _ _ _ _ _ m e
    simp [FillMethod.ofName] at e
    subst e; rfl
  · refine ⟨.median, none, ?_, fun bn fn b f hne =>
      ⟨npMedian (b ++ f), by simp [reduceWith, hne], .inr (.inr (.inl ⟨rfl, hne, isMedian_npMedian hne⟩))⟩⟩
    intro _ _ _ _ _ _ _ m e
    simp [FillMethod.ofName] at e
    subst e; rfl
  · refine ⟨.average, none, ?_, fun bn fn b f hne =>
      ⟨npMean (b ++ f), by simp [reduceWith, hne], .inr (.inr (.inr ⟨rfl, hne, rfl⟩))⟩⟩
    intro _ _ _ _ _ _ _ m e
    simp [FillMethod.ofName] at e
    subst e
    rcases hw with hw | hw <;> simp only [stepMethod, hw] <;> rfl

/-- **C92**. Without filled values as input and with 'try_best' (both the defaults), the methods min, max, median and average always
return. A missing position gets the minimum, maximum, median or mean of the `backward_n` nearest observations before it and the
`forward_n` nearest after it that are a multiple of the period away; it stays empty if there is none. -/
theorem C92_values {spline : SplineOracle} {idx : List Int} {vs : List ℚ} {P : FillProc} (hne : idx ≠ [])
    (hP : FillProc.init idx vs = .ok P) {method : String} {a : FillArgs} (hm : Plain method a) {onErr : OnError} (he : a.onError = .ok onErr)
    (hs : a.ifShort = none ∨ a.ifShort = some "try_best") (hlev : a.leverage = false) {period T bn : Nat} (hper : a.periodOf = .ok period)
    (hph : Phase a T) (hbn : a.backwardN = some bn) (h0 : 0 < bn + a.forwardN.getD 0) :
    ∃ r, P.fillUp spline method a = .ok r ∧ ∀ l tags, r = some (l, tags) → Gapped (observations idx vs) l.length ∧
      ∀ p < l.length, Missing (observations idx vs) p →
      (nearby (inPhase (observations idx vs) p T) p bn (a.forwardN.getD 0) = [] ∧ l[p]? = some none) ∨
      ∃ v, l[p]? = some (some v) ∧ Reduces method (nearby (inPhase (observations idx vs) p T) p bn (a.forwardN.getD 0)) v := by
  obtain ⟨hg, -, -⟩ := FillProc.init_good hne hP
  rw [← obs_eq hne hP]
  have hshort : a.onShort = .ok .tryBest := by
    unfold FillArgs.onShort
    rcases hs with hs | hs <;> rw [hs] <;> rfl
  unfold FillProc.fillUp
  rw [he, hshort, hper]
  by_cases hn : P.need = false
  · rw [if_pos hn]
    exact ⟨none, rfl, by simp⟩
  rw [if_neg hn]
  have hn : P.need = true := by simpa using hn
  simp only
  obtain ⟨m, hmm, hloop⟩ : ∃ m, FillMethod.ofName method = some m ∧ fillWith spline P m a onErr .tryBest period =
      fillLoop (stepMethod spline P a .tryBest period m) onErr P.values P.allCount P.allCount 0 0 P.indices
        (valuesToFill P.allCount P.indices P.values) := by
    rcases hm with rfl | rfl | rfl | ⟨rfl, -⟩
    · exact ⟨.min, rfl, rfl⟩
    · exact ⟨.max, rfl, rfl⟩
    · exact ⟨.median, rfl, rfl⟩
    · exact ⟨.average, rfl, rfl⟩
  rw [hmm]
  simp only
  rw [hloop]
  obtain ⟨r, hr, hq⟩ := loop_one hg (f := stepMethod spline P a .tryBest period m) (onErr := onErr)
    (fun p o => (nearby (inPhase P.obs p T) p bn (a.forwardN.getD 0) = [] ∧ o = none) ∨
      ∃ v, o = some v ∧ Reduces method (nearby (inPhase P.obs p T) p bn (a.forwardN.getD 0)) v) (by
    intro p hp hpm g hk hgl
    by_cases hnr : nearby (inPhase P.obs p T) p bn (a.forwardN.getD 0) = []
    · obtain ⟨op, ws, h1, hred⟩ := reduceWith_plain hm
      refine ⟨none, ?_, .inl ⟨hnr, rfl⟩⟩
      rw [h1 _ _ _ _ _ _ _ _ hmm, basicFunc_best hg hn hk hgl hper hph hlev hbn h0 hp hpm, if_pos hnr]
      rfl
    · obtain ⟨op, ws, h1, hred⟩ := reduceWith_plain hm
      obtain ⟨v, h2, h3⟩ := hred bn (a.forwardN.getD 0) _ _ hnr
      refine ⟨some v, ?_, .inr ⟨v, rfl, h3⟩⟩
      rw [h1 _ _ _ _ _ _ _ _ hmm, basicFunc_best hg hn hk hgl hper hph hlev hbn h0 hp hpm, if_neg hnr, h2]
      rfl)
  rw [hr]
  refine ⟨_, rfl, ?_⟩
  intro l tags e
  cases e
  have hlen : r.length = P.allCount := by
    have := (fillLoop_spec (f := stepMethod spline P a .tryBest period m) (onErr := onErr) (values := P.values) (n := P.allCount)
      (fun _ _ => True) (fun _ _ _ => True) (fuel := P.allCount) (i := 0) (j := 0) (idx := P.indices)
      (full := valuesToFill P.allCount P.indices P.values) (by omega) (by omega) (by simpa using hg.covers) hg.toFill.1 trivial
      (by simp) (by
        intro p _ hp hpm g _ _
        refine ⟨stepMethod_no_hang, by simp, ?_, by simp⟩
        intro l hl
        exfalso
        rcases hm with rfl | rfl | rfl | ⟨rfl, -⟩ <;> simp [FillMethod.ofName] at hmm <;> subst hmm <;>
          simp [stepMethod, except_map_ok] at hl)).2 r hr
    exact this.1
  refine ⟨hlen ▸ hg.gapped, fun p hp hpm => ?_⟩
  obtain ⟨o, ho, hq⟩ := hq p (by omega) ((hg.missing_iff p).1 hpm)
  rcases hq with ⟨q1, rfl⟩ | ⟨v, rfl, q⟩
  · exact .inl ⟨q1, ho⟩
  · exact .inr ⟨v, ho, q⟩

theorem inPhase_nearby_one {obs : List (Nat × ℚ)} {n p bn fn : Nat} (hg : Gapped obs n) (hp : p < n) (hm : Missing obs p) (h0 : 0 < bn + fn) :
    nearby (inPhase obs p 1) p bn fn ≠ [] := by
  rw [inPhase_one]
  obtain ⟨a, ha1, ha2, -⟩ := exists_lastBefore hg hm
  obtain ⟨b, hb1, hb2, -⟩ := exists_firstAfter hg hp hm
  have h1 : a.2 ∈ before obs p := List.mem_map.2 ⟨a, List.mem_filter.2 ⟨ha1, by simpa using ha2⟩, rfl⟩
  have h2 : b.2 ∈ after obs p := List.mem_map.2 ⟨b, List.mem_filter.2 ⟨hb1, by simpa using hb2⟩, rfl⟩
  have h1 := List.length_pos_of_mem h1
  have h2 := List.length_pos_of_mem h2
  intro e
  have e := congrArg List.length e
  unfold nearby lastN at e
  simp only [List.length_append, List.length_drop, List.length_take, List.length_nil] at e
  omega

/-- **C92** (nothing stays empty). If the period is not considered, every missing position gets a value. -/
theorem C92_filled {spline : SplineOracle} {idx : List Int} {vs : List ℚ} {P : FillProc} (hne : idx ≠ [])
    (hP : FillProc.init idx vs = .ok P) {method : String} {a : FillArgs} (hm : Plain method a) {onErr : OnError} (he : a.onError = .ok onErr)
    (hs : a.ifShort = none ∨ a.ifShort = some "try_best") (hlev : a.leverage = false) {period bn : Nat} (hper : a.periodOf = .ok period)
    (hcp : a.considerPeriod = false) (hbn : a.backwardN = some bn) (h0 : 0 < bn + a.forwardN.getD 0) {l : List (Option ℚ)} {tags : List Bool}
    (hr : P.fillUp spline method a = .ok (some (l, tags))) {p : Nat} (hp : p < l.length) (hpm : Missing (observations idx vs) p) :
    ∃ v, l[p]? = some (some v) ∧ Reduces method (nearby (observations idx vs) p bn (a.forwardN.getD 0)) v := by
  obtain ⟨r, h1, h2⟩ := C92_values (spline := spline) hne hP hm he hs hlev hper (.inr ⟨hcp, rfl⟩) hbn h0
  rw [hr] at h1
  cases h1
  obtain ⟨hg, h3⟩ := h2 l tags rfl
  rcases h3 p hp hpm with ⟨h3, -⟩ | h3
  · exact absurd h3 (inPhase_nearby_one hg hp hpm h0)
  · rwa [inPhase_one] at h3

/-! ### weighted averages -/

theorem zipWith_dot (x y : List ℚ) : (List.zipWith (· * ·) x y).sum = dot x y := by
  induction x generalizing y with
  | nil => simp [dot]
  | cons a t ih =>
    cases y with
    | nil => simp [dot]
    | cons b u => simp [dot, ih]

theorem dot_append {x y z w : List ℚ} (h : x.length = y.length) : dot (x ++ z) (y ++ w) = dot x y + dot z w := by
  induction x generalizing y with
  | nil =>
    have : y = [] := List.length_eq_zero_iff.1 h.symm
    subst this
    simp [dot]
  | cons a t ih =>
    cases y with
    | nil => simp at h
    | cons b u =>
      simp only [List.cons_append, dot]
      rw [ih (by simpa using h)]
      ring

theorem covered {w : List ℚ} {bn fn b f : Nat} (hw : w.length = bn + fn) (hb : b ≤ bn) :
    (w.drop (bn - b)).take (b + f) = weightsBefore w bn b ++ weightsAfter w bn f ∧ (weightsBefore w bn b).length = b := by
  unfold weightsBefore weightsAfter lastN
  have h1 : (w.take bn).length = bn := by rw [List.length_take]; omega
  rw [h1]
  refine ⟨?_, by rw [List.length_drop, h1]; omega⟩
  conv_lhs => rw [← List.take_append_drop bn w]
  rw [List.drop_append, h1, show bn - b - bn = 0 by omega, List.drop_zero, List.take_append]
  rw [List.length_drop, h1, List.take_of_length_le (by rw [List.length_drop, h1]; omega)]
  congr 2
  omega

theorem reduceWith_weighted {w : List ℚ} {bn fn : Nat} {b f : List ℚ} (hb : b.length ≤ bn) {v : ℚ}
    (h : reduceWith .average (some w) bn fn b f = .ok v) : w.length = bn + fn ∧ WeightedBy w bn b f v := by
  unfold reduceWith at h
  simp only at h
  split at h
  · cases h
  · rename_i hw
    have hw : w.length = bn + fn := by simpa using hw
    obtain ⟨e1, e2⟩ := covered (f := f.length) hw hb
    split at h
    · cases h
    · rename_i hs
      cases h
      rw [e1, List.sum_append] at hs
      refine ⟨hw, hs, ?_⟩
      rw [e1]
      unfold weightedAverage
      rw [zipWith_dot, dot_append e2.symm, List.sum_append]

/-- the methods that use weights -/
def Weighted (method : String) : Prop := method = "weighted_avg" ∨ method = "average"

theorem stepMethod_weighted {method : String} (hm : Weighted method) {a : FillArgs} {w : List ℚ} (hw : a.weights = some (some w)) :
    ∃ m, FillMethod.ofName method = some m ∧
      (∀ spline P onErr short period, fillWith spline P m a onErr short period =
        fillLoop (stepMethod spline P a short period m) onErr P.values P.allCount P.allCount 0 0 P.indices
          (valuesToFill P.allCount P.indices P.values)) ∧
      m ≠ .splineSeg ∧
      ∀ spline P short period i j full, stepMethod spline P a short period m i j full =
        (basicFunc P a short period .average (some w) i j full).map .one := by
  rcases hm with rfl | rfl
  · exact ⟨.weightedAvg, rfl, fun _ _ _ _ _ => rfl, by simp, fun _ _ _ _ _ _ _ => by simp [stepMethod, hw]⟩
  · exact ⟨.average, rfl, fun _ _ _ _ _ => rfl, by simp, fun _ _ _ _ _ _ _ => by simp [stepMethod, hw]⟩

theorem onShort_best {a : FillArgs} (hs : a.ifShort = none ∨ a.ifShort = some "try_best") : a.onShort = .ok .tryBest := by
  unfold FillArgs.onShort
  rcases hs with hs | hs <;> rw [hs] <;> rfl

theorem lastN_length (n : Nat) (l : List ℚ) : (lastN n l).length ≤ n := by
  unfold lastN
  rw [List.length_drop]
  omega

/-- **C93**. Weighted averages over the nearest observations: the weights before and after the gap are those next to the boundary between
the two sides; missing neighbours shift no weight across it. -/
theorem C93_weighted {spline : SplineOracle} (hsp : SplineLaws spline) {idx : List Int} {vs : List ℚ} {P : FillProc} (hne : idx ≠ [])
    (hP : FillProc.init idx vs = .ok P) {method : String} {a : FillArgs} (hm : Weighted method) {w : List ℚ} (hw : a.weights = some (some w))
    (he : a.ifException = none ∨ a.ifException = some "raise")
    (hs : a.ifShort = none ∨ a.ifShort = some "try_best") (hlev : a.leverage = false) {T bn : Nat}
    (hph : Phase a T) (hbn : a.backwardN = some bn) (h0 : 0 < bn + a.forwardN.getD 0) {l : List (Option ℚ)} {tags : List Bool}
    (hr : P.fillUp spline method a = .ok (some (l, tags))) {p : Nat} (hp : p < l.length) (hpm : Missing (observations idx vs) p) :
    (nearby (inPhase (observations idx vs) p T) p bn (a.forwardN.getD 0) = [] ∧ l[p]? = some none) ∨
    ∃ v, l[p]? = some (some v) ∧ w.length = bn + a.forwardN.getD 0 ∧
      WeightedBy w bn (lastN bn (before (inPhase (observations idx vs) p T) p))
        ((after (inPhase (observations idx vs) p T) p).take (a.forwardN.getD 0)) v := by
  obtain ⟨hg, -, -⟩ := FillProc.init_good hne hP
  rw [← obs_eq hne hP] at hpm ⊢
  obtain ⟨hn, -, onErr, short, period, m, e1, e2, e3, e4, hl⟩ := fillUp_ok hr
  rw [onShort_best hs] at e2
  cases e2
  obtain ⟨m', f1, f2, f3, f4⟩ := stepMethod_weighted hm hw
  rw [f1] at e4
  cases e4
  have hraise : onErr = .raise := by
    unfold FillArgs.onError at e1
    rcases he with he | he <;> rw [he] at e1 <;> cases e1 <;> rfl
  subst hraise
  rw [f2] at hl
  have key := (step_fill hsp hg hn (m := m) (a := a) (onErr := .raise) (short := .tryBest) (period := period) (.inl f3) (Keeps P.obs)
    (fun p _ o => (nearby (inPhase P.obs p T) p bn (a.forwardN.getD 0) = [] ∧ o = none) ∨
      ∃ v, o = some v ∧ w.length = bn + a.forwardN.getD 0 ∧ WeightedBy w bn (lastN bn (before (inPhase P.obs p T) p))
        ((after (inPhase P.obs p T) p).take (a.forwardN.getD 0)) v) hg.toFill.2.1
    (by
      intro p hp hpm g hk hgl v hv
      refine ⟨keeps_set hk hpm v, ?_⟩
      rw [f4, except_map_ok] at hv
      obtain ⟨o, ho, e⟩ := hv
      cases e
      rw [basicFunc_best hg hn hk hgl e3 hph hlev hbn h0 hp hpm] at ho
      split at ho
      · cases ho
        exact .inl ⟨by assumption, rfl⟩
      · obtain ⟨x, hx, rfl⟩ := except_map_ok.1 ho
        exact .inr ⟨x, rfl, reduceWith_weighted (lastN_length _ _) hx⟩)
    (by
      intro p hp hpm _ g _ _ l hl
      rw [f4, except_map_ok] at hl
      obtain ⟨o, -, e⟩ := hl
      cases e)
    (by simp) (by simp)).2 l hl
  obtain ⟨k1, -, k3⟩ := key
  obtain ⟨o, ho, hq⟩ := k3 p (by omega) ((hg.missing_iff p).1 hpm)
  rcases hq with ⟨q1, rfl⟩ | ⟨v, rfl, q⟩
  · exact .inl ⟨q1, ho⟩
  · exact .inr ⟨v, ho, q⟩

theorem lastN_mem {α : Type} {n : Nat} {l : List α} {x : α} (h : x ∈ lastN n l) : x ∈ l := List.mem_of_mem_drop h

/-- **C93** (it returns). With positive weights of the right number no call fails. -/
theorem C93_returns {spline : SplineOracle} {idx : List Int} {vs : List ℚ} {P : FillProc} (hne : idx ≠ [])
    (hP : FillProc.init idx vs = .ok P) {method : String} {a : FillArgs} (hm : Weighted method) {w : List ℚ} (hw : a.weights = some (some w))
    (hpos : ∀ x ∈ w, 0 < x) {onErr : OnError} (he : a.onError = .ok onErr)
    (hs : a.ifShort = none ∨ a.ifShort = some "try_best") (hlev : a.leverage = false) {period bn : Nat} (hper : a.periodOf = .ok period)
    (hbn : a.backwardN = some bn) (hwl : w.length = bn + a.forwardN.getD 0) (h0 : 0 < bn + a.forwardN.getD 0) :
    ∃ r, P.fillUp spline method a = .ok r := by
  obtain ⟨hg, -, -⟩ := FillProc.init_good hne hP
  obtain ⟨T, hph⟩ : ∃ T, Phase a T := by
    cases h : a.considerPeriod
    · exact ⟨1, .inr ⟨h, rfl⟩⟩
    · exact ⟨period, .inl ⟨h, hper⟩⟩
  obtain ⟨m, f1, f2, f3, f4⟩ := stepMethod_weighted hm hw
  unfold FillProc.fillUp
  rw [he, onShort_best hs, hper]
  by_cases hn : P.need = false
  · rw [if_pos hn]
    exact ⟨none, rfl⟩
  rw [if_neg hn]
  have hn : P.need = true := by simpa using hn
  simp only
  rw [f1]
  simp only
  rw [f2]
  obtain ⟨r, hr, -⟩ := loop_one hg (f := stepMethod spline P a .tryBest period m) (onErr := onErr) (fun _ _ => True) (by
    intro p hp hpm g hk hgl
    rw [f4, basicFunc_best hg hn hk hgl hper hph hlev hbn h0 hp hpm]
    split
    · exact ⟨none, rfl, trivial⟩
    · rename_i hnr
      unfold reduceWith
      simp only
      rw [if_neg (by simpa using hwl)]
      rw [if_neg]
      · exact ⟨_, rfl, trivial⟩
      · refine ne_of_gt (List.sum_pos _ (fun x hx => hpos x (List.mem_of_mem_drop (List.mem_of_mem_take hx))) ?_)
        rw [← List.length_pos_iff, List.length_take, List.length_drop]
        have n1 := List.length_pos_iff.2 hnr
        have n2 := lastN_length bn (before (inPhase P.obs p T) p)
        have n3 := List.length_take_le (a.forwardN.getD 0) (after (inPhase P.obs p T) p)
        unfold nearby at n1
        rw [List.length_append] at n1
        omega)
  rw [hr]
  exact ⟨_, rfl⟩

/-! ### non-vacuity -/

example : demoCall "median" { backwardN := some 2, forwardN := some 1 } = some ([some 1, some 2, some 3, some 3, some 3, some 9, some 3, some 2, some 2, some 2, some 1, some 2]) := by decide +kernel
example : demoCall "max" { backwardN := some 1, forwardN := some 1, considerPeriod := true, period := some (.int 5) } = some ([some 1, some 2, some 3, none, none, some 9, some 3, some 2, none, none, some 1, some 2]) := by decide +kernel
example : demoCall "max" { backwardN := some 1, forwardN := some 1, considerPeriod := true, period := some (.int 2) } = some ([some 1, some 2, some 3, some 9, some 3, some 9, some 3, some 2, some 3, some 2, some 1, some 2]) := by decide +kernel
example : demoCall "weighted_avg" { backwardN := some 2, forwardN := some 1, weights := some (some [1, 2, 3]) } = some ([some 1, some 2, some 3, some (35/6), some (35/6), some 9, some 3, some 2, some (5/3), some (5/3), some 1, some 2]) := by decide +kernel
example : Phase { backwardN := some 1, forwardN := some 1, considerPeriod := true, period := some (.int 2) } 2 := .inl ⟨rfl, rfl⟩

end Verif
