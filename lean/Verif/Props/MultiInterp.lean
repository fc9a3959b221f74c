import Verif.Props.MultiPredict

/-!
# Interpretation of multivariate results

C54, C55, C56.
-/

namespace Verif

open Multi Spec

/-! ### attention -/

theorem sum_map_div {α : Type} (g : α → ℚ) (s : ℚ) (l : List α) : (l.map fun x => g x / s).sum = (l.map g).sum / s := by
  induction l with
  | nil => simp
  | cons a t ih => simp only [List.map_cons, List.sum_cons, ih]; ring

theorem softmax_sum {N : NumEnv} (hN : N.WF) {l : List ℚ} (hl : l ≠ []) :
    (∀ x ∈ softmax N l, 0 ≤ x ∧ x ≤ 1) ∧ (softmax N l).sum = 1 := by
  have hpos : 1 ≤ (l.map fun x => N.exp (x - npMax l)).sum := by
    have h1 : N.exp (npMax l - npMax l) ≤ (l.map fun x => N.exp (x - npMax l)).sum := by
      apply List.single_le_sum
      · intro y hy
        obtain ⟨x, -, rfl⟩ := List.mem_map.1 hy
        exact hN.exp_nonneg _
      · exact List.mem_map.2 ⟨_, npMax_mem hl, rfl⟩
    rwa [sub_self, hN.exp_zero] at h1
  unfold softmax
  dsimp only
  have hsum : (l.map fun x => N.exp (x - npMax l) / (l.map fun x => N.exp (x - npMax l)).sum).sum = 1 := by
    rw [sum_map_div (fun x => N.exp (x - npMax l))]
    exact div_self (by linarith)
  refine ⟨?_, hsum⟩
  intro y hy
  obtain ⟨x, hx, rfl⟩ := List.mem_map.1 hy
  refine ⟨div_nonneg (hN.exp_nonneg _) (by linarith), (div_le_one (by linarith)).2 ?_⟩
  apply List.single_le_sum
  · intro z hz
    obtain ⟨x', -, rfl⟩ := List.mem_map.1 hz
    exact hN.exp_nonneg _
  · exact List.mem_map.2 ⟨x, hx, rfl⟩

theorem leaky_eq (x : ℚ) : leaky x = max x (x / 5) := by
  unfold leaky
  split
  · rw [max_eq_left]; linarith
  · rw [max_eq_right]; linarith

theorem attnOf_spec (N : NumEnv) (m : Config) (W : Net) (x : List (List ℚ)) :
    (sampleOut N m W x).attn = (List.range m.dataDim).map fun i => softmax N ((List.range m.dataDim).map fun j =>
      leaky (dot (adaptiveMax m.gatWindow (movingAvg m.kernel (series x i))) W.featKey +
        dot (adaptiveMax m.gatWindow (movingAvg m.kernel (series x j))) W.featQuery)) := by
  show attnOf N W.featKey W.featQuery (featOf m x) = _
  unfold attnOf featOf transpose series
  simp only [List.map_map, Function.comp_def]

/-- **C56** (attention). For a network there are two functions `K` and `Q` of one series such that in every batch, for every sample
and all variables `i` and `j`, entry `(i, j)` of the attention map is the softmax over `j` of the leaky ReLU of the key of the series of `i`
plus the query of the series of `j`. -/
theorem C56_attention {N : NumEnv} (hN : N.WF) (m : Config) (hd : 0 < m.dataDim) (hg : 0 < m.gatWindow) (W : Net) :
    ∃ K Q : List ℚ → ℚ, ∀ x o, forward N m W x = .ok o → ∀ (b : Nat) (s : List (List ℚ)) (out : NetOut), x[b]? = some s → o[b]? = some out →
      out.attn.length = m.dataDim ∧
      ∀ (i : Nat) (row : List ℚ), out.attn[i]? = some row → row.length = m.dataDim ∧ (∀ y ∈ row, 0 ≤ y ∧ y ≤ 1) ∧ row.sum = 1 ∧
        ∃ logit : Nat → ℚ, ∃ M, (∀ j, logit j = max (K (series s i) + Q (series s j)) ((K (series s i) + Q (series s j)) / 5)) ∧
          (∀ j < m.dataDim, logit j ≤ M) ∧ (∃ j < m.dataDim, logit j = M) ∧
          ∀ j < m.dataDim, row[j]? = some (N.exp (logit j - M) / ((List.range m.dataDim).map fun j => N.exp (logit j - M)).sum) := by
  refine ⟨fun l => dot (adaptiveMax m.gatWindow (movingAvg m.kernel l)) W.featKey,
    fun l => dot (adaptiveMax m.gatWindow (movingAvg m.kernel l)) W.featQuery, ?_⟩
  intro x o h b s out hs ho
  obtain ⟨-, rfl⟩ := (forward_ok_iff hd hg).1 h
  rw [List.getElem?_map, hs] at ho
  cases ho
  rw [attnOf_spec N m W s]
  refine ⟨by simp, ?_⟩
  intro i row hrow
  rw [List.getElem?_map] at hrow
  have hi : i < m.dataDim := by
    by_contra hc
    rw [List.getElem?_eq_none (by simpa using hc)] at hrow
    cases hrow
  rw [List.getElem?_range hi] at hrow
  simp only [Option.map_some, Option.some.injEq] at hrow
  set logit : Nat → ℚ := fun j => leaky (dot (adaptiveMax m.gatWindow (movingAvg m.kernel (series s i))) W.featKey +
        dot (adaptiveMax m.gatWindow (movingAvg m.kernel (series s j))) W.featQuery) with hlog
  have hne : (List.range m.dataDim).map logit ≠ [] := by
    intro he
    have := congrArg List.length he
    simp at this
    omega
  obtain ⟨h1, h2⟩ := softmax_sum hN hne
  rw [hrow] at h1 h2
  refine ⟨by rw [← hrow]; simp [softmax], h1, h2, logit, npMax ((List.range m.dataDim).map logit), ?_, ?_, ?_, ?_⟩
  · intro j; rw [hlog]; exact leaky_eq _
  · intro j hj
    exact le_npMax (List.mem_map.2 ⟨j, List.mem_range.2 hj, rfl⟩)
  · obtain ⟨j, hj, e⟩ := List.mem_map.1 (npMax_mem hne)
    exact ⟨j, List.mem_range.1 hj, e⟩
  · intro j hj
    rw [← hrow]
    unfold softmax
    simp only [List.map_map, List.getElem?_map, List.getElem?_range hj, Option.map_some]
    rfl

theorem matrix_range {A : List (List ℚ)} (h : ∀ row ∈ A, ∀ y ∈ row, 0 ≤ y ∧ y ≤ 1) (i j : Nat) :
    0 ≤ (A.getD i []).getD j 0 ∧ (A.getD i []).getD j 0 ≤ 1 := by
  by_cases hj : j < (A.getD i []).length
  · rw [List.getD_eq_getElem _ _ hj]
    have hi : i < A.length := by
      by_contra hc
      rw [List.getD_eq_default _ _ (by omega)] at hj
      simp at hj
    refine h (A.getD i []) ?_ _ (List.getElem_mem hj)
    rw [List.getD_eq_getElem _ _ hi]
    exact List.getElem_mem hi
  · rw [List.getD_eq_default _ _ (by omega)]
    norm_num

section
variable {TS : Type} {E : MEnv TS} {data : MData} {w w' : World} {items : List Multi.Item} {f : Frame} {t : Table} {S : Scorer}
  {tw : Nat} {th : ℚ}

theorem attention_entry (hE : E.WF) (hw : Reachable E w) (h : Multi.predict E data w = (w', .ok items))
    (hp : Predicted E w w' data f t S tw th) (rows : List (List ℚ)) (r i j : Nat) :
    0 ≤ ((S.attention (S.window rows r)).getD i []).getD j 0 ∧ ((S.attention (S.window rows r)).getD i []).getD j 0 ≤ 1 := by
  have hg := good_after hE hw h
  obtain ⟨f', t', c, base, m, N, pct, th', hdata, -, hfill, hL, hth, hk, hA⟩ := Multi.predict_ok hE (hw.good hE) h
  have hm := (hg.model _ hL.model).1
  obtain ⟨he, ⟨c', hc', hin, htw, hb⟩, hwt, hth', m', N', hm', hdim, hnet⟩ := hp.trained
  rw [hL.model] at hm'; cases hm'
  rw [hL.config] at hc'; cases hc'
  have hfit : Fits m (S.window rows r) := by
    unfold Scorer.window
    refine ⟨by simpa [hin] using hk, ?_⟩
    intro x hx
    obtain ⟨a, -, rfl⟩ := List.mem_map.1 hx
    simp [hdim]
  have ho := (forward_single (E := E.toNumEnv) (N := N) hm.dim hm.gat).2 ⟨hfit, rfl⟩
  rw [(hnet _ _ ho).2, attnOf_spec E.toNumEnv m N _]
  apply matrix_range
  intro row hrow y hy
  obtain ⟨a, -, rfl⟩ := List.mem_map.1 hrow
  refine (softmax_sum hE.num ?_).1 y hy
  intro he
  have := congrArg List.length he
  simp at this
  have hd : 0 < m.dataDim := hm.dim
  omega

/-! ### interpretation -/

theorem listed_of {S : Scorer} (hN : S.E.WF) {names : List String} {rows : List (List ℚ)} {r v : Nat}
    (hv : v < S.dim) {c : Contribution}
    (h : packVar S.E names ((List.range S.dim).map fun v => npDiv (S.contribution rows r v)
        ((List.range S.dim).map (S.contribution rows r)).sum)
      ((List.range S.dim).map fun i => (List.range S.dim).map fun j => S.attnShift tw rows r i j) v = .ok c) :
    Listed S tw names rows r v c := by
  unfold packVar at h
  dsimp only at h
  rw [List.getD_eq_getElem _ _ (by simpa using hv)] at h
  simp only [List.getElem_map, List.getElem_range, List.map_map, Function.comp_def] at h
  set sh := fun j => S.attnShift tw rows r v j with hsh
  obtain ⟨vars, h1, h⟩ := ebind_ok.1 h
  obtain ⟨name, h2, h⟩ := ebind_ok.1 h
  rw [epure_ok] at h
  subst h
  set order := S.E.argsortDesc ((List.range S.dim).map fun j => PyFloat.fin |sh j|) with horder
  have hperm : order.Perm (List.range S.dim) := by
    have := hN.argsort_perm ((List.range S.dim).map fun j => PyFloat.fin |sh j|)
    simpa using this
  have hsort : (order.map fun j => |sh j|).Pairwise (· ≥ ·) := by
    have := hN.argsort_sorted ((List.range S.dim).map fun j => |sh j|)
    rw [List.map_map] at this
    have e : (order.map fun j => |sh j|) = order.map fun i => ((List.range S.dim).map fun j => |sh j|).getD i 0 := by
      apply List.map_congr_left
      intro j hj
      have hj' := List.mem_range.1 (hperm.mem_iff.1 hj)
      rw [List.getD_eq_getElem _ _ (by simpa using hj')]
      simp
    rw [e]
    exact this
  have hget : ∀ j < S.dim, ((List.range S.dim).map fun j => sh j).getD j 0 = sh j := by
    intro j hj
    rw [List.getD_eq_getElem _ _ (by simpa using hj)]
    simp
  have hmem : ∀ j ∈ order.take 10, j < S.dim := fun j hj =>
    List.mem_range.1 (hperm.mem_iff.1 (List.mem_of_mem_take hj))
  have hcut : cutoff names.length = reportCutoff names.length := by
    unfold cutoff reportCutoff; rw [show (125 : ℚ) / 100 = 5 / 4 by norm_num]
  set sel := (order.take 10).filter fun j => decide (cutoff names.length < |((List.range S.dim).map fun j => sh j).getD j 0|)
    with hsel
  have hsel_mem : ∀ j, j ∈ sel ↔ j ∈ order.take 10 ∧ reportCutoff names.length < |sh j| := by
    intro j
    rw [hsel, List.mem_filter, decide_eq_true_eq, hcut]
    constructor
    · rintro ⟨h3, h4⟩; rw [hget j (hmem j h3)] at h4; exact ⟨h3, h4⟩
    · rintro ⟨h3, h4⟩; rw [hget j (hmem j h3)]; exact ⟨h3, h4⟩
  have hsub : sel.Sublist order := List.filter_sublist.trans (List.take_sublist _ _)
  have hnd : order.Nodup := hperm.nodup_iff.2 List.nodup_range
  refine ⟨?_, ?_, sel, hnd.sublist hsub, fun j hj => hmem j ((hsel_mem j).1 hj).1, ?_, ?_, ?_, ?_, ?_, ?_⟩
  · unfold varName at h2
    split at h2
    · rename_i s hs; cases h2; exact hs
    · cases h2
  · show ((List.range S.dim).map _).getD v PyFloat.nan = _
    rw [List.getD_eq_getElem _ _ (by simpa using hv)]
    simp
  · exact (List.length_filter_le _ _).trans (by simp)
  · apply List.map_congr_left
    intro j hj
    exact hget j (hmem j ((hsel_mem j).1 hj).1)
  · have h3 := mapM_ok_length h1
    apply List.ext_getElem
    · simp [h3]
    · intro a h4 h5
      have h6 := mapM_ok_get h1 (i := a) (by simpa using h4)
      simp only [List.getElem_map]
      unfold varName at h6
      split at h6
      · rename_i s hs
        simp only [Except.ok.injEq] at h6
        rw [hs, h6]
      · cases h6
  · exact hsort.sublist (hsub.map _)
  · intro j hj; exact ((hsel_mem j).1 hj).2
  · intro j hj hns
    by_cases hc : reportCutoff names.length < |sh j|
    · right
      have hnt : j ∉ order.take 10 := fun hh => hns ((hsel_mem j).2 ⟨hh, hc⟩)
      have hin : j ∈ order := hperm.mem_iff.2 (List.mem_range.2 hj)
      have hdrop : j ∈ order.drop 10 := by
        rw [← List.take_append_drop 10 order, List.mem_append] at hin
        exact hin.resolve_left hnt
      have hge : ∀ i ∈ order.take 10, |sh j| ≤ |sh i| := by
        intro i hi
        rw [← List.take_append_drop 10 order, List.map_append, List.pairwise_append] at hsort
        exact hsort.2.2 _ (List.mem_map.2 ⟨i, hi, rfl⟩) _ (List.mem_map.2 ⟨j, hdrop, rfl⟩)
      have hall : sel = order.take 10 := by
        rw [hsel, List.filter_eq_self]
        intro i hi
        rw [decide_eq_true_eq, hcut, hget i (hmem i hi)]
        exact lt_of_lt_of_le hc (hge i hi)
      refine ⟨?_, fun i hi => hge i (hall ▸ hi)⟩
      rw [hall, List.length_take]
      have := List.length_pos_of_mem hdrop
      rw [List.length_drop] at this
      omega
    · exact .inl (not_lt.1 hc)

theorem forall_listed {S : Scorer} (hN : S.E.WF) {names : List String} {rows : List (List ℚ)} {r : Nat} {p : List Nat}
    (hperm : p.Perm (List.range S.dim)) {l : List Contribution}
    (h : p.mapM (packVar S.E names ((List.range S.dim).map fun v => npDiv (S.contribution rows r v)
        ((List.range S.dim).map (S.contribution rows r)).sum)
      ((List.range S.dim).map fun i => (List.range S.dim).map fun j => S.attnShift tw rows r i j)) = .ok l) :
    List.Forall₂ (Listed S tw names rows r) p l := by
  rw [List.forall₂_iff_get]
  refine ⟨(mapM_ok_length h).symm, ?_⟩
  intro a h1 h2
  have h3 := mapM_ok_get h h1
  exact listed_of hN (List.mem_range.1 (hperm.mem_iff.1 (List.getElem_mem h1))) h3

theorem interpretation_listed (hE : E.WF) (hw : Reachable E w) (h : Multi.predict E data w = (w', .ok items))
    (hp : Predicted E w w' data f t S tw th) (k : Nat) (hk : k < items.length) :
    ∃ p : List Nat, p = S.E.argsortDesc ((List.range S.dim).map fun v =>
        npDiv (S.contribution t.rows (f.index.length - items.length + k) v)
          ((List.range S.dim).map (S.contribution t.rows (f.index.length - items.length + k))).sum) ∧
      p.Perm (List.range S.dim) ∧
      List.Forall₂ (Listed S tw t.names t.rows (f.index.length - items.length + k)) p items[k].interpretation := by
  have hA := answer hE hw h hp
  have hc := C49_count hE hw h hp
  have htw := hA.tw_pos
  have hN : S.E.WF := by rw [hp.trained.env]; exact hE.num
  have hit := (hA.item k hk).interpretation
  have hr : S.input + (tw - 1) + k = f.index.length - items.length + k := by omega
  have hsh : ∀ i j, ((S.attention (S.window t.rows (f.index.length - items.length + k))).getD i []).getD j 0 -
      ((List.range tw).map fun a => ((S.attention (S.window t.rows (S.input + k + a))).getD i []).getD j 0).sum / tw =
      S.attnShift tw t.rows (f.index.length - items.length + k) i j := by
    intro i j
    unfold Scorer.attnShift
    rw [show f.index.length - items.length + k - (tw - 1) = S.input + k by omega]
  simp only [hr] at hit
  simp only [hsh] at hit
  have hperm := hN.argsort_perm ((List.range S.dim).map fun v =>
        npDiv (S.contribution t.rows (f.index.length - items.length + k) v)
          ((List.range S.dim).map (S.contribution t.rows (f.index.length - items.length + k))).sum)
  simp only [List.length_map, List.length_range] at hperm
  exact ⟨_, rfl, hperm, forall_listed hN hperm hit⟩

/-- **C54** (every variable once). The interpretation of a result lists, in some order `p` of the variables, each variable of the table
exactly once, with its own share of the score. -/
theorem C54_variables (hE : E.WF) (hw : Reachable E w) (h : Multi.predict E data w = (w', .ok items))
    (hp : Predicted E w w' data f t S tw th) (k : Nat) (hk : k < items.length) :
    (∃ p : List Nat, p.Perm (List.range S.dim) ∧
      List.Forall₂ (Listed S tw t.names t.rows (f.index.length - items.length + k)) p items[k].interpretation) ∧
    (items[k].interpretation.map (·.name)).Perm t.names := by
  obtain ⟨p, -, hperm, hl⟩ := interpretation_listed hE hw h hp k hk
  refine ⟨⟨p, hperm, hl⟩, ?_⟩
  have hn := (answer hE hw h hp).names_len
  have e : items[k].interpretation.map (·.name) = p.map fun v => t.names.getD v "" := by
    rw [List.forall₂_iff_get] at hl
    apply List.ext_getElem
    · simp [hl.1]
    · intro a h1 h2
      simp only [List.length_map] at h1 h2
      have := (hl.2 a h2 h1).name
      simp only [List.getElem_map]
      rw [List.getD_eq_getElem?_getD]
      simp only [List.get_eq_getElem] at this
      rw [this]
      rfl
  rw [e]
  refine (hperm.map _).trans ?_
  have e2 : (List.range S.dim).map (fun v => t.names.getD v "") = t.names := by
    apply List.ext_getElem
    · simp [hn]
    · intro a h1 h2
      simp [List.getElem?_eq_getElem h2]
  rw [e2]

theorem total_pos (hE : E.WF) (hw : Reachable E w) (h : Multi.predict E data w = (w', .ok items))
    (hp : Predicted E w w' data f t S tw th) (rows : List (List ℚ)) (r : Nat) :
    0 ≤ ((List.range S.dim).map (S.contribution rows r)).sum := by
  apply List.sum_nonneg
  intro x hx
  obtain ⟨v, -, rfl⟩ := List.mem_map.1 hx
  exact (contribution_range hE hw h hp rows r v).1

theorem score_zero {rows : List (List ℚ)} {r : Nat} (hd : 0 < S.dim) :
    S.score rows r = 0 ↔ ((List.range S.dim).map (S.contribution rows r)).sum = 0 := by
  unfold Scorer.score
  rw [div_eq_zero_iff]
  constructor
  · rintro (h | h)
    · exact h
    · exact absurd (by exact_mod_cast h) hd.ne'
  · exact .inl

/-- **C54** (order and sum). If the score of a result is not 0, its contribution scores are numbers between 0 and 1, not increasing, with
sum 1. If the score is 0 they are all NaN. -/
theorem C54_order (hE : E.WF) (hw : Reachable E w) (h : Multi.predict E data w = (w', .ok items)) (it : Multi.Item)
    (hit : it ∈ items) :
    (it.score ≠ 0 → ∃ q : List ℚ, it.interpretation.map (·.score) = q.map .fin ∧ q.Pairwise (· ≥ ·) ∧ q.sum = 1 ∧
      ∀ x ∈ q, 0 ≤ x ∧ x ≤ 1) ∧
    (it.score = 0 → ∀ c ∈ it.interpretation, c.score = .nan) := by
  obtain ⟨f, t, S, tw, th, hp, -⟩ := C49_predicted hE hw h
  obtain ⟨k, hk, rfl⟩ := List.mem_iff_getElem.1 hit
  obtain ⟨p, hpdef, hperm, hl⟩ := interpretation_listed hE hw h hp k hk
  have hA := answer hE hw h hp
  have hN : S.E.WF := by rw [hp.trained.env]; exact hE.num
  have hs := (C48_labels hE hw h hp k hk).2
  rw [hs]
  set r := f.index.length - items.length + k
  have h0 := score_zero (S := S) (rows := t.rows) (r := r) hA.dim_pos
  have ht := total_pos hE hw h hp t.rows r
  have hc := contribution_range hE hw h hp t.rows r
  set tot := ((List.range S.dim).map (S.contribution t.rows r)).sum with htot
  have emap : items[k].interpretation.map (·.score) = p.map fun v => npDiv (S.contribution t.rows r v) tot := by
    rw [List.forall₂_iff_get] at hl
    apply List.ext_getElem
    · simp [hl.1]
    · intro a h1 h2
      simp only [List.length_map] at h1 h2
      simpa using (hl.2 a h2 h1).score
  constructor
  · intro hne
    have htp : 0 < tot := lt_of_le_of_ne ht (Ne.symm (fun e => hne (h0.2 e)))
    have hdiv : ∀ v, npDiv (S.contribution t.rows r v) tot = .fin (S.contribution t.rows r v / tot) := by
      intro v; unfold npDiv; rw [if_pos htp.ne']
    have hsum : (p.map fun v => S.contribution t.rows r v / tot).sum = 1 := by
      rw [(hperm.map _).sum_eq, sum_map_div]
      exact div_self htp.ne'
    refine ⟨p.map fun v => S.contribution t.rows r v / tot, ?_, ?_, hsum, ?_⟩
    · rw [emap, List.map_map]
      apply List.map_congr_left
      intro v _
      exact hdiv v
    · have hso := hN.argsort_sorted ((List.range S.dim).map fun v => S.contribution t.rows r v / tot)
      rw [List.map_map] at hso
      simp only [hdiv] at hpdef
      have e1 : S.E.argsortDesc ((List.range S.dim).map (PyFloat.fin ∘ fun v => S.contribution t.rows r v / tot)) = p :=
        hpdef.symm
      rw [e1] at hso
      have e : (p.map fun v => S.contribution t.rows r v / tot) =
          p.map fun i => ((List.range S.dim).map fun v => S.contribution t.rows r v / tot).getD i 0 := by
        apply List.map_congr_left
        intro j hj
        have hj' := List.mem_range.1 (hperm.mem_iff.1 hj)
        rw [List.getD_eq_getElem _ _ (by simpa using hj')]
        simp
      rw [e]
      exact hso
    · intro x hx
      have hx0 : ∀ y ∈ p.map (fun v => S.contribution t.rows r v / tot), 0 ≤ y := by
        intro y hy
        obtain ⟨v, -, rfl⟩ := List.mem_map.1 hy
        exact div_nonneg (hc v).1 htp.le
      exact ⟨hx0 x hx, by rw [← hsum]; exact List.single_le_sum hx0 x hx⟩
  · intro hz c hcm
    have htz : tot = 0 := h0.1 hz
    have hmem : c.score ∈ items[k].interpretation.map (·.score) := List.mem_map.2 ⟨c, hcm, rfl⟩
    rw [emap] at hmem
    obtain ⟨v, hv, e⟩ := List.mem_map.1 hmem
    rw [← e]
    have hvd := List.mem_range.1 (hperm.mem_iff.1 hv)
    have hcz : S.contribution t.rows r v = 0 := by
      have h1 := List.single_le_sum (l := (List.range S.dim).map (S.contribution t.rows r)) (by
        intro y hy
        obtain ⟨v, -, rfl⟩ := List.mem_map.1 hy
        exact (hc v).1) _ (List.mem_map.2 ⟨v, List.mem_range.2 hvd, rfl⟩)
      exact le_antisymm (h1.trans (le_of_eq htz)) (hc v).1
    unfold npDiv
    rw [if_neg (by simpa using htz), if_pos hcz]

/-- **C55** (changes of attention). For every result and every variable `v` listed in its interpretation, the reported changes are at
most ten, sorted by absolute value, each above the cutoff, between -1 and 1, and with the name of its own variable. A variable not reported is
below the cutoff, or ten are reported that changed at least as much. -/
theorem C55_changes (hE : E.WF) (hw : Reachable E w) (h : Multi.predict E data w = (w', .ok items))
    (hp : Predicted E w w' data f t S tw th) (k : Nat) (hk : k < items.length) (c : Contribution)
    (hc : c ∈ items[k].interpretation) :
    ∃ v < S.dim, ∃ sel : List Nat, sel.Nodup ∧ (∀ j ∈ sel, j < S.dim) ∧ sel.length ≤ 10 ∧ t.names[v]? = some c.name ∧
      sel.map (t.names[·]?) = c.changedVars.map some ∧
      c.changedVals = sel.map (S.attnShift tw t.rows (f.index.length - items.length + k) v) ∧
      (c.changedVals.map (|·|)).Pairwise (· ≥ ·) ∧ (∀ x ∈ c.changedVals, reportCutoff S.dim < |x| ∧ -1 ≤ x ∧ x ≤ 1) ∧
      ∀ j < S.dim, j ∉ sel →
        |S.attnShift tw t.rows (f.index.length - items.length + k) v j| ≤ reportCutoff S.dim ∨
        (sel.length = 10 ∧ ∀ x ∈ c.changedVals, |S.attnShift tw t.rows (f.index.length - items.length + k) v j| ≤ |x|) := by
  obtain ⟨p, -, hperm, hl⟩ := interpretation_listed hE hw h hp k hk
  have hA := answer hE hw h hp
  have hn := hA.names_len
  rw [List.forall₂_iff_get] at hl
  obtain ⟨a, ha, rfl⟩ := List.mem_iff_getElem.1 hc
  have hap : a < p.length := by rw [hl.1]; exact ha
  obtain ⟨hname, -, sel, h1, h2, h3, h4, h5, h6, h7, h8⟩ := hl.2 a hap ha
  simp only [List.get_eq_getElem] at *
  have hv := List.mem_range.1 (hperm.mem_iff.1 (List.getElem_mem hap))
  rw [hn] at h7 h8
  have htw : (0 : ℚ) < tw := by exact_mod_cast hA.tw_pos
  have hrange : ∀ i j, -1 ≤ S.attnShift tw t.rows (f.index.length - items.length + k) i j ∧
      S.attnShift tw t.rows (f.index.length - items.length + k) i j ≤ 1 := by
    intro i j
    unfold Scorer.attnShift
    have e1 := attention_entry hE hw h hp t.rows (f.index.length - items.length + k) i j
    set g : Nat → ℚ := fun a => ((S.attention (S.window t.rows (f.index.length - items.length + k - (tw - 1) + a))).getD i
      []).getD j 0
    have e2 : 0 ≤ ((List.range tw).map g).sum / tw := by
      apply div_nonneg _ htw.le
      apply List.sum_nonneg
      intro x hx
      obtain ⟨a, -, rfl⟩ := List.mem_map.1 hx
      exact (attention_entry hE hw h hp t.rows _ i j).1
    have e3 : ((List.range tw).map g).sum / tw ≤ 1 := by
      rw [div_le_one htw]
      have := List.sum_le_card_nsmul ((List.range tw).map g) 1 (by
        intro x hx
        obtain ⟨a, -, rfl⟩ := List.mem_map.1 hx
        exact (attention_entry hE hw h hp t.rows _ i j).2)
      simpa using this
    constructor <;> linarith [e1.1, e1.2]
  refine ⟨p[a], hv, sel, h1, h2, h3, hname, h5, h4, ?_, ?_, ?_⟩
  · rw [h4, List.map_map]
    exact h6
  · intro x hx
    rw [h4] at hx
    obtain ⟨j, hj, rfl⟩ := List.mem_map.1 hx
    exact ⟨h7 j hj, hrange _ _⟩
  · intro j hj hjs
    rcases h8 j hj hjs with h9 | ⟨h9, h10⟩
    · exact .inl h9
    · refine .inr ⟨h9, ?_⟩
      intro x hx
      rw [h4] at hx
      obtain ⟨i, hi, rfl⟩ := List.mem_map.1 hx
      exact h10 i hi

end

/-- A run with a nonzero score, nonzero contributions and reported changes of attention. -/
example : ∃ w' items f t S tw th, Reachable (demoE loss0) demoTrained ∧
    Multi.predict (demoE loss0) (.frame demoShift) demoTrained = (w', .ok items) ∧
    Predicted (demoE loss0) demoTrained w' (.frame demoShift) f t S tw th ∧
    ∃ it ∈ items, it.score = 4 / 5 ∧ it.interpretation.map (·.name) = ["b", "a"] ∧
      it.interpretation.map (·.score) = [.fin (5 / 8), .fin (3 / 8)] ∧ it.interpretation.map (·.changedVars) = [["a", "b"], ["a", "b"]] ∧
      it.interpretation.map (·.changedVals) = [[1 / 4, -1 / 4], [1 / 4, -1 / 4]] := by
  have h1 : returned (Multi.predict (demoE loss0) (.frame demoShift) demoTrained).2 (fun items => items.any fun it => decide (
      it.score = 4 / 5 ∧ it.interpretation.map (·.name) = ["b", "a"] ∧
      it.interpretation.map (·.score) = [.fin (5 / 8), .fin (3 / 8)] ∧ it.interpretation.map (·.changedVars) = [["a", "b"], ["a", "b"]] ∧
      it.interpretation.map (·.changedVals) = [[1 / 4, -1 / 4], [1 / 4, -1 / 4]])) = true := by
    decide +kernel
  obtain ⟨w', items, h, hi⟩ := returned_ok h1
  obtain ⟨f, t, S, tw, th, hp, -⟩ := C49_predicted (demoE_wf loss0) demoTrained_reachable h
  refine ⟨w', items, f, t, S, tw, th, demoTrained_reachable, h, hp, ?_⟩
  obtain ⟨it, hm, hc⟩ := List.any_eq_true.1 hi
  exact ⟨it, hm, of_decide_eq_true hc⟩

/-- The network of the demo accepts a batch of two windows. -/
example : ∃ m o, demoTrained.det.model.map (·.config) = some m ∧ 0 < m.dataDim ∧ 0 < m.gatWindow ∧
    forward demoNum m (constNet 1 0 m) [[[0, 1], [1, 0]], [[1, 1], [0, 0]]] = .ok o ∧ o.length = 2 := by
  have h1 : demoTrained.det.model.any (fun n => decide (0 < n.config.dataDim ∧ 0 < n.config.gatWindow) &&
      returned (lift (forward demoNum n.config (constNet 1 0 n.config) [[[0, 1], [1, 0]], [[1, 1], [0, 0]]]))
        (fun o => decide (o.length = 2))) = true := by decide +kernel
  cases hm : demoTrained.det.model with
  | none => rw [hm] at h1; cases h1
  | some n =>
    rw [hm] at h1
    simp only [Option.any_some, Bool.and_eq_true, decide_eq_true_eq] at h1
    obtain ⟨⟨h2, h3⟩, h4⟩ := h1
    unfold returned at h4
    split at h4
    · rename_i o ho
      exact ⟨n.config, o, rfl, h2, h3, lift_ok.1 ho, of_decide_eq_true h4⟩
    · cases h4

end Verif
