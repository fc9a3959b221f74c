import Verif.Multi.Inv

/-!
# What a successful prediction computed
-/

namespace Verif.Multi

open Spec

theorem pred_length {E : NumEnv} {m : Config} {N : Net} (h : NetGood m (some N)) (x : List (List ℚ)) :
    (sampleOut E m N x).pred.length = m.dataDim := by
  have := h N rfl
  unfold sampleOut heads Linear.apply vadd
  simp [this.1, this.2]

theorem attn_length {E : NumEnv} {m : Config} {N : Net} (x : List (List ℚ)) :
    (sampleOut E m N x).attn.length = m.dataDim ∧ ∀ r ∈ (sampleOut E m N x).attn, r.length = m.dataDim := by
  unfold sampleOut heads attnOf
  refine ⟨by simp [featOf_length], ?_⟩
  intro r hr
  simp only [List.mem_map] at hr
  obtain ⟨a, -, rfl⟩ := hr
  unfold softmax
  simp [featOf_length]

/-- the parts of a detector a prediction uses -/
structure Loaded (d : Det) (c : Config) (base : List ℚ × List ℚ) (m : Config) (N : Net) (pct : List ℚ) : Prop where
  config : d.config = some c
  base : c.base = some base
  model : d.model = some ⟨m, some N⟩
  pct : d.pct = some pct

theorem inference_inv {TS} {E : MEnv TS} {d : Det} (hd : d.Good) {rows : List (List ℚ)} {o : InferOut}
    (h : inference E d rows = .ok o) :
    ∃ c base m N pct ss w, Loaded d c base m N pct ∧ (inferSet c base rows).samples E.toNumEnv = .ok ss ∧
      (∀ s ∈ ss, Fits m s.input) ∧ (ss.map (rawRow E.toNumEnv m N)).mapM (fun r => weightRow r pct) = .ok w ∧
      o = collected ⟨none, none, none⟩ w (ss.map fun s => (sampleOut E.toNumEnv m N s.input).attn) := by
  unfold inference at h
  split at h
  · cases h
  · rename_i c hc
    split at h
    · cases h
    · rename_i base hb
      split at h
      · cases h
      · cases h
      · rename_i m N hm
        split at h
        · cases h
        · rename_i pct hp
          rw [lift_ok] at h
          obtain ⟨ss, hss, h⟩ := ebind_ok.1 h
          have hmg := (hd.model _ hm).1
          obtain ⟨hf, w, hw, rfl⟩ := (inferFold_ok hmg.dim hmg.gat (hd.config _ hc).batch ss _ _).1 h
          exact ⟨c, base, m, N, pct, ss, w, ⟨hc, hb, hm, hp⟩, hss, hf, hw, rfl⟩

/-- when the table has as many columns as the network expects, inference computes the specified scores -/
theorem inference_rows {E : NumEnv} {c m : Config} {base : List ℚ × List ℚ} {N : Net} {pct : List ℚ}
    {rows : List (List ℚ)} {ss : List Sample} {w : List (List ℚ)} (hl : base.2.length = base.1.length)
    (hN : NetGood m (some N)) (hr : ∀ r ∈ rows, r.length = m.dataDim) (hb : bcLen m.dataDim base.2.length = m.dataDim)
    (hss : (inferSet c base rows).samples E = .ok ss)
    (hw : (ss.map (rawRow E m N)).mapM (fun r => weightRow r pct) = .ok w)
    (hlen : ∀ y ∈ w, y.length = m.dataDim) :
    w = (List.range (rows.length - c.inputSize)).map (fun j =>
      (List.range m.dataDim).map ((scorer E c base m N pct).contribution rows (c.inputSize + j))) ∧
    (ss.map fun s => (sampleOut E m N s.input).attn) = (List.range (rows.length - c.inputSize)).map (fun j =>
      (scorer E c base m N pct).attention ((scorer E c base m N pct).window rows (c.inputSize + j))) := by
  obtain ⟨hsl, hs⟩ := inferSamples_ok hl hr hss
  have hwl := mapM_ok_length hw
  rw [List.length_map] at hwl
  constructor
  · apply List.ext_getElem
    · simp [hwl, hsl]
    · intro j h1 h2
      have hj : j < ss.length := by omega
      obtain ⟨e1, e2⟩ := sample_eq (N := N) (pct := pct) hr (by omega) hb (hs j hj)
      have h3 := mapM_ok_get hw (i := j) (by simpa using hj)
      obtain ⟨-, h4⟩ := weightRow_ok h3
      have hlj := hlen _ (List.getElem_mem h1)
      apply List.ext_getElem
      · simp [hlj]
      · intro v h5 h6
        rw [h4 v h5]
        simp only [List.getElem_map, List.getElem_range]
        have hv : v < m.dataDim := by omega
        have hpl := pred_length (E := E) hN ss[j].input
        have hrl : (rawRow E m N ss[j]).length = m.dataDim := by
          unfold rawRow
          rw [List.length_zipWith, hpl, e2]; simp
        rw [entry_getElem (by omega : v < (rawRow E m N ss[j]).length)]
        unfold Scorer.contribution
        congr 1
        have er : rawRow E m N ss[j] = List.zipWith (contribution E) (sampleOut E m N ss[j].input).pred ss[j].target := rfl
        simp only [er, List.getElem_zipWith, e2, List.getElem_map, List.getElem_range]
        unfold contribution
        have e3 : (scorer E c base m N pct).forecast ((scorer E c base m N pct).window rows (c.inputSize + j)) =
            (sampleOut E m N ss[j].input).pred := by rw [e1]; rfl
        rw [e3, List.getD_eq_getElem _ _ (by omega)]
        rfl
  · apply List.ext_getElem
    · simp [hsl]
    · intro j h1 h2
      have hj : j < ss.length := by simpa using h1
      obtain ⟨e1, e2⟩ := sample_eq (N := N) (pct := pct) hr (by omega) hb (hs j hj)
      simp only [List.getElem_map, List.getElem_range]
      rw [e1]
      rfl

/-- item `k` of a prediction, computed from the scores -/
structure ItemAt (S : Scorer) (tw : Nat) (th : ℚ) (names : List String) (index : List Int) (rows : List (List ℚ))
    (k : Nat) (it : Item) : Prop where
  label : it.index = index.getD (S.input + (tw - 1) + k) 0
  score : it.score = S.score rows (S.input + (tw - 1) + k)
  anomaly : ∃ dyn, getThreshold ((List.range' (k + 1 - tw) (k + 1 - (k + 1 - tw))).map fun j =>
      S.score rows (S.input + j)) = .ok dyn ∧ it.isAnomaly = decideAnomaly (min (3 / 10) th) (max (1 / 2) th) it.score dyn
  severity : it.severity = if it.isAnomaly then it.score / (S.E.e - 1) else 0
  interpretation : (S.E.argsortDesc ((List.range S.dim).map fun v =>
      npDiv (S.contribution rows (S.input + (tw - 1) + k) v)
        ((List.range S.dim).map (S.contribution rows (S.input + (tw - 1) + k))).sum)).mapM
      (packVar S.E names ((List.range S.dim).map fun v =>
        npDiv (S.contribution rows (S.input + (tw - 1) + k) v)
          ((List.range S.dim).map (S.contribution rows (S.input + (tw - 1) + k))).sum)
        ((List.range S.dim).map fun i => (List.range S.dim).map fun j =>
          ((S.attention (S.window rows (S.input + (tw - 1) + k))).getD i []).getD j 0 -
          ((List.range tw).map fun a => ((S.attention (S.window rows (S.input + k + a))).getD i []).getD j 0).sum / tw)) =
      .ok it.interpretation

theorem packVar_lt {E : NumEnv} {vars : List String} {contrib : List PyFloat} {attn : List (List ℚ)} {v : Nat}
    {x : Contribution} (h : packVar E vars contrib attn v = .ok x) : v < vars.length := by
  unfold packVar at h
  obtain ⟨names, -, h⟩ := ebind_ok.1 h
  obtain ⟨name, hn, h⟩ := ebind_ok.1 h
  unfold varName at hn
  split at hn
  · rename_i s hs
    rw [List.getElem?_eq_some_iff] at hs
    exact hs.1
  · cases hn

/-- the contributions of an answered row are not more than the variables -/
theorem packItem_le {E : NumEnv} (hE : E.WF) {vars : List String} {index : Int} {a : Bool} {s sev : ℚ}
    {contrib : List PyFloat} {attn : List (List ℚ)} {it : Item}
    (h : packItem E vars index a s sev contrib attn = .ok it) : contrib.length ≤ vars.length := by
  unfold packItem at h
  obtain ⟨i, hi, -⟩ := ebind_ok.1 h
  by_contra hc
  have hmem : vars.length ∈ E.argsortDesc contrib := by
    rw [(hE.argsort_perm contrib).mem_iff, List.mem_range]; omega
  have := mapM_ok_iff.1 hi
  obtain ⟨n, hn, hn2⟩ := List.mem_iff_getElem.1 hmem
  have := mapM_ok_get hi hn
  rw [hn2] at this
  exact absurd (packVar_lt this) (by omega)

theorem meanMats_eq {n : Nat} {l : List (List (List ℚ))} (hl : l ≠ []) (h : ∀ m ∈ l, m.length = n ∧ ∀ r ∈ m, r.length = n) :
    meanMats l = (List.range n).map fun i => (List.range n).map fun j =>
      (l.map fun x => (x.getD i []).getD j 0).sum / l.length := by
  unfold meanMats
  cases l with
  | nil => exact absurd rfl hl
  | cons m t =>
    dsimp only
    have hm := h m (by simp)
    apply List.ext_getElem
    · simp [hm.1]
    · intro i h1 h2
      simp only [List.length_mapIdx] at h1
      simp only [List.getElem_mapIdx, List.getElem_map, List.getElem_range]
      apply List.ext_getElem
      · simp [hm.2 _ (List.getElem_mem h1)]
      · intro j h3 h4
        simp only [List.getElem_mapIdx, List.getElem_map, List.getElem_range]
        unfold npMean
        simp

theorem attnChange_eq {n tw M : Nat} (htw : 0 < tw) (hM : tw ≤ M) {A : Nat → List (List ℚ)}
    (h : ∀ j, (A j).length = n ∧ ∀ r ∈ A j, r.length = n) :
    attnChange tw (M + 1 - tw) ((List.range M).map A) = (List.range (M + 1 - tw)).map fun k =>
      (List.range n).map fun i => (List.range n).map fun j =>
        ((A (tw - 1 + k)).getD i []).getD j 0 - ((List.range tw).map fun a => ((A (k + a)).getD i []).getD j 0).sum / tw := by
  unfold attnChange
  dsimp only
  have hprev : (List.range (((List.range M).map A).length + 1 - tw)).map
      (fun k => meanMats ((((List.range M).map A).drop k).take tw)) =
      (List.range (M + 1 - tw)).map fun k => (List.range n).map fun i => (List.range n).map fun j =>
        ((List.range tw).map fun a => ((A (k + a)).getD i []).getD j 0).sum / tw := by
    simp only [List.length_map, List.length_range]
    apply List.map_congr_left
    intro k hk
    rw [List.mem_range] at hk
    have e : (((List.range M).map A).drop k).take tw = (List.range tw).map fun a => A (k + a) := by
      apply List.ext_getElem
      · simp; omega
      · intro a h1 h2
        simp
    rw [e, meanMats_eq (n := n)]
    · simp [List.map_map, Function.comp_def]
    · intro h0
      have := congrArg List.length h0
      simp at this
      omega
    · intro m hm
      obtain ⟨a, -, rfl⟩ := List.mem_map.1 hm
      exact h _
  rw [hprev]
  have hd : ((List.range M).map A).drop (((List.range M).map A).length - (M + 1 - tw)) =
      (List.range (M + 1 - tw)).map fun k => A (tw - 1 + k) := by
    apply List.ext_getElem
    · simp; omega
    · intro k h1 h2
      simp only [List.getElem_drop, List.getElem_map, List.getElem_range, List.length_map, List.length_range]
      congr 1
      omega
  rw [hd]
  simp only [List.length_map, List.length_range, Nat.sub_self, List.drop_zero]
  rw [zipWith_maps]
  apply List.map_congr_left
  intro k _
  have hA := h (tw - 1 + k)
  apply List.ext_getElem
  · simp [hA.1]
  · intro i h1 h2
    simp only [List.length_map, List.length_range] at h2
    simp only [List.getElem_zipWith, List.getElem_map, List.getElem_range]
    apply List.ext_getElem
    · simp [hA.2 _ (List.getElem_mem (show i < (A (tw - 1 + k)).length by omega))]
    · intro j h3 h4
      simp only [List.length_map, List.length_range] at h4
      simp only [List.getElem_zipWith, List.getElem_map, List.getElem_range]
      congr 1
      have hi : i < (A (tw - 1 + k)).length := by omega
      have hrow := hA.2 _ (List.getElem_mem hi)
      rw [List.getD_eq_getElem _ _ hi, List.getD_eq_getElem _ _ (by omega)]

theorem rows_width (t : Table) : ∀ r ∈ t.rows, r.length = t.cols.length := by
  intro r hr
  unfold Table.rows at hr
  obtain ⟨i, -, rfl⟩ := List.mem_map.1 hr
  simp

theorem rows_length (t : Table) : t.rows.length = t.index.length := by simp [Table.rows]

/-- the answer of a loaded detector to a table with rows `rows` -/
structure Answer (S : Scorer) (tw : Nat) (th : ℚ) (names : List String) (index : List Int) (rows : List (List ℚ))
    (items : List Item) : Prop where
  tw_pos : 0 < tw
  input_pos : 0 < S.input
  dim_pos : 0 < S.dim
  width : ∀ r ∈ rows, r.length = S.dim
  names_len : names.length = S.dim
  enough : tw + S.input ≤ rows.length
  count : items.length = rows.length - S.input - (tw - 1)
  item : ∀ k, ∀ hk : k < items.length, ItemAt S tw th names index rows k items[k]

theorem weights_len {E : NumEnv} {m : Config} {N : Net} {pct : List ℚ} {s : Sample} {y : List ℚ}
    (hN : NetGood m (some N)) (ht : s.target.length = m.dataDim) (h : weightRow (rawRow E m N s) pct = .ok y) :
    y.length = m.dataDim ∨ (m.dataDim = 1 ∧ y.length = pct.length) := by
  have hr : (rawRow E m N s).length = m.dataDim := by
    unfold rawRow
    rw [List.length_zipWith, pred_length hN, ht, Nat.min_self]
  have := (weightRow_ok h).1
  rw [hr] at this
  exact this

theorem detectWith_ok {TS} {E : MEnv TS} (hE : E.WF) {d : Det} (hd : d.Good) {f : Frame} {t : Table}
    (hi : t.index.length = f.index.length) (ht : t.names.length = t.cols.length) {items : List Item}
    (h : detectWith E d f t = .ok items) :
    ∃ c base m N pct th, Loaded d c base m N pct ∧ d.threshold = some th ∧ m.kernel ≤ c.inputSize ∧
      Answer (scorer E.toNumEnv c base m N pct) c.thresholdWindow th t.names f.index t.rows items := by
  unfold detectWith at h
  dsimp only at h
  split at h
  · cases h
  · rename_i c hc
    split at h
    · cases h
    · rename_i hn
      split at h
      · cases h
      · rename_i th hth
        obtain ⟨o, ho, h⟩ := ebind_ok.1 h
        obtain ⟨c', base, m, N, pct, ss, w, hL, hss, hfit, hw, rfl⟩ := inference_inv hd ho
        have hcc : c' = c := by have := hL.config; rw [hc] at this; cases this; rfl
        subst hcc
        have hcg := hd.config _ hc
        have hmg := hd.model _ hL.model
        obtain ⟨hbl1, hbl2⟩ := hcg.base _ hL.base
        have hl : base.2.length = base.1.length := by omega
        obtain ⟨hsl, hs⟩ := inferSamples_ok hl (rows_width t) hss
        have hwl := mapM_ok_length hw
        rw [List.length_map] at hwl
        push Not at hn
        -- there is a sample
        have hkey : 0 < ss.length → bcLen t.cols.length base.2.length = m.dataDim ∧ 0 < c'.inputSize ∧
            m.kernel ≤ c'.inputSize := by
          intro h0
          have hs0 := hs 0 h0
          have hf0 := hfit _ (List.getElem_mem h0)
          have hlen : ss[0].input.length = c'.inputSize := hs0.len
          have hk : 0 < m.kernel := hmg.1.kernel
          have hpos : 0 < ss[0].input.length := by have := hf0.1; omega
          have h1 := hs0.width _ (List.getElem_mem hpos)
          have h2 := hf0.2 _ (List.getElem_mem hpos)
          exact ⟨by rw [← h2, h1]; rfl, by omega, by have := hf0.1; omega⟩
        split at h
        · rename_i contrib scores attn ec es ea
          have hwne : w ≠ [] := by
            intro e
            rw [e] at ec
            simp [collected] at ec
          have hss0 : 0 < ss.length := by rw [← hwl]; exact List.length_pos_iff.2 hwne
          obtain ⟨hbc, hin, hker⟩ := hkey hss0
          simp only [collected, if_neg hwne, appendResult, Option.some.injEq] at ec es ea
          subst ec es ea
          have htw := hcg.tw hin
          obtain ⟨ths, hths, h⟩ := ebind_ok.1 h
          rw [lift_ok] at hths h
          unfold packResponse at h
          split at h
          · cases h
          · rename_i hidx
            set scores' := (w.map npMean).drop (c'.thresholdWindow - 1) with hsc
            set anom := List.zipWith (decideAnomaly (min (3 / 10) th) (max (1 / 2) th)) scores' ths with hanom
            unfold dynThresholds at hths
            have hthl := mapM_ok_length hths
            simp only [List.length_map, List.length_range] at hthl
            have hanl : anom.length = t.rows.length - c'.inputSize - (c'.thresholdWindow - 1) := by
              rw [hanom, List.length_zipWith, hthl, hsc]
              simp only [List.length_drop, List.length_map]
              omega
            have han0 : 0 < anom.length := by omega
            -- as many contributions as variables
            have hit := fun k (hk : k < anom.length) => mapM_ok_get h (i := k) (by simpa using hk)
            simp only [List.getElem_range] at hit
            have hWlen : ∀ k, k < ss.length → (w.getD k []).length = m.dataDim ∨
                (m.dataDim = 1 ∧ (w.getD k []).length = pct.length) := by
              intro k hk
              have h3 := mapM_ok_get hw (i := k) (by simpa using hk)
              rw [List.getD_eq_getElem _ _ (by omega)]
              rw [List.getElem_map] at h3
              refine weights_len hmg.2 ?_ h3
              rw [(hs k hk).twidth]
              exact hbc
            have hle := packItem_le hE.num (hit 0 han0)
            have hcon0 : (((w.map fun r => r.map fun x => npDiv x r.sum).drop (c'.thresholdWindow - 1)).getD 0 []).length =
                (w.getD (c'.thresholdWindow - 1) []).length := by
              have hlt : c'.thresholdWindow - 1 < w.length := by omega
              rw [List.getD_eq_getElem _ _ (by simp; omega), List.getElem_drop, List.getElem_map, List.length_map,
                List.getD_eq_getElem _ _ hlt]
              simp
            rw [hcon0] at hle
            have hpct : 0 < pct.length := List.length_pos_iff.2 (hd.pct _ hL.pct).1
            have hW0 := hWlen (c'.thresholdWindow - 1) (by omega)
            have hdim : t.cols.length = m.dataDim := by
              unfold bcLen at hbc
              split at hbc
              · exact hbc
              · split at hbc
                · rename_i h1 h2
                  rcases hW0 with hW0 | hW0
                  · have : 0 < m.dataDim := hmg.1.dim
                    omega
                  · have : 0 < m.dataDim := hmg.1.dim
                    omega
                · exact hbc
            have hmd : 0 < m.dataDim := hmg.1.dim
            have hplen : m.dataDim = 1 → pct.length = 1 ∨ ∀ k, k < ss.length → (w.getD k []).length = m.dataDim := by
              intro h1
              rcases hW0 with hW0 | hW0
              · right
                intro k hk
                have h3 := mapM_ok_get hw (i := k) (by simpa using hk)
                have h3' := mapM_ok_get hw (i := c'.thresholdWindow - 1) (by simp; omega)
                rcases hWlen k hk with h5 | h5
                · exact h5
                · -- both rows have length 1 before weighting
                  have hr1 : ∀ s ∈ ss, (rawRow E.toNumEnv m N s).length = 1 := by
                    intro s hsm
                    obtain ⟨i, hi, rfl⟩ := List.mem_iff_getElem.1 hsm
                    unfold rawRow
                    rw [List.length_zipWith, pred_length hmg.2, (hs i hi).twidth]
                    show min m.dataDim (bcLen t.cols.length base.2.length) = 1
                    rw [hbc, h1]; rfl
                  have hone : ∀ (r y : List ℚ), r.length = 1 → weightRow r pct = .ok y → y.length = pct.length := by
                    intro r y hr hy
                    obtain ⟨x, rfl⟩ := List.length_eq_one_iff.1 hr
                    unfold weightRow at hy
                    split at hy
                    · rename_i he
                      cases hy
                      simp at he ⊢
                      omega
                    · split at hy
                      · rename_i h9
                        simp at h9
                      · cases hy; simp
                      · cases hy
                  rw [List.getElem_map] at h3'
                  have h6 := hone _ _ (hr1 _ (List.getElem_mem (by omega))) h3'
                  rw [List.getD_eq_getElem _ _ (by omega)] at hW0
                  omega
              · omega
            have hlen : ∀ y ∈ w, y.length = m.dataDim := by
              intro y hy
              obtain ⟨k, hk, rfl⟩ := List.mem_iff_getElem.1 hy
              have h5 := hWlen k (by omega)
              rw [List.getD_eq_getElem _ _ hk] at h5
              rcases h5 with h5 | h5
              · exact h5
              · rcases hplen h5.1 with h6 | h6
                · omega
                · have := h6 k (by omega)
                  rwa [List.getD_eq_getElem _ _ hk] at this
            have hrw : ∀ r ∈ t.rows, r.length = m.dataDim := by
              intro r hr; rw [rows_width t r hr, hdim]
            rw [hdim] at hbc
            obtain ⟨ew, ea⟩ := inference_rows hl hmg.2 hrw hbc hss hw hlen
            refine ⟨c', base, m, N, pct, th, hL, hth, hker, ?_⟩
            have hM : ss.length = t.rows.length - c'.inputSize := hsl
            refine ⟨htw, hin, hmd, hrw, ?_, hn, ?_, ?_⟩
            · show t.names.length = m.dataDim
              omega
            · have := mapM_ok_length h
              rw [List.length_range] at this
              rw [this, hanl]; rfl
            · intro k hk
              have hil := mapM_ok_length h
              rw [List.length_range] at hil
              have hka : k < anom.length := by omega
              have hitk := hit k hka
              have hthk := mapM_ok_get hths (i := k) (by simp; omega)
              unfold packItem at hitk
              obtain ⟨interp, hint, hitk⟩ := ebind_ok.1 hitk
              rw [epure_ok] at hitk
              rw [← hitk]
              have hscore : ∀ j, j < t.rows.length - c'.inputSize → (w.map npMean).getD j 0 =
                  (scorer E.toNumEnv c' base m N pct).score t.rows (c'.inputSize + j) := by
                intro j hj
                rw [ew, List.map_map, List.getD_eq_getElem _ _ (by simpa using hj), List.getElem_map, List.getElem_range]
                unfold npMean Scorer.score
                simp [scorer]
              have hs' : scores'.getD k 0 =
                  (scorer E.toNumEnv c' base m N pct).score t.rows (c'.inputSize + (c'.thresholdWindow - 1) + k) := by
                rw [hsc, List.getD_eq_getElem _ _ (by simp; omega), List.getElem_drop, ← List.getD_eq_getElem (d := 0),
                  hscore _ (by omega), Nat.add_assoc]
              have hanomk : anom.getD k false = decideAnomaly (min (3 / 10) th) (max (1 / 2) th) (scores'.getD k 0)
                  (ths[k]'(by omega)) := by
                have hks : k < scores'.length := by rw [hsc]; simp; omega
                rw [List.getD_eq_getElem _ _ hka, List.getD_eq_getElem _ _ hks]
                simp only [hanom, List.getElem_zipWith]
              have hidx' : f.index.length - anom.length + k = c'.inputSize + (c'.thresholdWindow - 1) + k := by
                have := rows_length t
                omega
              refine ⟨?_, ?_, ⟨ths[k]'(by omega), ?_, ?_⟩, ?_, ?_⟩
              · rw [hidx']; rfl
              · exact hs'
              · rw [← hthk]
                simp only [List.getElem_map, List.getElem_range, List.length_map]
                congr 1
                apply List.ext_getElem
                · simp; omega
                · intro j h1 h2
                  simp only [List.length_map, List.length_range'] at h1
                  simp only [List.getElem_map, List.getElem_range', List.getElem_drop, List.getElem_take, Nat.one_mul]
                  rw [← List.getElem_map npMean (h := by simp; omega), ← List.getD_eq_getElem (d := 0),
                    hscore _ (by omega)]
                  simp only [scorer]
                  congr 2
                  omega
              · exact hanomk
              · have hks : k < scores'.length := by rw [hsc]; simp; omega
                have e1 : (List.zipWith (fun s a => if a = true then s else 0) (severityOf E.toNumEnv scores') anom).getD k 0 =
                    if anom.getD k false = true then scores'.getD k 0 / (E.e - 1) else 0 := by
                  rw [List.getD_eq_getElem _ _ (by simp [severityOf]; omega), List.getD_eq_getElem _ _ hka,
                    List.getD_eq_getElem _ _ hks, List.getElem_zipWith]
                  simp [severityOf]
                exact e1
              · have hcon : ((w.map fun r => r.map fun x => npDiv x r.sum).drop (c'.thresholdWindow - 1)).getD k [] =
                    (List.range m.dataDim).map fun v =>
                      npDiv ((scorer E.toNumEnv c' base m N pct).contribution t.rows
                          (c'.inputSize + (c'.thresholdWindow - 1) + k) v)
                        ((List.range m.dataDim).map ((scorer E.toNumEnv c' base m N pct).contribution t.rows
                          (c'.inputSize + (c'.thresholdWindow - 1) + k))).sum := by
                  rw [ew, List.getD_eq_getElem _ _ (by simp; omega)]
                  simp only [List.getElem_drop, List.getElem_map, List.getElem_range, List.map_map, Nat.add_assoc, Function.comp_def]
                have hat : (attnChange c'.thresholdWindow anom.length
                      (ss.map fun s => (sampleOut E.toNumEnv m N s.input).attn)).getD k [] =
                    (List.range m.dataDim).map fun i => (List.range m.dataDim).map fun j =>
                      (((scorer E.toNumEnv c' base m N pct).attention ((scorer E.toNumEnv c' base m N pct).window t.rows
                        (c'.inputSize + (c'.thresholdWindow - 1) + k))).getD i []).getD j 0 -
                      ((List.range c'.thresholdWindow).map fun a =>
                        (((scorer E.toNumEnv c' base m N pct).attention ((scorer E.toNumEnv c' base m N pct).window t.rows
                          (c'.inputSize + k + a))).getD i []).getD j 0).sum / c'.thresholdWindow := by
                  have hal : anom.length = t.rows.length - c'.inputSize + 1 - c'.thresholdWindow := by omega
                  rw [ea, hal, attnChange_eq (n := m.dataDim) (M := t.rows.length - c'.inputSize) htw (by omega)
                      (A := fun j => (scorer E.toNumEnv c' base m N pct).attention
                        ((scorer E.toNumEnv c' base m N pct).window t.rows (c'.inputSize + j))) (fun j => attn_length _),
                    List.getD_eq_getElem _ _ (by simp; omega), List.getElem_map, List.getElem_range]
                  simp only [Nat.add_assoc]
                rw [hcon, hat] at hint
                exact hint
        · cases h

/-! ### the whole call -/

theorem processData_ok {TS} {E : MEnv TS} {data : MData} {w w' : World} {f : Frame} {t : Table} {c : Config}
    (h : MM.Returns (processData E data) w w' (f, t, c)) :
    data = .frame f ∧ f.ok = true ∧ Filled E w.params f t ∧ w'.det = w.det ∧ w'.disk = w.disk ∧
      ∃ sizes, windowSizes E (w.params "sliding_window") = .ok sizes ∧
        Config.ofParams w'.params t.names.length sizes.1 sizes.2 = .ok c ∧
        w'.params = Params.after w.params sizes t.names.length := by
  unfold processData at h
  split at h
  · exact (MM.throw_ok.1 h).elim
  · rename_i f0
    obtain ⟨w1, v, h1, h⟩ := MM.bind_ok.1 h
    obtain ⟨rfl, rfl⟩ := MM.get_ok.1 h1
    obtain ⟨w2, sizes, h2, h⟩ := MM.bind_ok.1 h
    obtain ⟨rfl, hsizes⟩ := MM.of_ok.1 h2
    obtain ⟨w3, _, h3, h⟩ := MM.bind_ok.1 h
    obtain rfl := MM.modifyParams_ok.1 h3
    obtain ⟨w4, _, h4, h⟩ := MM.bind_ok.1 h
    obtain rfl := MM.modifyParams_ok.1 h4
    obtain ⟨w5, proc, h5, h⟩ := MM.bind_ok.1 h
    obtain ⟨rfl, hproc⟩ := MM.of_ok.1 h5
    rw [lift_ok] at hproc
    split at h
    · rename_i hok
      obtain ⟨w6, t0, h6, h⟩ := MM.bind_ok.1 h
      obtain ⟨rfl, ht⟩ := MM.of_ok.1 h6
      obtain ⟨w7, _, h7, h⟩ := MM.bind_ok.1 h
      obtain rfl := MM.modifyParams_ok.1 h7
      obtain ⟨w8, v, h8, h⟩ := MM.bind_ok.1 h
      obtain ⟨rfl, rfl⟩ := MM.get_ok.1 h8
      obtain ⟨w9, c0, h9, h⟩ := MM.bind_ok.1 h
      obtain ⟨rfl, hc⟩ := MM.of_ok.1 h9
      obtain ⟨rfl, h⟩ := MM.pure_ok.1 h
      cases h
      refine ⟨rfl, hok, ⟨proc, hproc, ht⟩, rfl, rfl, sizes, hsizes, hc, ?_⟩
      funext k
      unfold Params.after
      simp only [Params.set]
    · exact absurd (MM.of_ok.1 h).2 (by simp)

theorem accepted_of {TS} {E : MEnv TS} {f f' : Frame} {w w' : World} {t : Table} {c : Config}
    (h : MM.Returns (processData E (.frame f)) w w' (f', t, c)) : Accepted E w.params f t c := by
  obtain ⟨h1, h2, h3, -, -, s, h4, h5, h6⟩ := processData_ok h
  cases h1
  exact ⟨h2, h3, s, h4, by rw [← h6]; exact h5⟩

theorem processData_run {TS} {E : MEnv TS} {w : World} {f : Frame} {t : Table} {c : Config} (h : Accepted E w.params f t c) :
    ∃ sizes, processData E (.frame f) w =
      ({ w with params := w.params.after sizes t.names.length }, .ok (f, t, c)) := by
  obtain ⟨hok, ⟨proc, hp, ht⟩, sizes, hs, hc⟩ := h
  refine ⟨sizes, ?_⟩
  unfold processData
  dsimp only
  rw [MM.run_bind (MM.get_ok.2 ⟨rfl, rfl⟩)]
  rw [MM.run_bind (w1 := w) (a := sizes) (MM.of_ok.2 ⟨rfl, hs⟩)]
  rw [MM.run_bind ((MM.modifyParams_ok (u := ())).2 rfl), MM.run_bind ((MM.modifyParams_ok (u := ())).2 rfl)]
  rw [MM.run_bind (a := proc) (MM.of_ok.2 ⟨rfl, lift_ok.2 hp⟩)]
  rw [if_pos hok, MM.run_bind (a := t) (MM.of_ok.2 ⟨rfl, ht⟩), MM.run_bind ((MM.modifyParams_ok (u := ())).2 rfl),
    MM.run_bind (MM.get_ok.2 ⟨rfl, rfl⟩)]
  have e : (Params.set (fun k => if k ∈ validFields then
      ((w.params.set "input_size" (.int sizes.1)).set "threshold_window" (.int sizes.2)) k else none) "data_dim"
        (.int t.names.length)) = w.params.after sizes t.names.length := by
    funext k
    unfold Params.after
    simp only [Params.set]
  rw [MM.run_bind (a := c) (MM.of_ok.2 ⟨rfl, by dsimp only; rw [e]; exact hc⟩)]
  dsimp only
  rw [e]
  rfl

theorem processed_sizes {E : TableEnv} (hE : E.WF) {P : Processor} {f : Frame} {t : Table}
    (h : P.process E (.frame f) = .ok t) : t.index.length = f.index.length ∧ t.names.length = t.cols.length := by
  unfold Processor.process at h
  dsimp only at h
  split at h
  · obtain ⟨cols, h1, h2⟩ := ebind_ok.1 h
    rw [epure_ok] at h2
    subst h2
    constructor
    · show (pick f.index 0 (E.indexOrder f.index)).length = _
      unfold pick
      rw [List.length_map, (hE.order_perm _).length_eq, List.length_range]
    · rw [List.length_map, mapM_ok_length h1]
  · cases h

theorem predict_ok {TS} {E : MEnv TS} (hE : E.WF) {data : MData} {w w' : World} (hw : w.Good) {items : List Item}
    (h : MM.Returns (predict E data) w w' items) :
    ∃ f t c base m N pct th, data = .frame f ∧ f.ok = true ∧ Filled E w.params f t ∧ Loaded w'.det c base m N pct ∧
      w'.det.threshold = some th ∧ m.kernel ≤ c.inputSize ∧
      Answer (scorer E.toNumEnv c base m N pct) c.thresholdWindow th t.names f.index t.rows items := by
  have hg := (predict_holds E data w hw).1
  rw [show (predict E data w).1 = w' from by rw [show predict E data w = _ from h]] at hg
  unfold predict at h
  obtain ⟨w1, ⟨f, t, c0⟩, h1, h⟩ := MM.bind_ok.1 h
  obtain ⟨w2, _, h2, h⟩ := MM.bind_ok.1 h
  obtain ⟨w3, v, h3, h⟩ := MM.bind_ok.1 h
  obtain ⟨rfl, rfl⟩ := MM.get_ok.1 h3
  obtain ⟨rfl, hdet⟩ := MM.of_ok.1 h
  obtain ⟨hdata, hok, hfill, -⟩ := processData_ok h1
  obtain ⟨proc, -, hproc⟩ := id hfill
  obtain ⟨hi, ht⟩ := processed_sizes hE.table hproc
  obtain ⟨c, base, m, N, pct, th, hL, hth, hker, hA⟩ := detectWith_ok hE hg.det hi ht hdet
  exact ⟨f, t, c, base, m, N, pct, th, hdata, hok, hfill, hL, hth, hker, hA⟩

/-- the network on one window -/
theorem forward_single {E : NumEnv} {m : Config} {N : Net} (hd : 0 < m.dataDim) (hg : 0 < m.gatWindow) {x : List (List ℚ)}
    {o : NetOut} : forward E m N [x] = .ok [o] ↔ Fits m x ∧ o = sampleOut E m N x := by
  rw [forward_ok_iff hd hg]
  simp

theorem scorer_trained {TS} {E : MEnv TS} {d : Det} (hd : d.Good) {c m : Config} {base : List ℚ × List ℚ} {N : Net}
    {pct : List ℚ} {th : ℚ} (hL : Loaded d c base m N pct) (hth : d.threshold = some th) :
    Trained E d (scorer E.toNumEnv c base m N pct) c.thresholdWindow th := by
  have hm := (hd.model _ hL.model).1
  refine ⟨rfl, ⟨c, hL.config, rfl, rfl, hL.base⟩, hL.pct, hth, m, N, hL.model, rfl, ?_⟩
  intro x o ho
  obtain ⟨-, rfl⟩ := (forward_single hm.dim hm.gat).1 ho
  exact ⟨rfl, rfl⟩

theorem window_fits {E : NumEnv} {c m : Config} {base : List ℚ × List ℚ} {N : Net} {pct : List ℚ}
    (hk : m.kernel ≤ c.inputSize) (rows : List (List ℚ)) (r : Nat) :
    Fits m ((scorer E c base m N pct).window rows r) := by
  unfold Scorer.window
  refine ⟨by simpa [scorer] using hk, ?_⟩
  intro x hx
  obtain ⟨i, -, rfl⟩ := List.mem_map.1 hx
  simp [scorer]

/-- any scorer the detector can be described by gives the same answer -/
theorem Answer.of_trained {TS} {E : MEnv TS} {d : Det} (hd : d.Good) {c m : Config} {base : List ℚ × List ℚ} {N : Net}
    {pct : List ℚ} {th th' : ℚ} {tw : Nat} {S : Scorer} {names : List String} {index : List Int} {rows : List (List ℚ)}
    {items : List Item} (hL : Loaded d c base m N pct) (hth : d.threshold = some th) (hk : m.kernel ≤ c.inputSize)
    (hS : Trained E d S tw th') (hA : Answer (scorer E.toNumEnv c base m N pct) c.thresholdWindow th names index rows items) :
    Answer S tw th' names index rows items := by
  have hm := (hd.model _ hL.model).1
  obtain ⟨he, ⟨c', hc', hin, htw, hb⟩, hwt, hth', m', N', hm', hdim, hnet⟩ := hS
  rw [hL.config] at hc'; cases hc'
  rw [hL.base] at hb; cases hb
  rw [hL.pct] at hwt; cases hwt
  rw [hL.model] at hm'; cases hm'
  rw [hth] at hth'; cases hth'
  subst htw
  set S0 := scorer E.toNumEnv c (S.maxs, S.mins) m N S.weights with hS0
  have e1 : S0.E = S.E := he.symm
  have e2 : S0.input = S.input := hin.symm
  have e3 : S0.dim = S.dim := hdim.symm
  have e4 : S0.mins = S.mins := rfl
  have e5 : S0.maxs = S.maxs := rfl
  have e6 : S0.weights = S.weights := rfl
  have hn : S0.normed rows = S.normed rows := by
    funext r v
    unfold Scorer.normed
    rw [e1, e4, e5]
  have hwin : ∀ r, S0.window rows r = S.window rows r := by
    intro r
    unfold Scorer.window
    rw [hn, e2, e3]
  have hnet0 : ∀ r, S.forecast (S.window rows r) = S0.forecast (S0.window rows r) ∧
      S.attention (S.window rows r) = S0.attention (S0.window rows r) := by
    intro r
    have hf : Fits m (S0.window rows r) := window_fits hk rows r
    have hs : forward E.toNumEnv m N [S0.window rows r] = .ok [sampleOut E.toNumEnv m N (S0.window rows r)] :=
      (forward_single hm.dim hm.gat).2 ⟨hf, rfl⟩
    rw [← hwin]
    exact hnet _ _ hs
  have hcon : ∀ r, S0.contribution rows r = S.contribution rows r := by
    intro r
    funext v
    unfold Scorer.contribution
    rw [(hnet0 r).1, e1, hn, e6]
  have hsc : ∀ r, S0.score rows r = S.score rows r := by
    intro r
    unfold Scorer.score
    rw [hcon, e3]
  have hat : ∀ r, S0.attention (S0.window rows r) = S.attention (S.window rows r) := fun r => (hnet0 r).2.symm
  refine ⟨hA.tw_pos, e2 ▸ hA.input_pos, e3 ▸ hA.dim_pos, e3 ▸ hA.width, e3 ▸ hA.names_len, e2 ▸ hA.enough, e2 ▸ hA.count, ?_⟩
  intro k hk
  have hi := hA.item k hk
  obtain ⟨h1, h2, ⟨dyn, h3, h4⟩, h5, h6⟩ := hi
  simp only [hsc, e2] at h1 h2 h3 h4
  simp only [hcon, e1, e2, e3, hat] at h5 h6
  exact ⟨h1, h2, ⟨dyn, h3, h4⟩, h5, h6⟩

theorem filled_unique {TS} {E : MEnv TS} {p : Params} {f : Frame} {t t' : Table} (h : Filled E p f t) (h' : Filled E p f t') :
    t = t' := by
  obtain ⟨P, hP, h⟩ := h
  obtain ⟨P', hP', h'⟩ := h'
  rw [hP] at hP'
  cases hP'
  rw [h] at h'
  cases h'
  rfl

theorem predicted_answer {TS} {E : MEnv TS} (hE : E.WF) {data : MData} {w w' : World} (hw : w.Good) {items : List Item}
    (h : predict E data w = (w', .ok items)) {f : Frame} {t : Table} {S : Scorer} {tw : Nat} {th : ℚ}
    (hp : Predicted E w w' data f t S tw th) : Answer S tw th t.names f.index t.rows items := by
  have hg := (predict_holds E data w hw).1
  rw [show (predict E data w).1 = w' from by rw [h]] at hg
  obtain ⟨f', t', c, base, m, N, pct, th', hdata, -, hfill, hL, hth, hk, hA⟩ := predict_ok hE hw h
  have := hp.data
  rw [hdata] at this
  cases this
  cases filled_unique hfill hp.table
  exact hA.of_trained hg.det hL hth hk hp.trained

end Verif.Multi
