import Verif.Multi.NetLemmas
import Verif.Spec.Multi
import Mathlib.Data.List.GetD

/-!
# Lemmas about inference
-/

namespace Verif.Multi

open Spec

/-! ### broadcasting -/

theorem entry_one (a : ℚ) (v : Nat) : entry [a] v = a := rfl

theorem entry_getElem {l : List ℚ} {v : Nat} (h : v < l.length) : entry l v = l[v] := by
  unfold entry
  split
  · rename_i h1
    have : v = 0 := by omega
    subst this
    rw [List.getD_eq_getElem _ _ h]
  · rw [List.getD_eq_getElem _ _ h]

/-- length of a normalised row -/
def bcLen (a b : Nat) : Nat := if a = b then a else if a = 1 then b else a

theorem normRow_ok {mn mx : List ℚ} {lo hi : ℚ} {row y : List ℚ} (hl : mn.length = mx.length)
    (h : normRow mn mx lo hi row = .ok y) :
    y.length = bcLen row.length mn.length ∧ ∀ v, ∀ hv : v < y.length,
      y[v] = minmax (entry mn v) (entry mx v) lo hi (entry row v) := by
  unfold normRow at h
  unfold bcLen
  split at h
  · rename_i he
    cases h
    rw [if_pos he]
    have hlen : (List.zipWith (fun x (m : ℚ × ℚ) => minmax m.1 m.2 lo hi x) row (mn.zip mx)).length = row.length := by
      simp; omega
    refine ⟨hlen, fun v hv => ?_⟩
    rw [hlen] at hv
    rw [List.getElem_zipWith, List.getElem_zip, entry_getElem hv, entry_getElem (l := mn) (by omega),
      entry_getElem (l := mx) (by omega)]
  · rename_i he
    rw [if_neg he]
    split at h
    · cases h
      rw [if_pos (by simp)]
      refine ⟨by simp; omega, fun v hv => ?_⟩
      simp only [List.length_map, List.length_zip] at hv
      simp only [List.getElem_map, List.getElem_zip, entry_one]
      rw [entry_getElem (l := mn) (by omega), entry_getElem (l := mx) (by omega)]
    · rename_i a b hne
      cases h
      rw [if_neg]
      · refine ⟨by simp, fun v hv => ?_⟩
        simp only [List.length_map] at hv
        rw [List.getElem_map, entry_one, entry_one, entry_getElem hv]
      · intro h1
        obtain ⟨x, rfl⟩ := List.length_eq_one_iff.1 h1
        exact hne x rfl
    · cases h

theorem normRow_lengths {mn mx : List ℚ} {lo hi : ℚ} {row row' : List ℚ} (hr : row.length = row'.length)
    (h : ∃ y, normRow mn mx lo hi row = .ok y) : ∃ y, normRow mn mx lo hi row' = .ok y := by
  obtain ⟨y, h⟩ := h
  unfold normRow at h ⊢
  by_cases he : row.length = mn.length
  · rw [if_pos (by omega)]; exact ⟨_, rfl⟩
  · rw [if_neg he] at h
    rw [if_neg (by omega)]
    split at h
    · obtain ⟨x, rfl⟩ := List.length_eq_one_iff.1 (by simpa using hr.symm)
      exact ⟨_, rfl⟩
    · split <;> first | exact ⟨_, rfl⟩ | (rename_i h1 h2; exact absurd rfl (h2 _ _ rfl))
    · cases h

theorem weightRow_ok {row pct y : List ℚ} (h : weightRow row pct = .ok y) :
    (y.length = row.length ∨ (row.length = 1 ∧ y.length = pct.length)) ∧
      ∀ v, ∀ hv : v < y.length, y[v] = entry row v * entry pct v := by
  unfold weightRow at h
  split at h
  · rename_i he
    cases h
    have hlen : (List.zipWith (· * ·) row pct).length = row.length := by simp; omega
    refine ⟨.inl hlen, fun v hv => ?_⟩
    rw [hlen] at hv
    rw [List.getElem_zipWith, entry_getElem hv, entry_getElem (l := pct) (by omega)]
  · split at h
    · cases h
      refine ⟨.inl (by simp), fun v hv => ?_⟩
      simp only [List.length_map] at hv
      rw [List.getElem_map, entry_one, entry_getElem hv]
    · cases h
      refine ⟨.inr ⟨by simp, by simp⟩, fun v hv => ?_⟩
      simp only [List.length_map] at hv
      rw [List.getElem_map, entry_one, entry_getElem hv]
    · cases h

/-! ### the batches -/

/-- contributions of one sample before weighting -/
def rawRow (E : NumEnv) (c : Config) (N : Net) (s : Sample) : List ℚ :=
  List.zipWith (contribution E) (sampleOut E c N s.input).pred s.target

theorem mapM_append_ok {α β ε} {f : α → Except ε β} {a b : List α} {r : List β} :
    (a ++ b).mapM f = .ok r ↔ ∃ x y, a.mapM f = .ok x ∧ b.mapM f = .ok y ∧ r = x ++ y := by
  rw [List.mapM_append]
  constructor
  · intro h
    obtain ⟨x, hx, h⟩ := ebind_ok.1 h
    obtain ⟨y, hy, h⟩ := ebind_ok.1 h
    cases h
    exact ⟨x, y, hx, hy, rfl⟩
  · rintro ⟨x, y, hx, hy, rfl⟩
    rw [hx, hy]; rfl

theorem inferBatch_ok {E : NumEnv} {c : Config} {N : Net} {pct : List ℚ} (hd : 0 < c.dataDim) (hg : 0 < c.gatWindow)
    {o o' : InferOut} {b : List Sample} :
    inferBatch E c N pct o b = .ok o' ↔ (∀ s ∈ b, Fits c s.input) ∧
      ∃ w, (b.map (rawRow E c N)).mapM (fun r => weightRow r pct) = .ok w ∧
        o' = ⟨appendResult o.contrib w, appendResult o.total (w.map npMean),
          appendResult o.attn (b.map fun s => (sampleOut E c N s.input).attn)⟩ := by
  have hz : List.zipWith (fun (n : NetOut) (s : Sample) => List.zipWith (contribution E) n.pred s.target)
      (b.map fun s => sampleOut E c N s.input) b = b.map (rawRow E c N) := by
    have := zipWith_maps (fun (n : NetOut) (s : Sample) => List.zipWith (contribution E) n.pred s.target)
      (fun s => sampleOut E c N s.input) id b
    rw [List.map_id] at this
    exact this
  unfold inferBatch
  constructor
  · intro h
    obtain ⟨out, hout, h⟩ := ebind_ok.1 h
    obtain ⟨w, hw, h⟩ := ebind_ok.1 h
    rw [epure_ok] at h
    obtain ⟨hf, rfl⟩ := (forward_ok_iff hd hg).1 hout
    rw [List.map_map] at hw h
    refine ⟨fun s hs => hf _ (List.mem_map.2 ⟨s, hs, rfl⟩), w, ?_, ?_⟩
    · rw [← hz]; exact hw
    · rw [← h, List.map_map]; rfl
  · rintro ⟨hf, w, hw, rfl⟩
    have hout : forward E c N (b.map (·.input)) = .ok ((b.map (·.input)).map (sampleOut E c N)) :=
      (forward_ok_iff hd hg).2 ⟨fun x hx => by obtain ⟨s, hs, rfl⟩ := List.mem_map.1 hx; exact hf s hs, rfl⟩
    rw [hout]
    simp only [Bind.bind, Except.bind, List.map_map]
    rw [show (List.map (sampleOut E c N ∘ fun x => x.input) b) = b.map fun s => sampleOut E c N s.input from rfl, hz, hw]
    rfl

/-- what the batches collect, starting from `o` -/
def collected (o : InferOut) (w : List (List ℚ)) (a : List (List (List ℚ))) : InferOut :=
  if w = [] then o else ⟨appendResult o.contrib w, appendResult o.total (w.map npMean), appendResult o.attn a⟩

theorem appendResult_append {α} (o : Option (List α)) (a b : List α) :
    appendResult (appendResult o a) b = appendResult o (a ++ b) := by
  cases o <;> simp [appendResult]

theorem collected_step (o : InferOut) {w1 w2 : List (List ℚ)} {a1 a2 : List (List (List ℚ))} (h1 : w1 ≠ [])
    (h2 : w2 = [] → a2 = []) :
    collected ⟨appendResult o.contrib w1, appendResult o.total (w1.map npMean), appendResult o.attn a1⟩ w2 a2 =
      collected o (w1 ++ w2) (a1 ++ a2) := by
  unfold collected
  rw [if_neg (show ¬ (w1 ++ w2 = []) by simp [h1])]
  by_cases h : w2 = []
  · rw [if_pos h, h, h2 h, List.append_nil, List.append_nil]
  · rw [if_neg h]
    simp only [appendResult_append, List.map_append]

theorem inferFold_ok {E : NumEnv} {c : Config} {N : Net} {pct : List ℚ} (hd : 0 < c.dataDim) (hg : 0 < c.gatWindow)
    {n : Nat} (hn : 0 < n) (samples : List Sample) (o o' : InferOut) :
    (chunk n samples).foldlM (inferBatch E c N pct) o = .ok o' ↔ (∀ s ∈ samples, Fits c s.input) ∧
      ∃ w, (samples.map (rawRow E c N)).mapM (fun r => weightRow r pct) = .ok w ∧
        o' = collected o w (samples.map fun s => (sampleOut E c N s.input).attn) := by
  induction samples using chunk_induction hn generalizing o with
  | h0 =>
    rw [chunk_nil hn, List.foldlM_nil]
    constructor
    · intro h
      cases h
      exact ⟨by simp, [], rfl, rfl⟩
    · rintro ⟨-, w, hw, rfl⟩
      cases hw
      rfl
  | h1 l hl ih =>
    rw [chunk_cons hn hl, List.foldlM_cons]
    have hpos : 0 < l.length := List.length_pos_iff.2 hl
    constructor
    · intro h
      obtain ⟨o1, h1, h2⟩ := ebind_ok.1 h
      obtain ⟨hf1, w1, hw1, rfl⟩ := (inferBatch_ok hd hg).1 h1
      obtain ⟨hf2, w2, hw2, rfl⟩ := (ih _).1 h2
      refine ⟨?_, w1 ++ w2, ?_, ?_⟩
      · intro s hs
        rw [← List.take_append_drop n l] at hs
        rcases List.mem_append.1 hs with h | h
        · exact hf1 s h
        · exact hf2 s h
      · rw [← List.take_append_drop n l, List.map_append, mapM_append_ok]
        exact ⟨w1, w2, hw1, hw2, rfl⟩
      · rw [collected_step o, ← List.map_append, List.take_append_drop]
        · intro e
          have := mapM_ok_length hw1
          rw [e] at this
          simp at this
          omega
        · intro e
          have := mapM_ok_length hw2
          rw [e] at this
          rw [List.length_map] at this
          rw [List.length_eq_zero_iff.1 this.symm]
          rfl
    · rintro ⟨hf, w, hw, rfl⟩
      rw [← List.take_append_drop n l, List.map_append, mapM_append_ok] at hw
      obtain ⟨w1, w2, hw1, hw2, rfl⟩ := hw
      have hw1l : w1 ≠ [] := by
        intro e
        have := mapM_ok_length hw1
        rw [e] at this
        simp at this
        omega
      have hf1 : ∀ s ∈ l.take n, Fits c s.input := fun s hs => hf s (List.mem_of_mem_take hs)
      have h1 : inferBatch E c N pct o (l.take n) = .ok ⟨appendResult o.contrib w1, appendResult o.total (w1.map npMean),
          appendResult o.attn ((l.take n).map fun s => (sampleOut E c N s.input).attn)⟩ :=
        (inferBatch_ok hd hg).2 ⟨hf1, w1, hw1, rfl⟩
      rw [h1]
      show List.foldlM _ _ _ = _
      rw [ih]
      refine ⟨fun s hs => hf s (List.mem_of_mem_drop hs), w2, hw2, ?_⟩
      rw [collected_step o hw1l, ← List.map_append, List.take_append_drop]
      intro e
      have := mapM_ok_length hw2
      rw [e] at this
      rw [List.length_map] at this
      rw [List.length_eq_zero_iff.1 this.symm]
      rfl

/-! ### the samples of inference -/

theorem pyIndex_ok {α} {l : List α} {i : Nat} (h : i < l.length) : pyIndex l (i : Int) = .ok l[i] := by
  unfold pyIndex
  simp only [show ¬ ((i : Int) < 0) by omega, if_false, Int.toNat_natCast, List.getElem?_eq_getElem h]

theorem inferSet_ends (c : Config) (base : List ℚ × List ℚ) (rows : List (List ℚ)) :
    (inferSet c base rows).ends = (List.range (rows.length - c.inputSize)).map fun j => c.inputSize + j := by
  unfold Dataset.ends inferSet
  simp

/-- a sample and the row it belongs to -/
structure SampleAt (E : NumEnv) (D : Dataset) (d hi t : Nat) (s : Sample) : Prop where
  len : s.input.length = D.window
  width : ∀ y ∈ s.input, y.length = bcLen d D.mins.length
  twidth : s.target.length = bcLen d D.mins.length
  input : ∀ i, ∀ h : i < s.input.length, ∀ v, ∀ hv : v < s.input[i].length,
    s.input[i][v] = E.f32 (minmax (entry D.mins v) (entry D.maxs v) D.clipMin D.clipMax
      (entry (D.data.getD (hi - D.window + i) []) v))
  target : ∀ v, ∀ hv : v < s.target.length,
    s.target[v] = E.f32 (minmax (entry D.mins v) (entry D.maxs v) D.clipMin D.clipMax (entry (D.data.getD t []) v))

theorem get_ok {E : NumEnv} {D : Dataset} (hl : D.mins.length = D.maxs.length) {d : Nat}
    (hd : ∀ r ∈ D.data, r.length = d) {hi t : Nat} (hw : D.window ≤ hi) (hhi : hi ≤ D.data.length)
    (ht : (t : Int) = (hi : Int) - 1 + D.horizon) (htd : t < D.data.length) {s : Sample} (h : D.get E hi = .ok s) :
    SampleAt E D d hi t s := by
  unfold Dataset.get at h
  rw [← ht, pyIndex_ok htd] at h
  obtain ⟨row, hrow, h⟩ := ebind_ok.1 h
  obtain ⟨x, hx, h⟩ := ebind_ok.1 h
  obtain ⟨y, hy, h⟩ := ebind_ok.1 h
  rw [epure_ok] at h
  subst h
  cases hrow
  have hwr : (D.windowRows hi).length = D.window := by
    unfold Dataset.windowRows
    simp; omega
  have hxl := mapM_ok_length hx
  rw [hwr] at hxl
  have hy' := normRow_ok hl hy
  have hrowx : ∀ i, ∀ h : i < x.length, x[i].length = bcLen d D.mins.length ∧ ∀ v, ∀ hv : v < x[i].length,
      x[i][v] = minmax (entry D.mins v) (entry D.maxs v) D.clipMin D.clipMax
        (entry (D.data.getD (hi - D.window + i) []) v) := by
    intro i h
    have hi1 : i < (D.windowRows hi).length := by omega
    have := normRow_ok hl (mapM_ok_get hx hi1)
    have e : (D.windowRows hi)[i] = D.data[hi - D.window + i]'(by omega) := by
      have e1 : D.windowRows hi = (D.data.drop (hi - D.window)).take D.window := rfl
      simp only [e1, List.getElem_take, List.getElem_drop]
    have hid : hi - D.window + i < D.data.length := by omega
    rw [e] at this
    rw [hd _ (List.getElem_mem hid)] at this
    rw [List.getD_eq_getElem _ _ hid]
    exact this
  refine ⟨by simpa using hxl, ?_, ?_, ?_, ?_⟩
  · intro z hz
    obtain ⟨z0, hz0, rfl⟩ := List.mem_map.1 hz
    obtain ⟨i, hi2, rfl⟩ := List.mem_iff_getElem.1 hz0
    rw [List.length_map]
    exact (hrowx i hi2).1
  · simp only [List.length_map]
    rw [hy'.1, hd _ (List.getElem_mem htd)]
  · intro i h v hv
    simp only [List.length_map] at h
    simp only [List.getElem_map, List.length_map] at hv
    simp only [List.getElem_map]
    rw [(hrowx i h).2 v hv]
  · intro v hv
    simp only [List.length_map] at hv
    simp only [List.getElem_map]
    rw [hy'.2 v hv, List.getD_eq_getElem _ _ htd]

theorem inferSamples_ok {E : NumEnv} {c : Config} {base : List ℚ × List ℚ} {rows : List (List ℚ)} {d : Nat}
    (hl : base.2.length = base.1.length) (hd : ∀ r ∈ rows, r.length = d) {ss : List Sample}
    (h : (inferSet c base rows).samples E = .ok ss) :
    ss.length = rows.length - c.inputSize ∧ ∀ j, ∀ hj : j < ss.length,
      SampleAt E (inferSet c base rows) d (c.inputSize + j) (c.inputSize + j) ss[j] := by
  unfold Dataset.samples at h
  rw [inferSet_ends] at h
  have hlen := mapM_ok_length h
  simp only [List.length_map, List.length_range] at hlen
  refine ⟨hlen, fun j hj => ?_⟩
  have := mapM_ok_get h (i := j) (by simp; omega)
  simp only [List.getElem_map, List.getElem_range] at this
  refine get_ok (D := inferSet c base rows) hl hd (by simp [inferSet]) ?_ ?_ ?_ this
  · show c.inputSize + j ≤ rows.length
    omega
  · show ((c.inputSize + j : Nat) : Int) = ((c.inputSize + j : Nat) : Int) - 1 + ((1 : Nat) : Int)
    omega
  · show c.inputSize + j < rows.length
    omega

theorem clip_eq {lo hi x : ℚ} (h : lo ≤ hi) : npClip x lo hi = max lo (min hi x) := by
  unfold npClip
  rw [min_comm, max_comm x lo]
  rcases le_total x lo with h1 | h1
  · rw [max_eq_left h1, min_eq_right h, min_eq_right (h1.trans h), max_eq_left h1]
  · rw [max_eq_right h1]
    rw [max_eq_right (le_min h h1)]

/-- what the scores depend on -/
def scorer (E : NumEnv) (c : Config) (base : List ℚ × List ℚ) (m : Config) (N : Net) (pct : List ℚ) : Scorer :=
  { E := E, input := c.inputSize, dim := m.dataDim, mins := base.2, maxs := base.1, weights := pct,
    forecast := fun x => (sampleOut E m N x).pred, attention := fun x => (sampleOut E m N x).attn }

theorem entry_row {rows : List (List ℚ)} {d : Nat} (hd : ∀ r ∈ rows, r.length = d) {r v : Nat} (hr : r < rows.length)
    (hv : v < d) : entry (rows.getD r []) v = cell rows r v := by
  unfold cell
  rw [List.getD_eq_getElem _ _ hr]
  have := hd _ (List.getElem_mem hr)
  rw [entry_getElem (by omega), List.getD_eq_getElem _ _ (by omega)]

/-- the sample of row `r`, when the table has as many columns as the network expects -/
theorem sample_eq {E : NumEnv} {c m : Config} {base : List ℚ × List ℚ} {N : Net} {pct : List ℚ} {rows : List (List ℚ)}
    (hd : ∀ r ∈ rows, r.length = m.dataDim) {j : Nat} (hj : c.inputSize + j < rows.length) {s : Sample}
    (hb : bcLen m.dataDim base.2.length = m.dataDim)
    (h : SampleAt E (inferSet c base rows) m.dataDim (c.inputSize + j) (c.inputSize + j) s) :
    s.input = (scorer E c base m N pct).window rows (c.inputSize + j) ∧
      s.target = (List.range m.dataDim).map ((scorer E c base m N pct).normed rows (c.inputSize + j)) := by
  have hlen : s.input.length = c.inputSize := h.len
  have hmins : (inferSet c base rows).mins = base.2 := rfl
  have hnorm : ∀ r v, r < rows.length → v < m.dataDim →
      E.f32 (minmax (entry base.2 v) (entry base.1 v) (-1000) 1000 (entry (rows.getD r []) v)) =
        (scorer E c base m N pct).normed rows r v := by
    intro r v hr hv
    unfold Scorer.normed minmax
    rw [entry_row hd hr hv, clip_eq (by norm_num)]
    rfl
  constructor
  · apply List.ext_getElem
    · simp [Scorer.window, scorer, hlen]
    · intro i h1 h2
      have hw := h.width _ (List.getElem_mem h1)
      rw [hmins, hb] at hw
      apply List.ext_getElem
      · rw [hw]; simp [Scorer.window, scorer]
      · intro v h3 h4
        rw [h.input i h1 v h3]
        have hv : v < m.dataDim := by omega
        have hr : c.inputSize + j - c.inputSize + i < rows.length := by omega
        have := hnorm _ _ hr hv
        simp only [Scorer.window, List.getElem_map, List.getElem_range]
        rw [← show (scorer E c base m N pct).normed rows (c.inputSize + j - c.inputSize + i) v =
          (scorer E c base m N pct).normed rows
            (c.inputSize + j - (scorer E c base m N pct).input + i) v from rfl]
        rw [← this]
        rfl
  · have hw := h.twidth
    rw [hmins, hb] at hw
    apply List.ext_getElem
    · rw [hw]; simp
    · intro v h3 h4
      rw [h.target v h3, List.getElem_map, List.getElem_range]
      exact hnorm _ _ hj (by omega)

end Verif.Multi
