import Verif.Multi.Lemmas

/-!
# The network, one sample at a time
-/

namespace Verif.Multi

/-- the pooled series of the variables of one sample: `data_dim` rows -/
def featOf (c : Config) (s : List (List ℚ)) : List (List ℚ) :=
  (transpose c.dataDim s).map fun l => adaptiveMax c.gatWindow (movingAvg c.kernel l)

/-- the attention map of one sample -/
def attnOf (E : NumEnv) (wk wq : List ℚ) (x : List (List ℚ)) : List (List ℚ) :=
  x.map fun r => softmax E (x.map fun q => leaky (dot r wk + dot q wq))

/-- the attention features of one sample (permuted) -/
def gatOf (E : NumEnv) (wk wq : List ℚ) (f : Nat) (x : List (List ℚ)) : List (List ℚ) :=
  transpose f (matMul f (attnOf E wk wq x) x)

/-- the network on one sample -/
def sampleOut (E : NumEnv) (c : Config) (N : Net) (s : List (List ℚ)) : NetOut :=
  let feat := featOf c s
  let time := transpose c.gatWindow feat
  let hTime := transpose c.gatWindow (gatOf E N.timeKey N.timeQuery c.dataDim time)
  let hFeat := gatOf E N.featKey N.featQuery c.gatWindow feat
  heads E c N (catRows time hFeat hTime) (attnOf E N.featKey N.featQuery feat)

theorem transpose_length (n : Nat) (m : List (List ℚ)) : (transpose n m).length = n := by simp [transpose]

theorem featOf_length (c : Config) (s : List (List ℚ)) : (featOf c s).length = c.dataDim := by
  simp [featOf, transpose_length]

theorem smoothPool_eq (c : Config) (hd : 0 < c.dataDim) (x : List (List (List ℚ))) :
    smoothPool c x = x.map (featOf c) := by
  unfold smoothPool
  dsimp only
  rw [List.map_flatten, chunk_of_flatten hd]
  · simp only [List.map_map]
    apply List.map_congr_left
    intro s _
    simp [featOf]
  · intro l hl
    simp only [List.map_map, List.mem_map, Function.comp_apply] at hl
    obtain ⟨s, -, rfl⟩ := hl
    simp [transpose_length]

theorem zipWith_maps {α β γ δ} (f : β → γ → δ) (g : α → β) (h : α → γ) (l : List α) :
    List.zipWith f (l.map g) (l.map h) = l.map fun a => f (g a) (h a) := by
  induction l with
  | nil => rfl
  | cons a t ih => simp [ih]

theorem vadd_replicate (k : ℚ) (qs : List ℚ) :
    vadd (List.replicate qs.length k) qs = qs.map (k + ·) := by
  unfold vadd
  induction qs with
  | nil => rfl
  | cons a t ih => simp only [List.length_cons, List.replicate_succ, List.zipWith_cons_cons, ih, List.map_cons]

theorem vadd_repeat (ks qs : List ℚ) (m : Nat) (hm : m = qs.length) :
    vadd (ks.flatMap fun k => List.replicate m k) (List.replicate ks.length qs).flatten =
      (ks.map fun k => qs.map (k + ·)).flatten := by
  subst hm
  induction ks with
  | nil => rfl
  | cons a t ih =>
    rw [List.flatMap_cons, List.length_cons, List.replicate_succ, List.flatten_cons, List.map_cons, List.flatten_cons,
      ← ih, ← vadd_replicate]
    unfold vadd
    rw [List.zipWith_append (by simp)]

theorem attnMaps_eq (E : NumEnv) (wk wq : List ℚ) {n : Nat} (hn : 0 < n) {x : List (List (List ℚ))}
    (hx : ∀ s ∈ x, s.length = n) : attnMaps E wk wq n x = x.map (attnOf E wk wq) := by
  have hkeys : repeatKeys n (x.map fun s => s.map fun r => dot r wk) =
      x.map fun s => (s.map fun r => dot r wk).flatMap fun k => List.replicate n k := by
    unfold repeatKeys
    rw [List.flatMap_map, List.flatMap_def, chunk_of_flatten (Nat.mul_pos hn hn)]
    intro l hl
    obtain ⟨s, hs, rfl⟩ := List.mem_map.1 hl
    simp [List.length_flatMap, Function.comp_def, List.map_const', hx s hs]
  unfold attnMaps
  dsimp only
  rw [hkeys]
  unfold repeatQueries
  rw [List.map_map, zipWith_maps]
  have hin : (x.map fun s => vadd ((s.map fun r => dot r wk).flatMap fun k => List.replicate n k)
        (((fun qs => (List.replicate n qs).flatten) ∘ fun s => s.map fun r => dot r wq) s)) =
      x.map fun s => (s.map fun r => s.map fun q => dot r wk + dot q wq).flatten := by
    apply List.map_congr_left
    intro s hs
    have := vadd_repeat (s.map fun r => dot r wk) (s.map fun r => dot r wq) n (by simp [hx s hs])
    rw [List.length_map, hx s hs] at this
    simp only [Function.comp_apply]
    rw [this]
    simp [List.map_map, Function.comp_def]
  rw [hin]
  unfold viewSquare
  have hflat : (x.map fun s => (s.map fun r => s.map fun q => dot r wk + dot q wq).flatten).flatten =
      ((x.map fun s => s.map fun r => s.map fun q => dot r wk + dot q wq).flatten).flatten := by
    clear hx hkeys hin
    induction x with
    | nil => rfl
    | cons a t ih => simp [ih]
  rw [hflat, chunk_of_flatten hn, chunk_of_flatten hn]
  · rw [List.map_map]
    apply List.map_congr_left
    intro s _
    simp only [Function.comp_apply, attnOf, List.map_map, Function.comp_def]
  · intro l hl
    obtain ⟨s, hs, rfl⟩ := List.mem_map.1 hl
    simp [hx s hs]
  · intro l hl
    obtain ⟨m, hm, hl⟩ := List.mem_flatten.1 hl
    obtain ⟨s, hs, rfl⟩ := List.mem_map.1 hm
    obtain ⟨r, -, rfl⟩ := List.mem_map.1 hl
    simp [hx s hs]

theorem gat_eq (E : NumEnv) (wk wq : List ℚ) {n : Nat} (f : Nat) (hn : 0 < n) {x : List (List (List ℚ))}
    (hx : ∀ s ∈ x, s.length = n) :
    gat E wk wq n f x = (x.map (gatOf E wk wq f), x.map (attnOf E wk wq)) := by
  unfold gat
  dsimp only
  rw [attnMaps_eq E wk wq hn hx]
  congr 1
  have := zipWith_maps (fun a s => transpose f (matMul f a s)) (attnOf E wk wq) id x
  rw [List.map_id] at this
  exact this

/-- a sample the network accepts -/
def Fits (c : Config) (s : List (List ℚ)) : Prop := c.kernel ≤ s.length ∧ ∀ r ∈ s, r.length = c.dataDim

theorem forward_ok_iff {E : NumEnv} {c : Config} {N : Net} {x : List (List (List ℚ))} (hd : 0 < c.dataDim)
    (hg : 0 < c.gatWindow) {o : List NetOut} :
    forward E c N x = .ok o ↔ (∀ s ∈ x, Fits c s) ∧ o = x.map (sampleOut E c N) := by
  have hcond : (x.all fun s => decide (c.kernel ≤ s.length) && s.all fun r => decide (r.length = c.dataDim)) = true ↔
      ∀ s ∈ x, Fits c s := by
    simp [Fits]
  have key : (List.zipWith (fun (s : (List (List ℚ) × List (List ℚ)) × List (List ℚ)) a => heads E c N (catRows s.1.1 s.2 s.1.2) a)
      (List.zipWith (fun s hf => (s, hf))
        (List.zipWith (fun x ht => (x, ht)) ((smoothPool c x).map (transpose c.gatWindow))
          ((gat E N.timeKey N.timeQuery c.gatWindow c.dataDim ((smoothPool c x).map (transpose c.gatWindow))).1.map
            (transpose c.gatWindow)))
        (gat E N.featKey N.featQuery c.dataDim c.gatWindow (smoothPool c x)).1)
      (gat E N.featKey N.featQuery c.dataDim c.gatWindow (smoothPool c x)).2) = x.map (sampleOut E c N) := by
    rw [smoothPool_eq c hd, gat_eq E _ _ _ hg, gat_eq E _ _ _ hd]
    · simp only [List.map_map, zipWith_maps]
      rfl
    · intro s hs
      obtain ⟨t, -, rfl⟩ := List.mem_map.1 hs
      exact featOf_length c t
    · intro s hs
      rw [List.map_map] at hs
      obtain ⟨t, -, rfl⟩ := List.mem_map.1 hs
      exact transpose_length _ _
  unfold forward
  dsimp only
  split
  · rename_i h
    rw [hcond] at h
    rw [key]
    simp only [Except.ok.injEq]
    exact ⟨fun e => ⟨h, e.symm⟩, fun e => e.2.symm⟩
  · rename_i h
    rw [hcond] at h
    constructor
    · intro e; cases e
    · intro e; exact absurd e.1 h

theorem forward_error {E : NumEnv} {c : Config} {N : Net} {x : List (List (List ℚ))} (h : ¬ ∀ s ∈ x, Fits c s) :
    forward E c N x = .error .runtimeError := by
  have hcond : (x.all fun s => decide (c.kernel ≤ s.length) && s.all fun r => decide (r.length = c.dataDim)) = true ↔
      ∀ s ∈ x, Fits c s := by
    simp [Fits]
  unfold forward
  dsimp only
  rw [if_neg (by rw [hcond]; exact h)]

end Verif.Multi
