import Verif.Props.MultiOffset
import Mathlib.Algebra.Order.Group.MinMax
import Mathlib.Tactic.FieldSimp
import Mathlib.Tactic.GCongr

/-!
# The unit of a variable (C136)

Fitting and predicting with tables in which one variable is given in another unit.
-/

namespace Verif

open Multi Spec

namespace Spec

/-- a cell times a factor -/
def mulCell (k : ℚ) : Cell → Cell
  | .num q => .num (k * q)
  | c => c

/-- the table with variable `n` multiplied by `K n` -/
def mulFrame (K : String → ℚ) (f : Frame) : Frame := ⟨f.index, f.cols.map fun c => ⟨c.name, c.cells.map (mulCell (K c.name))⟩⟩

end Spec

theorem clip_dist (lo hi a b : ℚ) : |npClip a lo hi - npClip b lo hi| ≤ |a - b| := by
  unfold npClip
  exact (abs_min_sub_min_le_max _ _ _ _).trans (max_le ((abs_max_sub_max_le_max _ _ _ _).trans (max_le le_rfl (by simp))) (by simp))

theorem minmax_scale {c mn mx x : ℚ} (hc : 1 ≤ c) (h1 : mn ≤ x) (h2 : x ≤ mx) (lo hi : ℚ) :
    |minmax (c * mn) (c * mx) lo hi (c * x) - minmax mn mx lo hi x| ≤ 1 / 10 ^ 8 / (mx - mn + 1 / 10 ^ 8) := by
  refine (clip_dist _ _ _ _).trans ?_
  have e : (1 : ℚ) / 100000000 = 1 / 10 ^ 8 := by norm_num
  rw [e, ← mul_sub, ← mul_sub]
  obtain ⟨u, hu⟩ : ∃ u, u = x - mn := ⟨_, rfl⟩
  obtain ⟨r, hr⟩ : ∃ r, r = mx - mn := ⟨_, rfl⟩
  rw [← hu, ← hr]
  have hu0 : 0 ≤ u := by linarith
  have hur : u ≤ r := by linarith
  generalize hε : (1 : ℚ) / 10 ^ 8 = ε
  have hε0 : 0 < ε := by rw [← hε]; positivity
  have d1 : 0 < r + ε := by linarith
  have d2 : 0 < c * r + ε := by
    have : 0 ≤ c * r := mul_nonneg (by linarith) (by linarith)
    linarith
  have hdiff : c * u / (c * r + ε) - u / (r + ε) = ε * (u * (c - 1)) / ((r + ε) * (c * r + ε)) := by
    field_simp
    ring
  rw [hdiff, abs_of_nonneg (by
    have : 0 ≤ c - 1 := by linarith
    positivity), div_le_div_iff₀ (by positivity) d1]
  have h3 : u * (c - 1) ≤ c * r + ε := by
    have : u * (c - 1) ≤ r * (c - 1) := mul_le_mul_of_nonneg_right hur (by linarith)
    nlinarith
  calc ε * (u * (c - 1)) * (r + ε) ≤ ε * (c * r + ε) * (r + ε) := by
        gcongr
    _ = ε * ((r + ε) * (c * r + ε)) := by ring

/-- **C136** (what the network is given). Let a row of values lie between the smallest and the largest values of the training, for every variable. If variables
are multiplied by factors of at least 1, in the row and in the training, then each normalised value moves by at most `1e-8 / (max - min + 1e-8)`, where `max`
and `min` are those of the variable before. -/
theorem C136_inputs {mn mx row cs : List ℚ} {lo hi : ℚ} (l1 : mn.length = row.length) (l2 : mx.length = row.length) (l3 : cs.length = row.length)
    (hc : ∀ c ∈ cs, 1 ≤ c) (h : ∀ (i : Nat) (a x b : ℚ), mn[i]? = some a → row[i]? = some x → mx[i]? = some b → a ≤ x ∧ x ≤ b) {out out' : List ℚ}
    (ho : normRow mn mx lo hi row = .ok out)
    (ho' : normRow (List.zipWith (· * ·) cs mn) (List.zipWith (· * ·) cs mx) lo hi (List.zipWith (· * ·) cs row) = .ok out') :
    out.length = row.length ∧ out'.length = row.length ∧ ∀ (i : Nat) (y y' a b : ℚ), out[i]? = some y → out'[i]? = some y' → mn[i]? = some a →
      mx[i]? = some b → |y' - y| ≤ 1 / 10 ^ 8 / (b - a + 1 / 10 ^ 8) := by
  unfold normRow at ho ho'
  rw [if_pos l1.symm] at ho
  rw [if_pos (by simp [l1, l3])] at ho'
  have ho := Except.ok.inj ho
  have ho' := Except.ok.inj ho'
  refine ⟨by rw [← ho]; simp [l1, l2], by rw [← ho']; simp [l1, l2, l3], fun i y y' a b hy hy' ha hb => ?_⟩
  rw [← ho] at hy
  rw [← ho'] at hy'
  have hir : i < row.length := by
    rw [← l1]
    exact (List.getElem?_eq_some_iff.1 ha).1
  have hx : row[i]? = some row[i] := List.getElem?_eq_getElem hir
  obtain ⟨c, hcs⟩ : ∃ c, cs[i]? = some c := ⟨_, List.getElem?_eq_getElem (l3 ▸ hir)⟩
  obtain ⟨x, hx⟩ : ∃ x, row[i]? = some x := ⟨_, hx⟩
  simp only [List.zip, List.getElem?_zipWith, ha, hb, hx, hcs] at hy hy'
  rw [← Option.some.inj hy, ← Option.some.inj hy']
  obtain ⟨h1, h2⟩ := h i _ _ _ ha hx hb
  exact minmax_scale (hc _ (List.mem_of_getElem? hcs)) h1 h2 lo hi

/-- `C136_inputs`: metres become millimetres in the first of two variables -/
example : ∃ out out' : List ℚ, normRow [0, 5] [2, 9] (-1) 4 [1, 7] = .ok out ∧ normRow [0, 5] [2000, 9] (-1) 4 [1000, 7] = .ok out' ∧ out ≠ out' ∧
    ∀ (i : Nat) (y y' : ℚ), out[i]? = some y → out'[i]? = some y' → |y' - y| ≤ 1 / 10 ^ 8 := by
  obtain ⟨out, h⟩ : ∃ out, normRow [0, 5] [2, 9] (-1) 4 [1, 7] = .ok out := ⟨_, rfl⟩
  obtain ⟨out', h'⟩ : ∃ out, normRow (List.zipWith (· * ·) [1000, 1] [0, 5]) (List.zipWith (· * ·) [1000, 1] [2, 9]) (-1) 4
      (List.zipWith (· * ·) [1000, 1] [1, 7]) = .ok out := ⟨_, rfl⟩
  have e1 : List.zipWith (· * ·) [1000, 1] [0, 5] = ([0, 5] : List ℚ) := by norm_num
  have e2 : List.zipWith (· * ·) [1000, 1] [2, 9] = ([2000, 9] : List ℚ) := by norm_num
  have e3 : List.zipWith (· * ·) [1000, 1] [1, 7] = ([1000, 7] : List ℚ) := by norm_num
  have hb : ∀ (i : Nat) (a x b : ℚ), [0, 5][i]? = some a → [1, 7][i]? = some x → [2, 9][i]? = some b → a ≤ x ∧ x ≤ b := by
    intro i a x b h1 h2 h3
    match i with
    | 0 => cases h1; cases h2; cases h3; norm_num
    | 1 => cases h1; cases h2; cases h3; norm_num
    | i + 2 => cases h1
  obtain ⟨k1, k2, k3⟩ := C136_inputs (mn := [0, 5]) (mx := [2, 9]) (row := [1, 7]) (cs := [1000, 1]) rfl rfl rfl (by intro c hc; simp only [List.mem_cons, List.not_mem_nil, or_false] at hc; rcases hc with rfl | rfl <;> norm_num) hb h h'
  rw [e1, e2, e3] at h'
  refine ⟨out, out', h, h', ?_, fun i y y' hy hy' => ?_⟩
  · rintro rfl
    rw [← h'] at h
    revert h
    decide +kernel
  · have hi : i < 2 := by
      have := (List.getElem?_eq_some_iff.1 hy).1
      rw [k1] at this
      exact this
    have : ∀ r : ℚ, 2 ≤ r → 1 / 10 ^ 8 / (r + 1 / 10 ^ 8) ≤ (1 / 10 ^ 8 : ℚ) := fun r hr => by
      apply div_le_self (by norm_num)
      have : (0 : ℚ) < 1 / 10 ^ 8 := by norm_num
      linarith
    match i with
    | 0 => exact (k3 0 y y' 0 2 hy hy' rfl rfl).trans (this _ (by norm_num))
    | 1 => exact (k3 1 y y' 5 9 hy hy' rfl rfl).trans (this _ (by norm_num))

/-- a variable that goes up and down, beside a calm one -/
def swingTrain : Frame :=
  ⟨[0, 1, 2, 3, 4, 5, 6, 7, 8, 9], [column "b" [5, 6, 7, 8, 9, 8, 7, 6, 5, 6], column "a" [1, 10, 1, 13, 1, 10, 1, 12, 1, 12]]⟩

def swingTest : Frame :=
  ⟨[20, 21, 22, 23, 24, 25, 26], [column "b" [5, 6, 5, 6, 5, 6, 5], ⟨"a", [.num 1, .nan, .num 1, .num 12, .num 19, .num 12, .num 1]⟩]⟩

/-- the factor `k` for the variable `a` -/
def unitOfA (k : ℚ) : String → ℚ := fun n => if n = "a" then k else 1

/-- train on one table and predict on another, the variable `a` multiplied by `k` in both -/
def unitProgram (k : ℚ) (train test : Frame) : List Call :=
  [.fit (.frame (mulFrame (unitOfA k) train)), .params trainParams, .predict (.frame (mulFrame (unitOfA k) test))]

/-- the rows that the last call reports as anomalies -/
def lastFlags (l : List (Except Stop (List Multi.Item))) : Option (List Bool) :=
  match l.getLast? with
  | some (.ok items) => some (items.map (·.isAnomaly))
  | _ => none

/-- **C136** (the unit of a variable matters): there are a training library, a training table and a test table such that three of four rows are reported as
anomalies when one variable is multiplied by 1/1000 in both tables, and only two when it is multiplied by 1/100000. -/
theorem C136_volatile : ∃ (train test : Frame), TrainWF demoT ∧
    lastFlags (outcomes demoT.env ⟨{}, fun _ => .missing, trainParams⟩ (unitProgram (1 / 1000) train test)) = some [false, true, true, true] ∧
    lastFlags (outcomes demoT.env ⟨{}, fun _ => .missing, trainParams⟩ (unitProgram (1 / 100000) train test)) = some [false, true, false, true] := by
  refine ⟨swingTrain, swingTest, ?_, ?_, ?_⟩
  · exact demoT_wf
  · decide +kernel
  · decide +kernel

/-- **C136** (very small numbers): there are a training table and a test table such that three of four rows are reported as anomalies, and only two of them
when one variable is given in a unit a thousand million times larger. -/
theorem C136_tiny : ∃ (train test : Frame), TrainWF demoT ∧
    lastFlags (outcomes demoT.env ⟨{}, fun _ => .missing, trainParams⟩ (unitProgram 1 train test)) = some [false, true, true, true] ∧
    lastFlags (outcomes demoT.env ⟨{}, fun _ => .missing, trainParams⟩ (unitProgram (1 / 10 ^ 9) train test)) = some [false, false, true, true] := by
  refine ⟨calmTrain, calmTest, ?_, ?_, ?_⟩
  · exact demoT_wf
  · decide +kernel
  · decide +kernel

end Verif
