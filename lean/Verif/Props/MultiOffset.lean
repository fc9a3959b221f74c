import Verif.Props.MultiUnread
import Verif.Props.MultiWeights
import Verif.Props.Rename

/-!
# Theorems: adding constants to the variables

C123.
-/

namespace Verif

namespace Spec

open Multi

/-- a cell with a constant added; missing and inconvertible cells stay as they are -/
def addCell (k : ℚ) : Cell → Cell
  | .num q => .num (q + k)
  | .nan => .nan
  | .bad => .bad

/-- the table with the constant `K n` added to the column called `n` -/
def addFrame (K : String → ℚ) (f : Frame) : Frame := ⟨f.index, f.cols.map fun c => ⟨c.name, c.cells.map (addCell (K c.name))⟩⟩

/-- a dict that does not ask to fill gaps with a constant -/
def NoConstFill (p : Params) : Prop := p "fill_na_method" ≠ some (.str "Zero") ∧ p "fill_na_method" ≠ some (.str "Fixed")

/-- the columns are exactly those called `names`, all different, and none consists of missing cells only -/
structure TableOf (names : List String) (f : Frame) : Prop where
  names : (f.cols.map (·.name)).Perm names
  some : ∀ c ∈ f.cols, ∃ x ∈ c.cells, x ≠ .nan

/-- adding the constants changes for no column whether it counts as volatile, whatever the window -/
def KeepsVolatility (K : String → ℚ) (f : Frame) : Prop :=
  ∀ c ∈ f.cols, ∀ n, Volatile n (c.cells.map number) ↔ Volatile n ((c.cells.map (addCell (K c.name))).map number)

/-- the same call, on the table with the constants added -/
inductive AddCall (K : String → ℚ) (names : List String) : Call → Call → Prop where
  | params (p : Params) : AddCall K names (.params p) (.params p)
  | fit {f : Frame} (h : TableOf names f) (hv : KeepsVolatility K f) : AddCall K names (.fit (.frame f)) (.fit (.frame (addFrame K f)))
  | predict {f : Frame} (h : TableOf names f) : AddCall K names (.predict (.frame f)) (.predict (.frame (addFrame K f)))
  | load (s : Option String) : AddCall K names (.load s) (.load s)
  | path (s : Option String) : AddCall K names (.path s) (.path s)
  | remove (s : String) : AddCall K names (.file s .missing) (.file s .missing)
  | spoil (s : String) : AddCall K names (.file s .garbage) (.file s .garbage)
  | new : AddCall K names .new .new

/-- the call passes no table with missing cells -/
def Complete : Call → Prop
  | .fit (.frame f) => ∀ c ∈ f.cols, Cell.nan ∉ c.cells
  | .predict (.frame f) => ∀ c ∈ f.cols, Cell.nan ∉ c.cells
  | _ => True

/-- the call passes no dict that asks to fill gaps with a constant -/
def FillsByNeighbours : Call → Prop
  | .params p => NoConstFill p
  | _ => True

/-- nothing has been trained: no configuration, no network, no checkpoint on the disk -/
def Untrained (w : World) : Prop := w.det.config = none ∧ w.det.model = none ∧ ∀ x k, w.disk x ≠ .ckpt k

/-- a column in which neighbouring values differ by no more than their size -/
def Unswinging (col : List (Option ℚ)) : Prop := ∀ a b, some a ∈ col → some b ∈ col → b + 1 / 10000 ≠ 0 ∧ |a - b| ≤ |b + 1 / 10000|

end Spec

open Multi Spec

/-! ### columns -/

theorem ffillFrom_add (k : ℚ) (last : Option ℚ) (l : List (Option ℚ)) :
    ffillFrom (last.map (· + k)) (l.map (·.map (· + k))) = (ffillFrom last l).map (·.map (· + k)) := by
  induction l generalizing last with
  | nil => rfl
  | cons a t ih =>
    cases a with
    | none => simp only [List.map_cons, Option.map_none, ffillFrom, ih]
    | some q =>
      have := ih (some q)
      rw [Option.map_some] at this
      simp only [List.map_cons, Option.map_some, ffillFrom, this]

theorem ffill_add (k : ℚ) (l : List (Option ℚ)) : Multi.ffill (l.map (·.map (· + k))) = (Multi.ffill l).map (·.map (· + k)) :=
  ffillFrom_add k none l

theorem bfill_add (k : ℚ) (l : List (Option ℚ)) : Multi.bfill (l.map (·.map (· + k))) = (Multi.bfill l).map (·.map (· + k)) := by
  unfold Multi.bfill
  rw [← List.map_reverse, ffill_add, List.map_reverse]

theorem knotsFrom_add (k : ℚ) (i : Nat) (l : List (Option ℚ)) :
    knotsFrom i (l.map (·.map (· + k))) = (knotsFrom i l).map fun x => (x.1, x.2 + k) := by
  induction l generalizing i with
  | nil => rfl
  | cons a t ih => cases a <;> simp [knotsFrom, ih]

theorem npInterp_add (k : ℚ) {ks : List (ℚ × ℚ)} (h : ks ≠ []) (x : ℚ) :
    npInterp (ks.map fun a => (a.1, a.2 + k)) x = npInterp ks x + k := by
  induction ks with
  | nil => exact absurd rfl h
  | cons a t ih =>
    obtain ⟨x0, y0⟩ := a
    cases t with
    | nil => simp [npInterp]
    | cons b t =>
      obtain ⟨x1, y1⟩ := b
      simp only [List.map_cons, npInterp]
      split
      · rfl
      · split
        · ring
        · exact ih (by simp)

theorem interpolate_add (k : ℚ) (l : List (Option ℚ)) : interpolate (l.map (·.map (· + k))) = (interpolate l).map (·.map (· + k)) := by
  unfold interpolate
  simp only [knotsFrom_add, List.isEmpty_map]
  split
  · rfl
  · rename_i hk
    have hk' : knotsFrom 0 l ≠ [] := by simpa using hk
    apply List.ext_getElem (by simp)
    intro i h1 h2
    simp only [List.getElem_mapIdx, List.getElem_map]
    cases l[i]'(by simpa using h1) with
    | none => simp [npInterp_add k hk']
    | some q => rfl

theorem getD_add (k : ℚ) {l : List (Option ℚ)} (h : none ∉ l) (d : ℚ) :
    (l.map (·.map (· + k))).map (·.getD d) = (l.map (·.getD d)).map (· + k) := by
  rw [List.map_map, List.map_map]
  apply List.map_congr_left
  intro a ha
  cases a with
  | none => exact absurd ha h
  | some q => rfl

theorem ffillFrom_tail {last : Option ℚ} {l : List (Option ℚ)} (h : ∃ q, some q ∈ l) :
    ∃ a b, ffillFrom last l = a ++ b ∧ none ∉ b ∧ b ≠ [] := by
  induction l generalizing last with
  | nil => obtain ⟨q, hq⟩ := h; simp at hq
  | cons x t ih =>
    cases x with
    | some q =>
      refine ⟨[], _, rfl, ?_, by simp⟩
      simp only [List.mem_cons, reduceCtorEq, false_or]
      exact ffillFrom_some (by simp) t
    | none =>
      obtain ⟨q, hq⟩ := h
      obtain ⟨a, b, h1, h2, h3⟩ := ih (last := last) ⟨q, by simpa using hq⟩
      exact ⟨last :: a, b, by simp [ffillFrom, h1], h2, h3⟩

theorem ffill_of_head {l : List (Option ℚ)} {q : ℚ} {t : List (Option ℚ)} (h : l = some q :: t) : none ∉ Multi.ffill l := by
  subst h
  simp only [Multi.ffill, ffillFrom, List.mem_cons, reduceCtorEq, false_or]
  exact ffillFrom_some (by simp) t

theorem ffill_of_last {l : List (Option ℚ)} (h : ∃ q, some q ∈ l) : ∃ q t, (Multi.ffill l).reverse = some q :: t := by
  obtain ⟨a, b, h1, h2, h3⟩ := ffillFrom_tail (last := none) h
  unfold Multi.ffill
  rw [h1, List.reverse_append]
  cases hb : b.reverse with
  | nil => simp at hb; exact absurd hb h3
  | cons x t =>
    cases x with
    | none => exact absurd (List.mem_reverse.1 (hb ▸ List.mem_cons_self)) h2
    | some q => exact ⟨q, _, rfl⟩

theorem fill_both {l : List (Option ℚ)} (h : ∃ q, some q ∈ l) : none ∉ Multi.bfill (Multi.ffill l) := by
  obtain ⟨q, t, e⟩ := ffill_of_last h
  unfold Multi.bfill
  rw [List.mem_reverse]
  exact ffill_of_head e

theorem fill_both' {l : List (Option ℚ)} (h : ∃ q, some q ∈ l) : none ∉ Multi.ffill (Multi.bfill l) := by
  obtain ⟨q, t, e⟩ := ffill_of_last (l := l.reverse) (by simpa using h)
  exact ffill_of_head (l := Multi.bfill l) e

theorem knots_ne {i : Nat} {l : List (Option ℚ)} (h : ∃ q, some q ∈ l) : knotsFrom i l ≠ [] := by
  induction l generalizing i with
  | nil => obtain ⟨q, hq⟩ := h; simp at hq
  | cons x t ih =>
    cases x with
    | some q => simp [knotsFrom]
    | none =>
      obtain ⟨q, hq⟩ := h
      exact ih ⟨q, by simpa using hq⟩

theorem interpolate_full {l : List (Option ℚ)} (h : ∃ q, some q ∈ l) : none ∉ interpolate l := by
  unfold interpolate
  simp only [List.isEmpty_eq_false_iff.2 (knots_ne (i := 0) h), Bool.false_eq_true, if_false]
  intro hm
  obtain ⟨i, hi, he⟩ := List.getElem_of_mem hm
  rw [List.getElem_mapIdx] at he
  split at he <;> cases he

theorem fillCol_add (k : ℚ) {P : Processor} {l : List (Option ℚ)} (h : ∃ q, some q ∈ l)
    (hm : none ∉ l ∨ (P.method ≠ .zero ∧ P.method ≠ .fixed)) :
    P.fillCol (l.map (·.map (· + k))) = (P.fillCol l).map (·.map (· + k)) := by
  have hn : none ∈ l.map (Option.map (· + k)) ↔ none ∈ l := by simp
  unfold Processor.fillCol
  cases hP : P.method with
  | previous =>
    simp only [Except.map, ffill_add, bfill_add]
    rw [getD_add k (fill_both h)]
  | subsequent =>
    simp only [Except.map, ffill_add, bfill_add]
    rw [getD_add k (fill_both' h)]
  | linear =>
    simp only [Except.map, interpolate_add]
    rw [getD_add k (interpolate_full h)]
  | zero =>
    have hl : none ∉ l := hm.resolve_right fun hh => hh.1 hP
    simp only [Except.map]
    rw [getD_add k hl]
  | fixed =>
    have hl : none ∉ l := hm.resolve_right fun hh => hh.2 hP
    simp only [if_neg hl, if_neg (mt hn.1 hl)]
    cases P.value <;> simp only [Except.map] <;> rw [getD_add k hl]

theorem number_add (k : ℚ) (c : Cell) : number (addCell k c) = (number c).map (· + k) := by cases c <;> rfl

theorem bad_add {k : ℚ} {l : List Cell} : Cell.bad ∈ l.map (addCell k) ↔ Cell.bad ∈ l := by
  rw [List.mem_map]
  constructor
  · rintro ⟨c, hc, he⟩
    cases c <;> simp only [addCell, reduceCtorEq] at he
    exact hc
  · exact fun h => ⟨_, h, rfl⟩

theorem astype_add (k : ℚ) (l : List Cell) : astypeFloat (l.map (addCell k)) = (astypeFloat l).map (·.map (·.map (· + k))) := by
  by_cases h : Cell.bad ∈ l
  · have key : ∀ l : List Cell, Cell.bad ∈ l → astypeFloat l = none := by
      intro l h
      cases hh : astypeFloat l with
      | none => rfl
      | some r => exact absurd h (astypeFloat_some hh).2
    rw [key _ h, key _ (bad_add.2 h)]
    rfl
  · rw [astypeFloat_of h, astypeFloat_of (mt bad_add.1 h)]
    simp [Function.comp_def, number_add]

theorem column_add (k : ℚ) {P : Processor} {c : Column} (h : ∃ x ∈ c.cells, x ≠ .nan)
    (hm : Cell.nan ∉ c.cells ∨ (P.method ≠ .zero ∧ P.method ≠ .fixed)) (n : String) :
    P.column ⟨n, c.cells.map (addCell k)⟩ = (P.column c).map (·.map (· + k)) := by
  unfold Processor.column
  simp only [astype_add]
  cases ha : astypeFloat c.cells with
  | none => rfl
  | some l =>
    obtain ⟨rfl, hb⟩ := astypeFloat_some ha
    simp only [Option.map_some]
    refine fillCol_add k ?_ (hm.imp_left fun hn hh => ?_)
    · obtain ⟨x, hx, hne⟩ := h
      cases x with
      | num q => exact ⟨q, List.mem_map.2 ⟨_, hx, rfl⟩⟩
      | nan => exact absurd rfl hne
      | bad => exact absurd hx hb
    · obtain ⟨x, hx, he⟩ := List.mem_map.1 hh
      cases x with
      | num q => cases he
      | nan => exact hn hx
      | bad => exact hb hx

/-! ### tables -/

/-- the processed table with the constants added -/
def addTable (K : String → ℚ) (t : Table) : Table := ⟨t.index, t.names, List.zipWith (fun n c => c.map (· + K n)) t.names t.cols⟩

theorem addFrame_sortIndex (E : TableEnv) (K : String → ℚ) (f : Frame) : sortIndex E (addFrame K f) = addFrame K (sortIndex E f) := by
  simp only [sortIndex, addFrame, List.map_map, Frame.mk.injEq, true_and]
  apply List.map_congr_left
  intro c _
  simp only [Function.comp, Column.mk.injEq, true_and, pick, List.map_map]
  apply List.map_congr_left
  intro i _
  simp only [Function.comp, List.getD_eq_getElem?_getD, List.getElem?_map]
  cases c.cells[i]? <;> rfl

theorem addFrame_names (K : String → ℚ) (f : Frame) : (addFrame K f).cols.map (·.name) = f.cols.map (·.name) := by
  simp [addFrame, Function.comp_def]

theorem addFrame_sortedNames (K : String → ℚ) (f : Frame) : sortedNames (addFrame K f) = sortedNames f := by
  unfold sortedNames
  rw [addFrame_names]

theorem addFrame_selectCols (K : String → ℚ) (f : Frame) (names : List String) :
    selectCols (addFrame K f) names = addFrame K (selectCols f names) := by
  simp only [selectCols, addFrame, Frame.mk.injEq, true_and, List.map_flatMap]
  apply List.flatMap_congr
  intro n _
  rw [List.filter_map]
  rfl

theorem addFrame_convertible (K : String → ℚ) (f : Frame) : (addFrame K f).convertible = f.convertible := by
  simp [Frame.convertible, addFrame, Function.comp_def, astype_add, List.all_map]

theorem addFrame_ok (K : String → ℚ) (f : Frame) : (addFrame K f).ok = f.ok := by
  simp [Frame.ok, addFrame, Function.comp_def]

theorem mapM_column_add (K : String → ℚ) {P : Processor} {l : List Column} (h : ∀ c ∈ l, ∃ x ∈ c.cells, x ≠ .nan)
    (hm : (∀ c ∈ l, Cell.nan ∉ c.cells) ∨ (P.method ≠ .zero ∧ P.method ≠ .fixed)) :
    (l.map fun c => (⟨c.name, c.cells.map (addCell (K c.name))⟩ : Column)).mapM P.column =
      (l.mapM P.column).map fun cols => List.zipWith (fun n c => c.map (· + K n)) (l.map (·.name)) cols := by
  induction l with
  | nil => rfl
  | cons a t ih =>
    rw [List.map_cons, List.mapM_cons, List.mapM_cons, column_add (K a.name) (h a (by simp)) (hm.imp_left fun hh => hh a (by simp)),
      ih (fun c hc => h c (by simp [hc])) (hm.imp_left fun hh c hc => hh c (by simp [hc]))]
    cases P.column a with
    | error e => rfl
    | ok x =>
      cases List.mapM P.column t with
      | error e => rfl
      | ok y => rfl

theorem mem_sortIndex {E : TableEnv} {f : Frame} (hE : E.WF) (hf : f.ok = true) {c : Column} (hc : c ∈ (sortIndex E f).cols) :
    ∃ c' ∈ f.cols, c'.name = c.name ∧ c.cells.Perm c'.cells := by
  simp only [sortIndex, List.mem_map] at hc
  obtain ⟨a, ha, rfl⟩ := hc
  refine ⟨a, ha, rfl, ?_⟩
  simp only [Frame.ok, Bool.and_eq_true, List.all_eq_true, beq_iff_eq] at hf
  have hl := hf.2 a ha
  have hp := (hE.order_perm f.index).map fun i => a.cells.getD i .nan
  refine hp.trans (List.Perm.of_eq ?_)
  rw [← hl]
  apply List.ext_getElem (by simp)
  intro i h1 h2
  simp [List.getElem?_eq_getElem h2]

theorem mem_selectCols {f : Frame} {names : List String} {c : Column} (hc : c ∈ (selectCols f names).cols) : c ∈ f.cols := by
  simp only [selectCols, List.mem_flatMap] at hc
  obtain ⟨n, -, h⟩ := hc
  exact (List.mem_filter.1 h).1

theorem process_add {E : TableEnv} (hE : E.WF) {P : Processor} {K : String → ℚ} {f : Frame} (hf : f.ok = true)
    (h : ∀ c ∈ f.cols, ∃ x ∈ c.cells, x ≠ .nan) (hm : (∀ c ∈ f.cols, Cell.nan ∉ c.cells) ∨ (P.method ≠ .zero ∧ P.method ≠ .fixed)) :
    P.process E (.frame (addFrame K f)) = (P.process E (.frame f)).map (addTable K) := by
  simp only [Processor.process, addFrame_sortIndex, addFrame_sortedNames, addFrame_selectCols, addFrame_convertible]
  have key : ∀ c ∈ (selectCols (sortIndex E f) (sortedNames (sortIndex E f))).cols, ∃ c' ∈ f.cols, c'.name = c.name ∧ c.cells.Perm c'.cells :=
    fun c hc => mem_sortIndex hE hf (mem_selectCols hc)
  generalize selectCols (sortIndex E f) (sortedNames (sortIndex E f)) = g at key ⊢
  split
  · have h1 := mapM_column_add K (P := P) (l := g.cols) (fun c hc => ?_) (hm.imp_left fun hh c hc => ?_)
    · rw [show (addFrame K g).cols = g.cols.map fun c => (⟨c.name, c.cells.map (addCell (K c.name))⟩ : Column) from rfl, h1]
      cases g.cols.mapM P.column with
      | error e => rfl
      | ok cols =>
        simp only [Except.map, Bind.bind, Except.bind, Pure.pure, Except.pure, List.map_map]
        rfl
    · obtain ⟨c', hc', -, hp⟩ := key c hc
      obtain ⟨x, hx, hne⟩ := h c' hc'
      exact ⟨x, hp.mem_iff.2 hx, hne⟩
    · obtain ⟨c', hc', -, hp⟩ := key c hc
      exact fun hn => hh c' hc' (hp.mem_iff.1 hn)
  · rfl

theorem process_names {E : TableEnv} {P : Processor} {f : Frame} {t : Table} (hn : (f.cols.map (·.name)).Nodup)
    (h : P.process E (.frame f) = .ok t) : t.names = sortedNames f := by
  obtain ⟨g, rfl, -, -, h2, -⟩ := process_ok h
  have nm : (sortIndex E f).cols.map (·.name) = f.cols.map (·.name) := by
    unfold sortIndex; simp [List.map_map, Function.comp_def]
  obtain ⟨col, hcol, e⟩ := selectCols_map (f := sortIndex E f) (by rw [nm]; exact hn) (names := sortedNames f)
    (fun n h => by rw [nm]; exact (sortedNames_perm f).mem_iff.1 h)
  rw [h2, sortedNames_eq, e, List.map_map]
  conv_rhs => rw [← List.map_id (sortedNames f)]
  exact List.map_congr_left fun n hn => (hcol n hn).2

theorem process_lengths {E : TableEnv} (hE : E.WF) {P : Processor} {f : Frame} {t : Table} (hf : f.ok = true)
    (h : P.process E (.frame f) = .ok t) : t.cols.length = t.names.length ∧ ∀ c ∈ t.cols, c.length = t.index.length := by
  obtain ⟨g, hg, -, h1, h2, h3⟩ := process_ok h
  refine ⟨by rw [mapM_ok_length h3, h2, List.length_map], fun c hc => ?_⟩
  obtain ⟨i, hi, rfl⟩ := List.getElem_of_mem hc
  have hi' : i < g.cols.length := by rw [← mapM_ok_length h3]; exact hi
  have := column_length (mapM_ok_get h3 hi')
  rw [this, h1]
  have hm : g.cols[i] ∈ (selectCols (sortIndex E f) (sortedNames (sortIndex E f))).cols := by rw [← hg]; exact List.getElem_mem _
  obtain ⟨c', hc', -, hp⟩ := mem_sortIndex hE hf (mem_selectCols hm)
  rw [hp.length_eq]
  simp only [Frame.ok, Bool.and_eq_true, List.all_eq_true, beq_iff_eq] at hf
  rw [hf.2 c' hc', hg]
  simp only [selectCols, sortIndex, pick, List.length_map]
  rw [(hE.order_perm f.index).length_eq, List.length_range]

theorem getD_addCol {l : List ℚ} {i : Nat} (hi : i < l.length) (k : ℚ) : (l.map (· + k)).getD i 0 = l.getD i 0 + k := by
  simp [List.getD_eq_getElem?_getD, List.getElem?_eq_getElem hi]

theorem rows_add (K : String → ℚ) {t : Table} (h1 : t.cols.length = t.names.length) (h2 : ∀ c ∈ t.cols, c.length = t.index.length) :
    (addTable K t).rows = t.rows.map fun r => vadd r (t.names.map K) := by
  unfold Table.rows addTable
  rw [List.map_map]
  apply List.map_congr_left
  intro i hi
  have hi := List.mem_range.1 hi
  simp only [Function.comp, vadd]
  generalize t.cols = l at h1 h2
  generalize t.names = n at h1
  induction l generalizing n with
  | nil => simp
  | cons a l ih =>
    cases n with
    | nil => rfl
    | cons b n =>
      simp only [List.zipWith_cons_cons, List.map_cons]
      rw [ih (fun c hc => h2 c (by simp [hc])) n (by simpa using h1), getD_addCol (by rw [h2 a (by simp)]; exact hi)]

theorem row_lengths (t : Table) : ∀ r ∈ t.rows, r.length = t.cols.length := by
  intro r hr
  simp only [Table.rows, List.mem_map] at hr
  obtain ⟨i, -, rfl⟩ := hr
  simp

/-! ### samples -/

theorem vadd_length {a b : List ℚ} (h : a.length = b.length) : (vadd a b).length = b.length := by simp [vadd, h]

theorem minmax_add (mn mx lo hi x k : ℚ) : minmax (mn + k) (mx + k) lo hi (x + k) = minmax mn mx lo hi x := by
  unfold minmax
  rw [show x + k - (mn + k) = x - mn by ring, show mx + k - (mn + k) = mx - mn by ring]

theorem normRow_add {mn mx row kv : List ℚ} (lo hi : ℚ) (h1 : mn.length = kv.length) (h2 : mx.length = kv.length)
    (h3 : row.length = kv.length) : normRow (vadd mn kv) (vadd mx kv) lo hi (vadd row kv) = normRow mn mx lo hi row := by
  unfold normRow
  rw [vadd_length h1, vadd_length h3, if_pos rfl, if_pos (by rw [h3, h1])]
  congr 1
  induction kv generalizing mn mx row with
  | nil => cases row <;> simp_all [vadd]
  | cons k kv ih =>
    cases mn with
    | nil => cases h1
    | cons a mn =>
      cases mx with
      | nil => cases h2
      | cons b mx =>
        cases row with
        | nil => cases h3
        | cons x row =>
          simp only [vadd, List.zipWith_cons_cons, List.zip_cons_cons, minmax_add]
          exact congrArg _ (ih (mn := mn) (mx := mx) (row := row) (by simpa using h1) (by simpa using h2) (by simpa using h3))

theorem pyIndex_map {α β} (g : α → β) (l : List α) (i : Int) : pyIndex (l.map g) i = (pyIndex l i).map g := by
  unfold pyIndex
  simp only [List.length_map, List.getElem?_map]
  generalize (if i < 0 then i + (l.length : Int) else i) = j
  by_cases hj : j < 0
  · simp only [if_pos hj]
    rfl
  · simp only [if_neg hj]
    cases l[j.toNat]? <;> rfl

theorem pyIndex_mem {α} {l : List α} {i : Int} {a : α} (h : pyIndex l i = .ok a) : a ∈ l := by
  unfold pyIndex at h
  dsimp only at h
  generalize (if i < 0 then i + (l.length : Int) else i) = j at h
  by_cases hj : j < 0
  · rw [if_pos hj] at h
    cases h
  · rw [if_neg hj] at h
    cases hx : l[j.toNat]? with
    | none => rw [hx] at h; cases h
    | some x =>
      rw [hx] at h
      cases h
      exact List.mem_of_getElem? hx

theorem samples_add (E : NumEnv) (D : Dataset) {kv : List ℚ} (h1 : D.mins.length = kv.length) (h2 : D.maxs.length = kv.length)
    (h3 : ∀ r ∈ D.data, r.length = kv.length) :
    Dataset.samples E { D with data := D.data.map (vadd · kv), maxs := vadd D.maxs kv, mins := vadd D.mins kv } = D.samples E := by
  unfold Dataset.samples
  rw [show Dataset.ends { D with data := D.data.map (vadd · kv), maxs := vadd D.maxs kv, mins := vadd D.mins kv } = D.ends by
    simp [Dataset.ends]]
  congr 1
  funext hi
  unfold Dataset.get
  simp only [pyIndex_map]
  cases ht : pyIndex D.data ((hi : Int) - 1 + D.horizon) with
  | error e => rfl
  | ok t =>
    simp only [Except.map, Bind.bind, Except.bind]
    rw [normRow_add _ _ h1 h2 (h3 t (pyIndex_mem ht))]
    have : (Dataset.windowRows { D with data := D.data.map (vadd · kv), maxs := vadd D.maxs kv, mins := vadd D.mins kv } hi).mapM
        (normRow (vadd D.mins kv) (vadd D.maxs kv) D.clipMin D.clipMax) =
        (D.windowRows hi).mapM (normRow D.mins D.maxs D.clipMin D.clipMax) := by
      have e : Dataset.windowRows { D with data := D.data.map (vadd · kv), maxs := vadd D.maxs kv, mins := vadd D.mins kv } hi =
          (D.windowRows hi).map (vadd · kv) := by simp [Dataset.windowRows, List.map_drop, List.map_take]
      rw [e, List.mapM_map]
      have hm : ∀ r ∈ D.windowRows hi, r.length = kv.length := fun r hr => h3 r (List.mem_of_mem_drop (List.mem_of_mem_take hr))
      generalize D.windowRows hi = l at hm
      induction l with
      | nil => rfl
      | cons a l ih =>
        rw [List.mapM_cons, List.mapM_cons, ih fun r hr => hm r (by simp [hr]), Function.comp, normRow_add _ _ h1 h2 (hm a (by simp))]
    rw [this]

theorem npMax_add {l : List ℚ} (h : l ≠ []) (k : ℚ) : npMax (l.map (· + k)) = npMax l + k := by
  cases l with
  | nil => exact absurd rfl h
  | cons a t =>
    simp only [List.map_cons, npMax]
    clear h
    induction t generalizing a with
    | nil => rfl
    | cons b t ih =>
      simp only [List.map_cons, List.foldl_cons]
      rw [← ih, max_add_add_right]

theorem npMin_add {l : List ℚ} (h : l ≠ []) (k : ℚ) : npMin (l.map (· + k)) = npMin l + k := by
  cases l with
  | nil => exact absurd rfl h
  | cons a t =>
    simp only [List.map_cons, npMin]
    clear h
    induction t generalizing a with
    | nil => rfl
    | cons b t ih =>
      simp only [List.map_cons, List.foldl_cons]
      rw [← ih, min_add_add_right]

theorem colFold_add {g : List ℚ → ℚ} (hg : ∀ l : List ℚ, l ≠ [] → ∀ k, g (l.map (· + k)) = g l + k) {rows : List (List ℚ)} {kv : List ℚ}
    (h : rows ≠ []) (hl : ∀ r ∈ rows, r.length = kv.length) :
    colFold g kv.length (rows.map (vadd · kv)) = vadd (colFold g kv.length rows) kv := by
  unfold colFold vadd
  apply List.ext_getElem (by simp)
  intro j h1 h2
  have hj : j < kv.length := by simpa using h1
  simp only [List.getElem_map, List.getElem_range, List.getElem_zipWith, List.map_map]
  rw [← hg _ (by simpa using h), List.map_map]
  congr 1
  apply List.map_congr_left
  intro r hr
  have hr' : j < r.length := by rw [hl r hr]; exact hj
  simp [List.getD_eq_getElem?_getD, List.getElem?_zipWith, List.getElem?_eq_getElem hr', List.getElem?_eq_getElem hj]

theorem pctWeight_add (n : Nat) {K : String → ℚ} {f : Frame} (h : KeepsVolatility K f) : pctWeight n (addFrame K f) = pctWeight n f := by
  have e : (⟨f.index, (addFrame K f).cols.filter fun c => c.name ≠ "timestamp"⟩ : Frame) =
      addFrame K ⟨f.index, f.cols.filter fun c => c.name ≠ "timestamp"⟩ := by
    simp only [addFrame, Frame.mk.injEq, true_and]
    rw [List.filter_map]
    rfl
  unfold pctWeight
  rw [show (addFrame K f).index = f.index from rfl]
  simp only [e, addFrame_sortedNames, addFrame_selectCols]
  have hm : ∀ c ∈ (selectCols ⟨f.index, f.cols.filter fun c => c.name ≠ "timestamp"⟩
      (sortedNames ⟨f.index, f.cols.filter fun c => c.name ≠ "timestamp"⟩)).cols, c ∈ f.cols :=
    fun c hc => (List.mem_filter.1 (mem_selectCols hc)).1
  generalize selectCols ⟨f.index, f.cols.filter fun c => c.name ≠ "timestamp"⟩
      (sortedNames ⟨f.index, f.cols.filter fun c => c.name ≠ "timestamp"⟩) = g at hm
  have key : ∀ l : List Column, (∀ c ∈ l, c ∈ f.cols) →
      (((l.map fun c => (⟨c.name, c.cells.map (addCell (K c.name))⟩ : Column)).mapM fun c => astypeFloat c.cells).map fun r =>
        r.map fun x => volatile (volatility n x)) = ((l.mapM fun c => astypeFloat c.cells).map fun r => r.map fun x => volatile (volatility n x)) := by
    intro l
    induction l with
    | nil => intro _; rfl
    | cons a l ih =>
      intro hl
      have ih := ih fun c hc => hl c (by simp [hc])
      rw [List.map_cons, List.mapM_cons, List.mapM_cons, astype_add]
      cases ha : astypeFloat a.cells with
      | none => rfl
      | some x =>
        obtain ⟨rfl, -⟩ := astypeFloat_some ha
        have hv : volatile (volatility n ((a.cells.map number).map (·.map (· + K a.name)))) = volatile (volatility n (a.cells.map number)) := by
          rw [Bool.eq_iff_iff, volatile_spec, volatile_spec, h a (hl a (by simp)) n, List.map_map, List.map_map]
          simp only [Function.comp_def, number_add]
        cases h1 : (l.map fun c => (⟨c.name, c.cells.map (addCell (K c.name))⟩ : Column)).mapM fun c => astypeFloat c.cells with
        | none =>
          rw [h1] at ih
          cases h2 : l.mapM fun c => astypeFloat c.cells with
          | none => rfl
          | some y => rw [h2] at ih; cases ih
        | some y =>
          rw [h1] at ih
          cases h2 : l.mapM fun c => astypeFloat c.cells with
          | none => rw [h2] at ih; cases ih
          | some z =>
            rw [h2] at ih
            simp only [Option.map_some, Option.some.injEq] at ih
            simp only [Option.map_some, Option.bind_eq_bind, Option.bind_some, Option.pure_def, List.map_cons, ih, hv]
  have hk := key g.cols hm
  rw [show (addFrame K g).cols = g.cols.map fun c => (⟨c.name, c.cells.map (addCell (K c.name))⟩ : Column) from rfl]
  cases h1 : (g.cols.map fun c => (⟨c.name, c.cells.map (addCell (K c.name))⟩ : Column)).mapM fun c => astypeFloat c.cells with
  | none =>
    rw [h1] at hk
    cases h2 : g.cols.mapM fun c => astypeFloat c.cells with
    | none => rfl
    | some y => rw [h2] at hk; cases hk
  | some y =>
    rw [h1] at hk
    cases h2 : g.cols.mapM fun c => astypeFloat c.cells with
    | none => rw [h2] at hk; cases hk
    | some z =>
      rw [h2] at hk
      simp only [Option.map_some, Option.some.injEq] at hk
      have hlen : y.length = z.length := by simpa using congrArg List.length hk
      have hc : (y.map (volatility n)).countP volatile = (z.map (volatility n)).countP volatile := by
        have := congrArg (List.countP id) hk
        simpa [List.countP_map, Function.comp_def] using this
      simp only [hlen, hc]
      split
      · rfl
      · congr 1
        have := congrArg (List.map fun b : Bool => if b then ((z.map (volatility n)).countP volatile : ℚ) / z.length else 1) hk
        simpa [List.map_map, Function.comp_def] using this

/-! ### the two programs side by side -/

section sim

variable {kv : List ℚ} {G : Prop}

def addC (kv : List ℚ) (c : Config) : Config := { c with base := c.base.map fun b => (vadd b.1 kv, vadd b.2 kv) }

def addM (kv : List ℚ) (m : NetObj) : NetObj := ⟨addC kv m.config, m.net⟩

def addK (kv : List ℚ) (k : Ckpt) : Ckpt := { k with config := addC kv k.config }

def addF (kv : List ℚ) : File → File
  | .missing => .missing
  | .garbage => .garbage
  | .ckpt k => .ckpt (addK kv k)

def addD (kv : List ℚ) (d : Det) : Det := { d with config := d.config.map (addC kv), model := d.model.map (addM kv) }

def addW (kv : List ℚ) (w : World) : World := ⟨addD kv w.det, fun x => addF kv (w.disk x), w.params⟩

/-- the normalisation base of a configuration has one entry per variable -/
def BaseOf (n : Nat) (c : Config) : Prop := ∀ b, c.base = some b → b.1.length = n ∧ b.2.length = n

structure DetOf (n : Nat) (d : Det) : Prop where
  config : ∀ c, d.config = some c → BaseOf n c

structure WorldOf (n : Nat) (G : Prop) (w : World) : Prop where
  det : DetOf n w.det
  disk : ∀ x k, w.disk x = .ckpt k → BaseOf n k.config
  fill : G ∨ NoConstFill w.params

/-- `y` does on the world with the constants added what `x` does on the world -/
def Beside (kv : List ℚ) (G : Prop) {α} (x y : MM α) (e : α → α) (Q : α → Prop) : Prop :=
  ∀ w, WorldOf kv.length G w → y (addW kv w) = (addW kv (x w).1, (x w).2.map e) ∧ WorldOf kv.length G (x w).1 ∧ ∀ a, (x w).2 = .ok a → Q a

theorem Beside.bind {α β} {x y : MM α} {f g : α → MM β} {e : α → α} {e' : β → β} {Q : α → Prop} {Q' : β → Prop}
    (h : Beside kv G x y e Q) (h' : ∀ a, Q a → Beside kv G (f a) (g (e a)) e' Q') : Beside kv G (x >>= f) (y >>= g) e' Q' := by
  intro w hw
  obtain ⟨h1, h2, h3⟩ := h w hw
  show MM.bind y g (addW kv w) = (addW kv (MM.bind x f w).1, (MM.bind x f w).2.map e') ∧ WorldOf kv.length G (MM.bind x f w).1 ∧
    ∀ a, (MM.bind x f w).2 = .ok a → Q' a
  unfold MM.bind
  rw [h1]
  rcases hx : x w with ⟨w1, r⟩
  rw [hx] at h2 h3
  cases r with
  | error s => exact ⟨rfl, h2, fun a ha => by cases ha⟩
  | ok a => exact h' a (h3 a rfl) w1 h2

theorem Beside.get : Beside kv G MM.get MM.get (addW kv) (WorldOf kv.length G) :=
  fun _ hw => ⟨rfl, hw, fun a ha => by cases ha; exact hw⟩

theorem Beside.pure {α} {a : α} {e : α → α} {Q : α → Prop} (h : Q a) : Beside kv G (Pure.pure a) (Pure.pure (e a)) e Q :=
  fun w hw => ⟨rfl, hw, fun b hb => by cases hb; exact h⟩

theorem Beside.throw {α} {s : PyErr} {e : α → α} {Q : α → Prop} : Beside kv G (MM.throw s) (MM.throw s) e Q :=
  fun w hw => ⟨rfl, hw, fun b hb => by cases hb⟩

theorem Beside.of {α} {x y : Except Stop α} {e : α → α} {Q : α → Prop} (h : y = x.map e) (hQ : ∀ a, x = .ok a → Q a) :
    Beside kv G (MM.of x) (MM.of y) e Q := by
  intro w hw
  rw [h]
  exact ⟨rfl, hw, hQ⟩

theorem Beside.same {α} {x : Except Stop α} : Beside kv G (MM.of x) (MM.of x) id fun a => x = .ok a := by
  refine Beside.of ?_ fun a ha => ha
  cases x <;> rfl

theorem Beside.det {f g : Det → Det} (h : ∀ d, g (addD kv d) = addD kv (f d)) (h' : ∀ d, DetOf kv.length d → DetOf kv.length (f d)) :
    Beside kv G (MM.modifyDet f) (MM.modifyDet g) id fun _ => True := by
  intro w hw
  refine ⟨?_, ⟨h' _ hw.det, hw.disk, hw.fill⟩, fun _ _ => trivial⟩
  show ((⟨g (addD kv w.det), fun x => addF kv (w.disk x), w.params⟩ : World), Except.ok ()) = _
  rw [h]
  rfl

theorem Beside.dict {f : Params → Params} (h : ∀ p, NoConstFill p → NoConstFill (f p)) :
    Beside kv G (MM.modifyParams f) (MM.modifyParams f) id fun _ => True :=
  fun _ hw => ⟨rfl, ⟨hw.det, hw.disk, hw.fill.imp_right (h _)⟩, fun _ _ => trivial⟩

/-- what is known of the rows of a processed table -/
structure RowsOf (kv : List ℚ) (t t' : Table) : Prop where
  index : t'.index = t.index
  names : t'.names = t.names
  rows : t'.rows = t.rows.map (vadd · kv)
  length : ∀ r ∈ t.rows, r.length = kv.length

theorem ofParams_base {p : Params} {dim input tw : Nat} {c : Config} (h : Config.ofParams p dim input tw = .ok c) :
    c.base = none ∧ c.dataDim = dim := by
  unfold Config.ofParams at h
  obtain ⟨_, -, h⟩ := ebind_ok.1 h
  obtain ⟨_, -, h⟩ := ebind_ok.1 h
  obtain ⟨_, -, h⟩ := ebind_ok.1 h
  obtain ⟨_, -, h⟩ := ebind_ok.1 h
  obtain ⟨_, -, h⟩ := ebind_ok.1 h
  obtain ⟨_, -, h⟩ := ebind_ok.1 h
  obtain ⟨_, -, h⟩ := ebind_ok.1 h
  obtain ⟨_, -, h⟩ := ebind_ok.1 h
  obtain ⟨_, -, h⟩ := ebind_ok.1 h
  obtain ⟨_, -, h⟩ := ebind_ok.1 h
  obtain ⟨_, -, h⟩ := ebind_ok.1 h
  cases h
  exact ⟨rfl, rfl⟩

theorem addC_none {kv : List ℚ} {c : Config} (h : c.base = none) : addC kv c = c := by
  obtain ⟨⟩ := c
  cases h
  rfl

theorem noConst_set {p : Params} {k : String} {v : PyVal} (hk : k ≠ "fill_na_method") (h : NoConstFill p) : NoConstFill (p.set k v) := by
  unfold NoConstFill Params.set
  rw [if_neg (Ne.symm hk)]
  exact h

theorem init_method {E : TableEnv} {p : Params} {v : PyVal} {P : Processor} (hp : NoConstFill p)
    (h : lift (Processor.init E ((p "fill_na_method").getD (.str "Linear")) v) = .ok P) : P.method ≠ .zero ∧ P.method ≠ .fixed := by
  have key : ∀ x, lift (Processor.init E x v) = .ok P → ∃ s, x = .str s ∧ FillNA.ofName s = some P.method := by
    intro x hx
    unfold Processor.init at hx
    split at hx
    · split at hx
      · cases hx
      · split at hx
        · split at hx
          · rename_i hm
            cases hx
            exact ⟨_, rfl, hm⟩
          · cases hx
        · cases hx
    · cases hx
  obtain ⟨s, hs, hm⟩ := key _ h
  have name : ∀ m : FillNA, FillNA.ofName s = some m → (m = .zero → s = "Zero") ∧ (m = .fixed → s = "Fixed") := by
    intro m hm
    unfold FillNA.ofName at hm
    split at hm
    · cases hm; exact ⟨by simp, by simp⟩
    · split at hm
      · cases hm; exact ⟨by simp, by simp⟩
      · split at hm
        · cases hm; exact ⟨by simp, by simp⟩
        · split at hm
          · cases hm; exact ⟨by simp_all, by simp⟩
          · split at hm
            · cases hm; exact ⟨by simp, by simp_all⟩
            · cases hm
  have hne : ∀ n, n ≠ "Linear" → p "fill_na_method" ≠ some (.str n) → s ≠ n := by
    rintro n hn hp rfl
    cases hx : p "fill_na_method" with
    | none =>
      rw [hx] at hs
      cases hs
      exact hn rfl
    | some x =>
      rw [hx] at hs
      exact hp (by rw [hx]; exact congrArg some hs)
  exact ⟨fun hz => hne "Zero" (by decide) hp.1 ((name _ hm).1 hz), fun hz => hne "Fixed" (by decide) hp.2 ((name _ hm).2 hz)⟩

/-- what processing a table yields -/
structure Processed (K : String → ℚ) (f0 : Frame) (kv : List ℚ) (r : Frame × Table × Config) : Prop where
  frame : r.1 = f0
  rows : RowsOf kv r.2.1 (addTable K r.2.1)
  base : r.2.2.base = none
  dim : r.2.2.dataDim = kv.length

theorem processData_add {TS} {E : MEnv TS} (hE : E.toTableEnv.WF) {K : String → ℚ} {f : Frame} {S : List String} (hS : S.Nodup)
    (hf : TableOf S f) (hkv : kv = (S.insertionSort (· ≤ ·)).map K) (hG : G → ∀ c ∈ f.cols, Cell.nan ∉ c.cells) :
    Beside kv G (processData E (.frame f)) (processData E (.frame (addFrame K f)))
      (fun r => (addFrame K r.1, addTable K r.2.1, r.2.2)) (Processed K f kv) := by
  unfold processData
  refine Beside.get.bind fun w hw => ?_
  refine (Beside.same (x := windowSizes E (w.params "sliding_window"))).bind fun sizes _ => ?_
  refine (Beside.dict fun p hp => noConst_set (by decide) (noConst_set (by decide) hp)).bind fun _ _ => ?_
  refine (Beside.dict fun p hp => ?_).bind fun _ _ => ?_
  · have : (fun k => if k ∈ validFields then p k else none) "fill_na_method" = none := if_neg (by decide)
    unfold NoConstFill
    rw [this]
    exact ⟨by simp, by simp⟩
  refine (Beside.same (x := lift (Processor.init E.toTableEnv ((w.params "fill_na_method").getD (.str "Linear"))
    ((w.params "fill_na_value").getD (.float (.fin 0)))))).bind fun proc hproc => ?_
  rw [addFrame_ok]
  split
  · rename_i hok
    have hm : (∀ c ∈ f.cols, Cell.nan ∉ c.cells) ∨ (proc.method ≠ .zero ∧ proc.method ≠ .fixed) := by
      exact hw.fill.imp hG fun hp => init_method hp hproc
    have hp := process_add (P := proc) (K := K) hE hok hf.some hm
    refine (Beside.of hp (Q := fun t => proc.process E.toTableEnv (.frame f) = .ok t) fun t ht => ht).bind fun t ht => ?_
    have hn : (f.cols.map (·.name)).Nodup := hf.names.nodup_iff.2 hS
    have hnames : t.names = S.insertionSort (· ≤ ·) := by
      rw [process_names hn ht]
      exact List.Perm.eq_of_pairwise' (List.pairwise_insertionSort _ _) (List.pairwise_insertionSort _ _)
        ((List.perm_insertionSort _ _).trans (hf.names.trans (List.perm_insertionSort _ _).symm))
    obtain ⟨l1, l2⟩ := process_lengths hE hok ht
    have hlen : t.names.length = kv.length := by rw [hkv, hnames, List.length_map]
    rw [show (addTable K t).names = t.names from rfl]
    refine (Beside.dict fun p hp => noConst_set (by decide) hp).bind fun _ _ => ?_
    refine Beside.get.bind fun w _ => ?_
    refine (Beside.same (x := Config.ofParams w.params t.names.length sizes.1 sizes.2)).bind fun c hc => ?_
    refine Beside.pure (e := fun r : Frame × Table × Config => (addFrame K r.1, addTable K r.2.1, r.2.2)) ⟨rfl, ⟨rfl, rfl, ?_, ?_⟩, ?_, ?_⟩
    · rw [rows_add K l1 l2, hnames, hkv]
    · intro r hr
      rw [row_lengths t r hr, l1, hlen]
    · exact (ofParams_base hc).1
    · rw [(ofParams_base hc).2, hlen]
  · exact Beside.of rfl fun _ h => by cases h

/-- training and evaluation of the environment do not read the normalisation base -/
structure Baseless {TS} (E : MEnv TS) : Prop where
  init : ∀ c, E.initState (addC kv c) = E.initState c
  step : ∀ c ts b, E.step (addC kv c) ts b = E.step c ts b
  weights : ∀ c ts, E.weights (addC kv c) ts = E.weights c ts
  loss : ∀ c n b, E.evalLoss (addC kv c) n b = E.evalLoss c n b

theorem env_baseless {G O} (L : TrainEnv G O) : Baseless (kv := kv) L.env := ⟨fun _ => rfl, fun _ _ _ => rfl, fun _ _ => rfl, fun _ _ _ => rfl⟩

theorem inference_add {TS} (E : MEnv TS) {d : Det} (hd : DetOf kv.length d) {values : List (List ℚ)} (hv : ∀ r ∈ values, r.length = kv.length) :
    inference E (addD kv d) (values.map (vadd · kv)) = inference E d values := by
  obtain ⟨c, m, p, t, s1, s2, mp, v⟩ := d
  cases c with
  | none => rfl
  | some c =>
    unfold inference
    dsimp only [addD, Option.map_some, addC]
    cases hb : c.base with
    | none => rfl
    | some base =>
      dsimp only [Option.map_some]
      cases m with
      | none => rfl
      | some m =>
        obtain ⟨mc, n⟩ := m
        cases n with
        | none => rfl
        | some N =>
          cases p with
          | none => rfl
          | some p =>
            dsimp only [Option.map_some, addM]
            have hl := hd.config c rfl base hb
            have := samples_add E.toNumEnv (inferSet c base values) hl.2 hl.1 hv
            exact congrArg (fun s => lift (s >>= fun samples =>
              (chunk c.batchSize samples).foldlM (inferBatch E.toNumEnv mc N p) ⟨none, none, none⟩)) this

theorem thresholds_add {TS} (E : MEnv TS) {d : Det} (hd : DetOf kv.length d) {values : List (List ℚ)} (hv : ∀ r ∈ values, r.length = kv.length) :
    computeThresholds E (addD kv d) (values.map (vadd · kv)) = computeThresholds E d values := by
  unfold computeThresholds
  rw [inference_add E hd hv]
  cases inference E d values with
  | error => rfl
  | ok o =>
    obtain ⟨c, m, p, t, s1, s2, mp, v⟩ := d
    obtain ⟨o1, o2, o3⟩ := o
    cases o2 <;> cases c <;> rfl

theorem detectWith_add {TS} (E : MEnv TS) {d : Det} (hd : DetOf kv.length d) {f f' : Frame} {t t' : Table} (hf : f'.index = f.index)
    (ht : RowsOf kv t t') : detectWith E (addD kv d) f' t' = detectWith E d f t := by
  unfold detectWith
  simp only [ht.rows, inference_add E hd ht.length, ht.names, hf, List.length_map]
  obtain ⟨c, m, p, t, s1, s2, mp, v⟩ := d
  cases c <;> rfl

theorem loadCheckpoint_add (path : Option String) : Beside kv G (loadCheckpoint path) (loadCheckpoint path) id fun _ => True := by
  unfold loadCheckpoint
  refine Beside.get.bind fun w hw => ?_
  cases path with
  | none => exact Beside.throw
  | some p =>
    dsimp only
    rw [show (addW kv w).disk p = addF kv (w.disk p) from rfl]
    cases hk : w.disk p with
    | missing => exact Beside.throw
    | garbage => exact Beside.throw
    | ckpt k =>
      refine Beside.det (fun d => rfl) fun d hd => ⟨fun c hc => ?_⟩
      cases hc
      exact hw.disk p k hk

theorem ensureModel_add : Beside kv G ensureModel ensureModel id fun _ => True := by
  intro w hw
  obtain ⟨h1, h2, -⟩ := loadCheckpoint_add (G := G) w.det.modelPath w hw
  unfold ensureModel
  rw [show (addW kv w).det.model = w.det.model.map (addM kv) from rfl, show (addW kv w).det.modelPath = w.det.modelPath from rfl, h1]
  cases w.det.model with
  | some m => exact ⟨rfl, hw, fun _ _ => trivial⟩
  | none =>
    dsimp only [Option.map_none]
    rcases hl : loadCheckpoint w.det.modelPath w with ⟨w', r⟩
    rw [hl] at h2
    cases r with
    | error => exact ⟨rfl, h2, fun _ _ => trivial⟩
    | ok => exact ⟨rfl, h2, fun _ _ => trivial⟩

theorem saveCheckpoint_add {c : Config} (hc : BaseOf kv.length c) (net : Option Net) :
    Beside kv G (saveCheckpoint c net) (saveCheckpoint (addC kv c) net) id fun _ => True := by
  unfold saveCheckpoint
  refine Beside.get.bind fun w _ => ?_
  have hf : ∀ (path : String) (k : Ckpt), BaseOf kv.length k.config →
      Beside kv G (MM.writeFile path k) (MM.writeFile path (addK kv k)) id fun _ => True := by
    intro path k hk v hv
    unfold MM.writeFile
    refine ⟨Prod.ext ?_ rfl, ⟨hv.det, ?_, hv.fill⟩, fun _ _ => trivial⟩
    · refine congrArg (fun d => (⟨addD kv v.det, d, v.params⟩ : World)) ?_
      funext x
      show (if x = path then File.ckpt (addK kv k) else addF kv (v.disk x)) = addF kv (if x = path then File.ckpt k else v.disk x)
      split <;> rfl
    · intro x k' hk'
      dsimp only at hk'
      split at hk'
      · cases hk'
        exact hk
      · exact hv.disk x k' hk'
  exact hf _ _ hc

theorem trainEpoch_add {TS} {E : MEnv TS} (hE : Baseless (kv := kv) E) (c : Config) (ss : List Sample) (ts : TS) :
    trainEpoch E (addC kv c) ss ts = trainEpoch E c ss ts := by
  unfold trainEpoch
  simp only [hE.step]
  rfl

theorem evalEpoch_add {TS} {E : MEnv TS} (hE : Baseless (kv := kv) E) (c : Config) (n : Option Net) (bs : List (List Sample)) :
    evalEpoch E (addC kv c) n bs = evalEpoch E c n bs := by
  unfold evalEpoch
  simp only [hE.loss]

theorem epoch_add {TS} {E : MEnv TS} (hE : Baseless (kv := kv) E) {c : Config} (hc : BaseOf kv.length c) (train val : List Sample)
    (s : TS × PyFloat) : Beside kv G (epoch E c train val s) (epoch E (addC kv c) train val s) id fun _ => True := by
  unfold epoch
  rw [show trainError (addC kv c) train = trainError c train from rfl, show evalError (addC kv c) val = evalError c val from rfl]
  cases trainError c train with
  | some e => exact Beside.throw
  | none =>
    dsimp only
    cases evalError c val with
    | some e => exact Beside.throw
    | none =>
      dsimp only
      rw [trainEpoch_add hE, hE.weights, evalEpoch_add hE, show (addC kv c).batchSize = c.batchSize from rfl]
      split
      · refine Beside.bind (e := id) (Beside.det (fun d => rfl) fun d hd => ⟨hd.config⟩) fun _ _ => ?_
        refine (saveCheckpoint_add hc _).bind fun _ _ => ?_
        exact Beside.pure (e := id) trivial
      · exact Beside.pure (e := id) trivial

theorem epochs_add {TS} {E : MEnv TS} (hE : Baseless (kv := kv) E) {c : Config} (hc : BaseOf kv.length c) (train val : List Sample)
    (n : Nat) (s : TS × PyFloat) : Beside kv G (epochs E c train val n s) (epochs E (addC kv c) train val n s) id fun _ => True := by
  induction n generalizing s with
  | zero => exact Beside.pure (e := id) trivial
  | succ n ih =>
    unfold epochs
    exact (epoch_add hE hc train val s).bind fun s' _ => ih s'

theorem fit_add {TS} {E : MEnv TS} (hE : Baseless (kv := kv) E) (hT : E.toTableEnv.WF) {K : String → ℚ} {f : Frame} {S : List String}
    (hS : S.Nodup) (hf : TableOf S f) (hV : KeepsVolatility K f) (hkv : kv = (S.insertionSort (· ≤ ·)).map K)
    (hG : G → ∀ c ∈ f.cols, Cell.nan ∉ c.cells) :
    Beside kv G (Multi.fit E (.frame f)) (Multi.fit E (.frame (addFrame K f))) id fun _ => True := by
  unfold Multi.fit
  refine (processData_add hT hS hf hkv hG).bind fun r hr => ?_
  obtain ⟨f', t, c⟩ := r
  obtain ⟨rfl, hrows, hbase, hdim⟩ := hr
  dsimp only at hrows hbase hdim ⊢
  refine Beside.bind (e := id) (Beside.det (fun d => ?_) fun d hd => ⟨fun c' hc' => ?_⟩) fun _ _ => ?_
  · show _ = Det.mk (some (addC kv c)) _ _ _ _ _ _ _
    rw [addC_none hbase]
    rfl
  · cases hc'
    intro b hb
    rw [hbase] at hb
    cases hb
  rw [pctWeight_add _ hV]
  refine Beside.same.bind fun pct _ => ?_
  refine Beside.bind (e := id) (Beside.det (fun d => rfl) fun d hd => ⟨hd.config⟩) fun _ _ => ?_
  have hsplit : split c (addTable K t).rows = ((split c t.rows).1.map (vadd · kv), (split c t.rows).2.map (vadd · kv)) := by
    rw [hrows.rows]
    simp [split, List.map_take, List.map_drop]
  have hl1 : ∀ r ∈ (split c t.rows).1, r.length = kv.length := fun r hr => hrows.length r (List.mem_of_mem_take hr)
  have hl2 : ∀ r ∈ (split c t.rows).2, r.length = kv.length := fun r hr => hrows.length r (List.mem_of_mem_take (List.mem_of_mem_drop hr))
  rw [hsplit]
  generalize split c t.rows = tv at hl1 hl2
  obtain ⟨train, val⟩ := tv
  dsimp only at hl1 hl2 ⊢
  rw [List.isEmpty_map]
  split
  · exact Beside.throw
  · rename_i htr
    have htr : train ≠ [] := by simpa using htr
    have hmx := colFold_add (g := npMax) (fun l hl k => npMax_add hl k) htr hl1
    have hmn := colFold_add (g := npMin) (fun l hl k => npMin_add hl k) htr hl1
    rw [← hdim] at hmx hmn
    rw [hmx, hmn]
    have hb1 : (colFold npMax c.dataDim train).length = kv.length := by simp [colFold, hdim]
    have hb2 : (colFold npMin c.dataDim train).length = kv.length := by simp [colFold, hdim]
    generalize colFold npMax c.dataDim train = mx at hb1
    generalize colFold npMin c.dataDim train = mn at hb2
    have hc1 : BaseOf kv.length { c with base := some (mx, mn) } := by
      intro b hb
      cases hb
      exact ⟨hb1, hb2⟩
    have hadd : ({ c with base := some (vadd mx kv, vadd mn kv) } : Config) = addC kv { c with base := some (mx, mn) } := rfl
    refine Beside.bind (e := id) (Beside.det (fun d => rfl) fun d hd => ⟨fun c' hc' => ?_⟩) fun _ _ => ?_
    · cases hc'
      exact hc1
    have hs1 := samples_add E.toNumEnv (trainSet c (mx, mn) train) hb2 hb1 hl1
    have hs2 := samples_add E.toNumEnv (inferSet c (mx, mn) val) hb2 hb1 hl2
    rw [show Dataset.samples E.toNumEnv (trainSet { c with base := some (vadd mx kv, vadd mn kv) } (vadd mx kv, vadd mn kv) (train.map (vadd · kv))) =
      Dataset.samples E.toNumEnv (trainSet { c with base := some (mx, mn) } (mx, mn) train) from hs1]
    refine Beside.same.bind fun ts _ => ?_
    rw [show Dataset.samples E.toNumEnv (inferSet { c with base := some (vadd mx kv, vadd mn kv) } (vadd mx kv, vadd mn kv) (val.map (vadd · kv))) =
      Dataset.samples E.toNumEnv (inferSet { c with base := some (mx, mn) } (mx, mn) val) from hs2]
    refine Beside.same.bind fun vs _ => ?_
    simp only [id_eq]
    split
    · exact Beside.throw
    · rw [hadd, hE.init]
      refine (epochs_add hE hc1 _ _ _ _).bind fun _ _ => ?_
      refine (loadCheckpoint_add _).bind fun _ _ => ?_
      refine Beside.get.bind fun w hw => ?_
      refine (Beside.of (e := id) (Q := fun _ => True) ?_ fun _ _ => trivial).bind fun r _ => ?_
      · rw [show (addW kv w).det = addD kv w.det from rfl, thresholds_add E hw.det hl1]
        cases computeThresholds E w.det train <;> rfl
      exact Beside.det (fun d => rfl) fun d hd => ⟨hd.config⟩

theorem predict_add {TS} {E : MEnv TS} (hT : E.toTableEnv.WF) {K : String → ℚ} {f : Frame} {S : List String}
    (hS : S.Nodup) (hf : TableOf S f) (hkv : kv = (S.insertionSort (· ≤ ·)).map K) (hG : G → ∀ c ∈ f.cols, Cell.nan ∉ c.cells) :
    Beside kv G (Multi.predict E (.frame f)) (Multi.predict E (.frame (addFrame K f))) id fun _ => True := by
  unfold Multi.predict
  refine (processData_add hT hS hf hkv hG).bind fun r hr => ?_
  obtain ⟨f', t, c⟩ := r
  obtain ⟨rfl, hrows, hbase, hdim⟩ := hr
  dsimp only at hrows ⊢
  refine ensureModel_add.bind fun _ _ => ?_
  refine Beside.get.bind fun w hw => ?_
  refine Beside.of ?_ fun _ _ => trivial
  rw [show (addW kv w).det = addD kv w.det from rfl, detectWith_add E hw.det (f := f') (f' := addFrame K f') rfl hrows]
  cases detectWith E w.det f' t <;> rfl

end sim

/-! ### programs -/

theorem call_add {TS} {E : MEnv TS} {kv : List ℚ} {G : Prop} (hE : Baseless (kv := kv) E) (hT : E.toTableEnv.WF) {K : String → ℚ} {S : List String}
    (hS : S.Nodup) (hkv : kv = (S.insertionSort (· ≤ ·)).map K) {c c' : Call} (hc : AddCall K S c c') (hG : G → Complete c)
    (hp : G ∨ FillsByNeighbours c) {w : World} (hw : WorldOf kv.length G w) :
    (doCall E (addW kv w) c').2 = (doCall E w c).2 ∧ (doCall E (addW kv w) c').1 = addW kv (doCall E w c).1 ∧
      WorldOf kv.length G (doCall E w c).1 := by
  have key : ∀ {α} {x y : MM α}, Beside kv G x y id (fun _ => True) →
      (y (addW kv w)).2 = (x w).2 ∧ (y (addW kv w)).1 = addW kv (x w).1 ∧ WorldOf kv.length G (x w).1 := by
    intro α x y h
    obtain ⟨h1, h2, -⟩ := h w hw
    rw [h1]
    refine ⟨?_, rfl, h2⟩
    cases (x w).2 <;> rfl
  cases hc with
  | params p => exact ⟨rfl, rfl, hw.det, hw.disk, hp⟩
  | fit h hv =>
    obtain ⟨h1, h2, h3⟩ := key (fit_add hE hT hS h hv hkv hG)
    exact ⟨by dsimp only [doCall]; rw [h1], h2, h3⟩
  | predict h => exact key (predict_add hT hS h hkv hG)
  | load s =>
    obtain ⟨h1, h2, h3⟩ := key (loadCheckpoint_add s)
    exact ⟨by dsimp only [doCall]; rw [h1], h2, h3⟩
  | path s => exact ⟨rfl, rfl, ⟨hw.det.config⟩, hw.disk, hw.fill⟩
  | remove s =>
    refine ⟨rfl, ?_, hw.det, fun x k hk => ?_, hw.fill⟩
    · refine congrArg (fun d => (⟨addD kv w.det, d, w.params⟩ : World)) ?_
      funext x
      show (if x = s then File.missing else addF kv (w.disk x)) = addF kv (if x = s then File.missing else w.disk x)
      split <;> rfl
    · dsimp only [doCall] at hk
      split at hk
      · cases hk
      · exact hw.disk x k hk
  | spoil s =>
    refine ⟨rfl, ?_, hw.det, fun x k hk => ?_, hw.fill⟩
    · refine congrArg (fun d => (⟨addD kv w.det, d, w.params⟩ : World)) ?_
      funext x
      show (if x = s then File.garbage else addF kv (w.disk x)) = addF kv (if x = s then File.garbage else w.disk x)
      split <;> rfl
    · dsimp only [doCall] at hk
      split at hk
      · cases hk
      · exact hw.disk x k hk
  | new => exact ⟨rfl, rfl, ⟨fun c hc => by cases hc⟩, hw.disk, hw.fill⟩

theorem outcomes_add {TS} {E : MEnv TS} {kv : List ℚ} {G : Prop} (hE : Baseless (kv := kv) E) (hT : E.toTableEnv.WF) {K : String → ℚ}
    {S : List String} (hS : S.Nodup) (hkv : kv = (S.insertionSort (· ≤ ·)).map K) {cs cs' : List Call} (h : List.Forall₂ (AddCall K S) cs cs')
    (hG : G → ∀ c ∈ cs, Complete c) (hp : G ∨ ∀ c ∈ cs, FillsByNeighbours c) {w : World} (hw : WorldOf kv.length G w) :
    outcomes E (addW kv w) cs' = outcomes E w cs := by
  induction h generalizing w with
  | nil => rfl
  | cons hc _ ih =>
    obtain ⟨h1, h2, h3⟩ := call_add hE hT hS hkv hc (fun g => hG g _ (by simp)) (hp.imp_right fun hh => hh _ (by simp)) hw
    unfold outcomes
    rw [h1, h2, ih (fun g c hc => hG g c (by simp [hc])) (hp.imp_right fun hh c hc => hh c (by simp [hc])) h3]

/-- **C123**. A program that starts with nothing trained and makes any calls on detectors (`fit` and `predict` on tables with the same column names,
loading of checkpoints, new detectors, lost or damaged files, other params dicts) gets the same outcomes, result by result and error by error,
when a constant is added to each variable in all its tables. The tables must have no gaps, or else have an observed value in every column and be filled by
`Previous`, `Subsequent` or `Linear`; and for the tables passed to `fit` the constants must not change which columns are volatile (C62). -/
theorem C123_offset {G O} {L : TrainEnv G O} (hT : L.toTableEnv.WF) {K : String → ℚ} {names : List String} (hn : names.Nodup) {w : World}
    (hw : Untrained w) {cs cs' : List Call} (h : List.Forall₂ (AddCall K names) cs cs')
    (hf : (∀ c ∈ cs, Complete c) ∨ (NoConstFill w.params ∧ ∀ c ∈ cs, FillsByNeighbours c)) :
    outcomes L.env w cs' = outcomes L.env w cs := by
  obtain ⟨h1, h2, h3⟩ := hw
  have hwd : ∀ kv, addW kv w = w := by
    intro kv
    obtain ⟨d, disk, p⟩ := w
    have hd : addD kv d = d := by
      obtain ⟨a, b, _⟩ := d
      dsimp only at h1 h2
      subst h1 h2
      rfl
    have hk : (fun x => addF kv (disk x)) = disk := by
      funext x
      cases hx : disk x with
      | missing => rfl
      | garbage => rfl
      | ckpt k => exact absurd hx (h3 x k)
    unfold addW
    rw [hd, hk]
  have := outcomes_add (G := ∀ c ∈ cs, Complete c) (env_baseless L) hT hn rfl h id (hf.imp_right And.right)
    (w := w) ⟨⟨fun c hc => by rw [h1] at hc; cases hc⟩, fun x k hk => absurd hk (h3 x k), hf.imp_right And.left⟩
  rwa [hwd] at this

/-- **C123** (calm columns). A column whose values differ from each other by no more than the size of each is not volatile, whatever the window: so the
constants are free as long as the training columns are calm before and after. -/
theorem C123_calm {K : String → ℚ} {f : Frame}
    (h : ∀ c ∈ f.cols, Unswinging (c.cells.map number) ∧ Unswinging ((c.cells.map (addCell (K c.name))).map number)) : KeepsVolatility K f := by
  have key : ∀ (n : Nat) (col : List (Option ℚ)), Unswinging col → ¬ Volatile n col := by
    rintro n col hc ⟨rows, peaks, -, -, hf, hne, hlt⟩
    have sw : ∀ i s, Swing col i s → s ≤ 1 := by
      rintro i s ⟨a, b, c, hi, ha, hb, hcc, h⟩
      have mem : ∀ {j : Nat} {x : ℚ}, col[j]? = some (some x) → some x ∈ col := fun h => List.mem_of_getElem? h
      have e1 := hc a b (mem ha) (mem hb)
      have e2 := hc c b (mem hcc) (mem hb)
      rcases h with ⟨hb0, rfl⟩ | ⟨hb0, -⟩
      · have hpos : 0 < |b + 1 / 10000| := abs_pos.2 hb0
        refine (min_le_right _ _).trans (max_le ?_ ?_)
        · rw [abs_div, div_le_one hpos]
          exact e1.2
        · rw [abs_div, div_le_one hpos]
          exact e2.2
      · exact absurd hb0 e1.1
    have pk : ∀ m ∈ peaks, m ≤ 1 := by
      clear hne hlt
      induction hf with
      | nil => simp
      | cons hp _ ih =>
        intro m hm
        rcases List.mem_cons.1 hm with rfl | hm
        · obtain ⟨-, -, -, ⟨j, -, -, hs⟩, -⟩ := hp
          exact sw j _ hs
        · exact ih m hm
    have hs : peaks.sum ≤ peaks.length := by
      have := List.sum_le_card_nsmul peaks 1 pk
      simpa using this
    have hl : (0 : ℚ) < peaks.length := by
      have : 0 < peaks.length := List.length_pos_iff.2 hne
      exact_mod_cast this
    have : peaks.sum / peaks.length ≤ 1 := (div_le_one hl).2 hs
    linarith
  intro c hc n
  exact ⟨fun hv => absurd hv (key n _ (h c hc).1), fun hv => absurd hv (key n _ (h c hc).2)⟩

/-! ### a concrete case -/

/-- ten rows, two variables -/
def calmTrain : Frame :=
  ⟨[0, 1, 2, 3, 4, 5, 6, 7, 8, 9], [column "b" [5, 6, 7, 8, 9, 8, 7, 6, 5, 6], column "a" [11, 12, 11, 13, 11, 12, 11, 12, 11, 12]]⟩

/-- seven rows with a gap -/
def calmTest : Frame :=
  ⟨[20, 21, 22, 23, 24, 25, 26], [column "b" [5, 6, 5, 6, 5, 6, 5], ⟨"a", [.num 11, .nan, .num 11, .num 12, .num 19, .num 12, .num 11]⟩]⟩

def calmK : String → ℚ := fun n => if n = "a" then 100 else 3

theorem calmTrain_keeps : KeepsVolatility calmK calmTrain := by
  have dec : ∀ col : List (Option ℚ), (col.all fun x => col.all fun y => match x, y with
      | some a, some b => decide (b + 1 / 10000 ≠ 0) && decide (|a - b| ≤ |b + 1 / 10000|)
      | _, _ => true) = true → Unswinging col := by
    intro col h a b ha hb
    have := List.all_eq_true.1 (List.all_eq_true.1 h _ ha) _ hb
    simpa using this
  apply C123_calm
  intro c hc
  simp only [calmTrain, List.mem_cons, List.not_mem_nil, or_false] at hc
  rcases hc with rfl | rfl
  · exact ⟨dec _ (by decide +kernel), dec _ (by decide +kernel)⟩
  · exact ⟨dec _ (by decide +kernel), dec _ (by decide +kernel)⟩

/-- a program that trains on one table and predicts on another with a gap, and the same with 100 added to `a` and 3 to `b`: the calls meet the hypotheses and
the prediction returns results -/
example : Untrained ⟨{}, fun _ => .missing, trainParams⟩ ∧ NoConstFill trainParams ∧
    List.Forall₂ (AddCall calmK ["a", "b"]) [.fit (.frame calmTrain), .params trainParams, .predict (.frame calmTest)]
      [.fit (.frame (addFrame calmK calmTrain)), .params trainParams, .predict (.frame (addFrame calmK calmTest))] ∧
    (match outcomes demoT.env ⟨{}, fun _ => .missing, trainParams⟩ [.fit (.frame calmTrain), .params trainParams, .predict (.frame calmTest)] with
      | [.ok _, .ok _, .ok (_ :: _)] => true
      | _ => false) = true := by
  refine ⟨⟨rfl, rfl, fun _ _ h => by cases h⟩, ⟨by simp [trainParams, demoParams], by simp [trainParams, demoParams]⟩, ?_, by decide +kernel⟩
  refine .cons (.fit ⟨?_, ?_⟩ calmTrain_keeps) (.cons (.params _) (.cons (.predict ⟨?_, ?_⟩) .nil))
  · decide
  · intro c hc
    simp only [calmTrain, List.mem_cons, List.not_mem_nil, or_false] at hc
    rcases hc with rfl | rfl
    · exact ⟨.num 5, by decide +kernel, by simp⟩
    · exact ⟨.num 11, by decide +kernel, by simp⟩
  · decide
  · intro c hc
    simp only [calmTest, List.mem_cons, List.not_mem_nil, or_false] at hc
    rcases hc with rfl | rfl
    · exact ⟨.num 5, by decide +kernel, by simp⟩
    · exact ⟨.num 11, by decide +kernel, by simp⟩

end Verif
