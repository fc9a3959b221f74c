import Verif.Uni.Run
import Mathlib.Data.String.Basic

/-!
# Tables and the multivariate data processor

Model of `common/data_processor.py` and `common/constants.py`.

Simplifications. Column names are strings and index labels integers (any totally ordered label type behaves
alike). Infinite cells are not modelled: a cell is a finite number, NaN, or an object that `astype(float)`
rejects. Tables without rows or columns are not modelled.
-/

namespace Verif.Multi

/-- a cell of a `pandas.DataFrame`: a finite number, NaN/None, or something `astype(float)` cannot convert -/
inductive Cell where
  | num (q : ℚ) | nan | bad
  deriving DecidableEq

structure Column where
  name : String
  cells : List Cell
  deriving DecidableEq

/-- `pandas.DataFrame` -/
structure Frame where
  index : List Int
  cols : List Column
  deriving DecidableEq

/-- a table: at least one row and column, and every column has one cell per row -/
structure Frame.WF (f : Frame) : Prop where
  rows : f.index ≠ []
  cols : f.cols ≠ []
  rect : ∀ c ∈ f.cols, c.cells.length = f.index.length

/-- the `data` argument: a DataFrame or something else -/
inductive MData where
  | frame (f : Frame)
  | other

/-- `FillNAMethod` (`common/constants.py:16-21`) -/
inductive FillNA where
  | previous | subsequent | linear | zero | fixed
  deriving DecidableEq

/-- `FillNAMethod[name]` (`common/constants.py:16-21`) -/
def FillNA.ofName (s : String) : Option FillNA :=
  if s = "Previous" then some .previous else if s = "Subsequent" then some .subsequent
  else if s = "Linear" then some .linear else if s = "Zero" then some .zero
  else if s = "Fixed" then some .fixed else none

/-- library functions used by the processor -/
structure TableEnv where
  /-- positions of `sort_index()`; the order of equal labels is unspecified -/
  indexOrder : List Int → List Nat
  /-- `hasattr(FillNAMethod, name)` for a name that is not a member (dunder names of the class) -/
  enumAttr : String → Bool

/-- `sort_index` returns the labels in ascending order -/
structure TableEnv.WF (E : TableEnv) : Prop where
  order_perm : ∀ l, (E.indexOrder l).Perm (List.range l.length)
  order_sorted : ∀ l, ((E.indexOrder l).map fun i => l.getD i 0).Pairwise (· ≤ ·)

/-- take the entries of a list at the given positions -/
def pick {α} (l : List α) (d : α) (pos : List Nat) : List α := pos.map fun i => l.getD i d

/-- `data.sort_index()` (`data_processor.py:34`) -/
def sortIndex (E : TableEnv) (f : Frame) : Frame :=
  let o := E.indexOrder f.index
  ⟨pick f.index 0 o, f.cols.map fun c => ⟨c.name, pick c.cells .nan o⟩⟩

/-- `data[names]`: for every name all columns that carry it (`data_processor.py:35`) -/
def selectCols (f : Frame) (names : List String) : Frame :=
  ⟨f.index, names.flatMap fun n => f.cols.filter fun c => c.name = n⟩

/-- `sorted(data.columns)`; Python compares strings by code points -/
def sortedNames (f : Frame) : List String := (f.cols.map (·.name)).insertionSort (· ≤ ·)

/-- `astype(float)` of one column; `none` if a cell cannot be converted -/
def astypeFloat (l : List Cell) : Option (List (Option ℚ)) :=
  l.mapM fun
    | .num q => some (some q)
    | .nan => some none
    | .bad => none

/-- `fillna(method="ffill", limit=len(data))` with the last value seen `last` -/
def ffillFrom (last : Option ℚ) : List (Option ℚ) → List (Option ℚ)
  | [] => []
  | some q :: t => some q :: ffillFrom (some q) t
  | none :: t => last :: ffillFrom last t

/-- `fillna(method="ffill", limit=len(data))` -/
def ffill (l : List (Option ℚ)) : List (Option ℚ) := ffillFrom none l

/-- `fillna(method="bfill", limit=len(data))` -/
def bfill (l : List (Option ℚ)) : List (Option ℚ) := (ffill l.reverse).reverse

/-- the knots of `np.interp`: position and value of every observed cell -/
def knotsFrom (i : Nat) : List (Option ℚ) → List (ℚ × ℚ)
  | [] => []
  | some q :: t => ((i : ℚ), q) :: knotsFrom (i + 1) t
  | none :: t => knotsFrom (i + 1) t

/-- `interpolate(method="linear", limit_direction="both", axis=0, limit=len(data))`: missing cells get
`np.interp` through the observed positions; a column without observed cells stays as it is -/
def interpolate (l : List (Option ℚ)) : List (Option ℚ) :=
  let ks := knotsFrom 0 l
  if ks.isEmpty then l
  else l.mapIdx fun i c => match c with
    | some q => some q
    | none => some (npInterp ks i)

/-- `MultiADDataProcessor` (`data_processor.py:13-28`) -/
structure Processor where
  method : FillNA
  value : PyFloat

/-- `MultiADDataProcessor.__init__` (`data_processor.py:14-28`): the method must be an attribute name of the
enum, the value must be a `float`. `hasattr` with a non-string raises `TypeError`; a name that is an attribute
but not a member raises `KeyError` in `FillNAMethod[...]`, after the check of the value. -/
def Processor.init (E : TableEnv) (method value : PyVal) : Except PyErr Processor :=
  match method with
  | .str s =>
    if (FillNA.ofName s).isNone && !E.enumAttr s then .error .invalidParameterError
    else match value with
      | .float v =>
        match FillNA.ofName s with
        | some m => .ok ⟨m, v⟩
        | none => .error .keyError
      | _ => .error .invalidParameterError
  | _ => .error .typeError

/-- filling one column by the chosen method and the final `fillna(0)` (`data_processor.py:46-61`). An infinite
`fill_na_value` that has to be used is not modelled. -/
def Processor.fillCol (p : Processor) (l : List (Option ℚ)) : Except Stop (List ℚ) :=
  match p.method with
  | .previous => .ok ((bfill (ffill l)).map (·.getD 0))
  | .subsequent => .ok ((ffill (bfill l)).map (·.getD 0))
  | .linear => .ok ((interpolate l).map (·.getD 0))
  | .zero => .ok (l.map (·.getD 0))
  | .fixed =>
    match p.value with
    | .fin v => .ok (l.map (·.getD v))
    | .nan => .ok (l.map (·.getD 0))
    | _ => if none ∈ l then .error .unmodelled else .ok (l.map (·.getD 0))

/-- a processed table -/
structure Table where
  index : List Int
  names : List String
  cols : List (List ℚ)
  deriving DecidableEq

/-- one column of `fill_na` (`data_processor.py:40-61`) -/
def Processor.column (p : Processor) (c : Column) : Except Stop (List ℚ) :=
  match astypeFloat c.cells with
  | none => .error (.err .dataFormatError)
  | some l => p.fillCol l

/-- every cell of the frame can be converted by `data.astype(float)` (`data_processor.py:43-46`) -/
def Frame.convertible (f : Frame) : Bool := f.cols.all fun c => (astypeFloat c.cells).isSome

/-- `process` (`data_processor.py:30-37`) -/
def Processor.process (E : TableEnv) (p : Processor) : MData → Except Stop Table
  | .other => .error (.err .dataFormatError)
  | .frame f =>
    let g := sortIndex E f
    let h := selectCols g (sortedNames g)
    if h.convertible then do
      let cols ← h.cols.mapM p.column
      pure ⟨h.index, h.cols.map (·.name), cols⟩
    else .error (.err .dataFormatError)

end Verif.Multi
