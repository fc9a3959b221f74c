import Mathlib.Algebra.Order.Field.Rat
import Mathlib.Data.Rat.Floor

/-!
# Python values, exceptions and dictionaries

The fragment of Python that the modelled code observes. Nothing here models a function of `/repo`;
it is the language layer the models are written in.
-/

namespace Verif

/-- A Python exception as a value. `requestError` is `AnomalyDetectionRequestError`
(`common/exception.py:22-32`) carrying its `error_code`. -/
inductive PyErr where
  | typeError | keyError | valueError | attributeError | indexError | zeroDivision
  | exception
  | requestError (code : String)
  | dataFormatError | invalidParameterError
  | runtimeError | fileNotFound | assertion | overflowError
  deriving DecidableEq, Repr

/-- IEEE float up to rounding: a finite value is a rational number. -/
inductive PyFloat where
  | fin (q : ℚ) | pinf | ninf | nan
  deriving DecidableEq

namespace PyFloat

/-- Python/C `<` on floats: every comparison with NaN is false. -/
def lt : PyFloat → PyFloat → Bool
  | nan, _ => false
  | _, nan => false
  | fin a, fin b => decide (a < b)
  | fin _, pinf => true
  | fin _, ninf => false
  | ninf, ninf => false
  | ninf, _ => true
  | pinf, _ => false

/-- Python/C `<=` on floats. -/
def le : PyFloat → PyFloat → Bool
  | nan, _ => false
  | _, nan => false
  | fin a, fin b => decide (a ≤ b)
  | fin _, pinf => true
  | fin _, ninf => false
  | ninf, _ => true
  | pinf, pinf => true
  | pinf, _ => false

/-- `np.isnan` -/
def isNaN : PyFloat → Bool
  | nan => true
  | _ => false

end PyFloat

/-- `Granularity` (`univariate/util/fields.py:70-79`). -/
inductive Granularity where
  | none | yearly | monthly | weekly | daily | hourly | minutely | secondly | microsecond
  deriving DecidableEq, Repr

/-- `Granularity.__members__` / `.name` (`univariate/util/fields.py:70-79`). -/
def Granularity.name : Granularity → String
  | .none => "none" | .yearly => "yearly" | .monthly => "monthly" | .weekly => "weekly"
  | .daily => "daily" | .hourly => "hourly" | .minutely => "minutely" | .secondly => "secondly"
  | .microsecond => "microsecond"

def Granularity.all : List Granularity :=
  [.none, .yearly, .monthly, .weekly, .daily, .hourly, .minutely, .secondly, .microsecond]

/-- `Granularity[s]`, `none` when `s` is not a member name. -/
def Granularity.ofName (s : String) : Option Granularity :=
  Granularity.all.find? (fun g => g.name == s)

/-- `BoundaryVersion` (`univariate/util/fields.py:85-88`). -/
inductive BoundaryVersion where
  | V1 | V2 | V3
  deriving DecidableEq, Repr

def BoundaryVersion.ofName (s : String) : Option BoundaryVersion :=
  if s = "V1" then some .V1 else if s = "V2" then some .V2 else if s = "V3" then some .V3 else none

/-- `FillUpMode` (`univariate/util/fields.py:91-102`). -/
inductive FillUpMode where
  | use_last | no | auto | previous | linear | zero | fixed | notFill
  deriving DecidableEq, Repr

/-- `FillUpMode(value)`, `none` when the value is not one of the enum values. -/
def FillUpMode.ofValue (s : String) : Option FillUpMode :=
  if s = "last" then some .use_last else if s = "no" then some .no
  else if s = "auto" then some .auto else if s = "previous" then some .previous
  else if s = "linear" then some .linear else if s = "zero" then some .zero
  else if s = "fixed" then some .fixed else if s = "notFill" then some .notFill else none

/-- `DetectType` (`univariate/util/fields.py:66-68`). -/
inductive DetectType where
  | ENTIRE | LATEST
  deriving DecidableEq, Repr

/-- `ModelType` members reachable from the modelled code (`univariate/util/fields.py:51-64`). -/
inductive ModelType where
  | AnomalyDetector | AnomalyDetectorMad | SpectralResidual | SpectralResidual_ZScore
  | DynamicThreshold | DynamicThresholdMad
  deriving DecidableEq, Repr

/-- A Python value as it can occur in a request (`params` values and data cells). `other` stands for
any object the code does not recognise. -/
inductive PyVal where
  | none
  | bool (b : Bool)
  | int (i : Int)
  | float (f : PyFloat)
  | str (s : String)
  | list (l : List PyVal)
  | dict (d : List (String × PyVal))
  | gran (g : Granularity)
  | bver (b : BoundaryVersion)
  | dtype (d : DetectType)
  | other (tag : Nat)

namespace PyVal

/-- `isinstance(v, int)` together with the integer value; `bool` is a subclass of `int`. -/
def asInt? : PyVal → Option Int
  | int i => some i
  | bool b => some (if b then 1 else 0)
  | _ => Option.none

/-- `isinstance(v, float)` together with the value. -/
def asFloat? : PyVal → Option PyFloat
  | float f => some f
  | _ => Option.none

/-- `isinstance(v, int) or isinstance(v, float)`, as a float. -/
def asNumber? : PyVal → Option PyFloat
  | int i => some (.fin i)
  | bool b => some (.fin (if b then 1 else 0))
  | float f => some f
  | _ => Option.none

/-- Hashable: usable as a key in `x in mapping.keys()`. -/
def hashable : PyVal → Bool
  | list _ => false
  | dict _ => false
  | _ => true

/-- `bool(v)`; unknown objects are true. -/
def truthy : PyVal → Bool
  | none => false
  | bool b => b
  | int i => decide (i ≠ 0)
  | float (.fin q) => decide (q ≠ 0)
  | float _ => true
  | str s => decide (s ≠ "")
  | list l => !l.isEmpty
  | dict d => !d.isEmpty
  | _ => true

def isNone : PyVal → Bool
  | none => true
  | _ => false

/-- a list of plain integers -/
def asIntList? : List PyVal → Option (List Int)
  | [] => some []
  | int i :: t => (asIntList? t).map (i :: ·)
  | _ :: _ => Option.none

def ofIntList (l : List Int) : PyVal := list (l.map int)

theorem asIntList?_map (l : List Int) : asIntList? (l.map int) = some l := by
  induction l with
  | nil => rfl
  | cons a t ih => simp [asIntList?, ih]

end PyVal

/-- A Python `dict` with string keys, by lookup. -/
abbrev Params := String → Option PyVal

namespace Params

/-- `d[k] = v` -/
def set (p : Params) (k : String) (v : PyVal) : Params := fun x => if x = k then some v else p x

@[simp] theorem set_self (p : Params) (k : String) (v : PyVal) : p.set k v k = some v := by
  simp [set]

theorem set_ne (p : Params) {k x : String} (v : PyVal) (h : x ≠ k) : p.set k v x = p x := by
  simp [set, h]

/-- `k in d` -/
def has (p : Params) (k : String) : Bool := (p k).isSome

/-- build a dict literal -/
def ofList : List (String × PyVal) → Params
  | [] => fun _ => none
  | (k, v) :: t => (ofList t).set k v

end Params

/-- An assignment to `self.error_code` made by a function: `none` if it made none. -/
abbrev CodeUpdate := Option (Option String)

/-- Result of running a function body that may also `return` (None) early. The two abnormal ends carry the
assignment to `self.error_code` made before. -/
inductive Res (α : Type) where
  | ok (a : α)
  | early (c : CodeUpdate)
  | err (e : PyErr) (c : CodeUpdate)

/-- State-and-exception monad over a mutable dict: mutations survive an exception. -/
def PM (α : Type) := Params → Params × Res α

namespace PM

def pure {α} (a : α) : PM α := fun p => (p, .ok a)

def bind {α β} (x : PM α) (f : α → PM β) : PM β := fun p =>
  match x p with
  | (p', .ok a) => f a p'
  | (p', .early c) => (p', .early c)
  | (p', .err e c) => (p', .err e c)

instance : Monad PM where
  pure := pure
  bind := bind

def get : PM Params := fun p => (p, .ok p)
def set (k : String) (v : PyVal) : PM Unit := fun p => (p.set k v, .ok ())
/-- `self.error_code = code; return` from the middle of the function -/
def early {α} (code : String) : PM α := fun p => (p, .early (some (some code)))
/-- `return` without an assignment to `self.error_code` -/
def earlyNoCode {α} : PM α := fun p => (p, .early none)
def throw {α} (e : PyErr) (c : CodeUpdate := none) : PM α := fun p => (p, .err e c)

/-- `x` run on the dict `p` finishes normally with the value `a`, leaving the dict `p'`. -/
def Returns {α} (x : PM α) (p p' : Params) (a : α) : Prop := x p = (p', .ok a)

theorem bind_ok {α β} {x : PM α} {f : α → PM β} {p p' : Params} {b : β} :
    Returns (x >>= f) p p' b ↔ ∃ p1 a, Returns x p p1 a ∧ Returns (f a) p1 p' b := by
  show PM.bind x f p = _ ↔ ∃ p1 a, x p = _ ∧ f a p1 = _
  unfold PM.bind
  rcases h : x p with ⟨p1, r⟩
  cases r <;> simp

theorem pure_ok {α} {a b : α} {p p' : Params} :
    Returns (Pure.pure a : PM α) p p' b ↔ p = p' ∧ a = b := by
  show (p, Res.ok a) = _ ↔ _
  simp

theorem get_ok {p p' q : Params} : Returns PM.get p p' q ↔ p = p' ∧ p = q := by
  simp [Returns, PM.get]

theorem set_ok {k : String} {v : PyVal} {p p' : Params} {u : Unit} :
    Returns (PM.set k v) p p' u ↔ p.set k v = p' := by
  simp [Returns, PM.set]

theorem early_ok {α} {c : String} {p p' : Params} {b : α} : Returns (PM.early c : PM α) p p' b ↔ False := by
  simp [Returns, PM.early]

theorem earlyNoCode_ok {α} {p p' : Params} {b : α} : Returns (PM.earlyNoCode : PM α) p p' b ↔ False := by
  simp [Returns, PM.earlyNoCode]

theorem throw_ok {α} {e : PyErr} {c : CodeUpdate} {p p' : Params} {b : α} :
    Returns (PM.throw e c : PM α) p p' b ↔ False := by
  simp [Returns, PM.throw]

end PM

end Verif
