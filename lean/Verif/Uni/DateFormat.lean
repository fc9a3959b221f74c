import Verif.Uni.DateUtils

/-!
# Timestamp formats (`univariate/util/date_utils.py:12-80`)

No other module calls these functions. Digits are ASCII digits (Python's `\d` also accepts other decimal digits).
-/

namespace Verif

/-- one piece of the regular expressions of `format_timestamp_str` -/
inductive Shape where
  | digit
  | lit (c : Char)
  deriving DecidableEq

def isDig (c : Char) : Bool := '0' ≤ c && c ≤ '9'

def digits (n : Nat) : List Shape := List.replicate n .digit

/-- the whole string has the shape -/
def shapeMatch : List Shape → List Char → Bool
  | [], s => s.isEmpty
  | .digit :: p, c :: s => isDig c && shapeMatch p s
  | .lit d :: p, c :: s => c == d && shapeMatch p s
  | _ :: _, [] => false

/-- `re.match("^…$", s)`: `$` also matches before a newline at the end -/
def reMatch (p : List Shape) (s : List Char) : Bool := shapeMatch p s || shapeMatch (p ++ [.lit '\n']) s

/-- `\d{4}-\d{2}-\d{2}` -/
def shapeDate : List Shape := digits 4 ++ [.lit '-'] ++ digits 2 ++ [.lit '-'] ++ digits 2
/-- `\d{2}:\d{2}` -/
def shapeTime : List Shape := digits 2 ++ [.lit ':'] ++ digits 2

/-- a directive of a `strptime` format -/
inductive Directive where
  | year4 | year2 | month | day | hour | minute | second
  | lit (c : Char)
  | space
  deriving DecidableEq

/-- `%Y-%m-%d` -/
def fmtDate : List Directive := [.year4, .lit '-', .month, .lit '-', .day]
/-- `%H:%M` -/
def fmtTime : List Directive := [.hour, .lit ':', .minute]

/-- a broken-down time; missing fields of a format keep the defaults of `strptime` (1900-01-01 00:00:00) -/
structure Civil where
  year : Nat := 1900
  month : Nat := 1
  day : Nat := 1
  hour : Nat := 0
  minute : Nat := 0
  second : Nat := 0
  deriving DecidableEq

def digVal (c : Char) : Nat := c.toNat - 48

/-- the one-or-two-digit alternatives of a regular expression of `_strptime`: two digits `ab` with `ok2`, else one digit with `ok1` -/
def twoOrOne (ok2 : Nat → Nat → Bool) (ok1 : Nat → Bool) : List Char → List (Nat × List Char)
  | a :: b :: s =>
    (if isDig a && isDig b && ok2 (digVal a) (digVal b) then [(10 * digVal a + digVal b, s)] else []) ++
      (if isDig a && ok1 (digVal a) then [(digVal a, b :: s)] else [])
  | [a] => if isDig a && ok1 (digVal a) then [(digVal a, [])] else []
  | [] => []

/-- a space and a digit, the last alternative for a day -/
def spaceDigit : List Char → List (Nat × List Char)
  | ' ' :: a :: r => if isDig a && 1 ≤ digVal a then [(digVal a, r)] else []
  | _ => []

/-- what a directive can match at the start of a string, in the order of the alternatives of the regular expression (CPython
`Lib/_strptime.py`, `TimeRE`); literals ignore case, whitespace is `\s+` -/
def directiveMatch : Directive → List Char → List ((Civil → Civil) × List Char)
  | .year4, a :: b :: c :: d :: s =>
    if isDig a && isDig b && isDig c && isDig d then
      [((fun t => { t with year := 1000 * digVal a + 100 * digVal b + 10 * digVal c + digVal d }), s)]
    else []
  | .year4, _ => []
  | .year2, a :: b :: s =>
    if isDig a && isDig b then
      let y := 10 * digVal a + digVal b
      [((fun t => { t with year := if y ≤ 68 then 2000 + y else 1900 + y }), s)]
    else []
  | .year2, _ => []
  | .month, s => (twoOrOne (fun a b => (a == 1 && b ≤ 2) || (a == 0 && 1 ≤ b)) (fun a => 1 ≤ a) s).map fun x =>
      ((fun t => { t with month := x.1 }), x.2)
  | .day, s => (twoOrOne (fun a b => (a == 3 && b ≤ 1) || a == 1 || a == 2 || (a == 0 && 1 ≤ b)) (fun a => 1 ≤ a) s ++
      spaceDigit s).map fun x => ((fun t => { t with day := x.1 }), x.2)
  | .hour, s => (twoOrOne (fun a b => (a == 2 && b ≤ 3) || a ≤ 1) (fun _ => true) s).map fun x => ((fun t => { t with hour := x.1 }), x.2)
  | .minute, s => (twoOrOne (fun a _ => a ≤ 5) (fun _ => true) s).map fun x => ((fun t => { t with minute := x.1 }), x.2)
  | .second, s => (twoOrOne (fun a b => (a == 6 && b ≤ 1) || a ≤ 5) (fun _ => true) s).map fun x => ((fun t => { t with second := x.1 }), x.2)
  | .lit d, c :: s => if c.toLower == d.toLower then [(id, s)] else []
  | .lit _, [] => []
  | .space, s =>
    let k := (s.takeWhile Char.isWhitespace).length
    ((List.range k).reverse.map fun j => ((id : Civil → Civil), s.drop (j + 1)))

/-- the first match of the whole format at the start of the string, with backtracking -/
def formatMatch : List Directive → Civil → List Char → Option (Civil × List Char)
  | [], t, s => some (t, s)
  | d :: p, t, s => (directiveMatch d s).findSome? fun x => formatMatch p (x.1 t) x.2

/-- `datetime(year, month, day, hour, minute, second)` accepts the fields -/
def Civil.valid (t : Civil) : Bool :=
  1 ≤ t.year && t.year ≤ 9999 && 1 ≤ t.month && t.month ≤ 12 && 1 ≤ t.day && decide ((t.day : Int) ≤ daysInMonth t.year t.month) &&
    t.hour ≤ 23 && t.minute ≤ 59 && t.second ≤ 59

/-- `datetime.strptime(s, format)`: the match must end at the end of the string and give a valid time, else ValueError -/
def strptime (p : List Directive) (s : List Char) : Except PyErr Civil :=
  match formatMatch p {} s with
  | some (t, []) => if t.valid then .ok t else .error .valueError
  | _ => .error .valueError

/-- `format_timestamp_str(date_str)` (`date_utils.py:26-45`) -/
def formatTimestampStr (s : List Char) : Except PyErr Civil :=
  if reMatch (shapeDate ++ [.lit ' '] ++ shapeTime ++ [.lit ':'] ++ digits 2 ++ [.lit ' ', .lit '+'] ++ digits 4) s then
    strptime (fmtDate ++ [.space] ++ fmtTime ++ [.lit ':', .second]) s
  else if reMatch (shapeDate ++ [.lit 'T'] ++ shapeTime ++ [.lit ':'] ++ digits 2 ++ [.lit 'Z']) s then
    strptime (fmtDate ++ [.lit 'T'] ++ fmtTime ++ [.lit ':', .second, .lit 'Z']) s
  else if reMatch (shapeDate ++ [.lit 'T'] ++ shapeTime ++ [.lit ':'] ++ digits 2) s then
    strptime (fmtDate ++ [.lit 'T'] ++ fmtTime ++ [.lit ':', .second]) s
  else if reMatch (shapeDate ++ [.lit ' '] ++ shapeTime ++ [.lit ':'] ++ digits 2) s then
    strptime (fmtDate ++ [.space] ++ fmtTime ++ [.lit ':', .second]) s
  else if reMatch (shapeDate ++ [.lit ' '] ++ shapeTime) s then
    strptime (fmtDate ++ [.space] ++ fmtTime) s
  else if reMatch (digits 2 ++ [.lit '/'] ++ digits 2 ++ [.lit '/'] ++ digits 2) s then
    strptime [.month, .lit '/', .day, .lit '/', .year2] s
  else if reMatch (digits 2 ++ [.lit '/'] ++ digits 2 ++ [.lit '/'] ++ digits 4) s then
    strptime [.year4, .month, .day] s
  else if reMatch (digits 4 ++ digits 2 ++ digits 2) s then
    strptime [.year4, .lit '/', .month, .lit '/', .day, .lit '/', .hour] s
  else .error .valueError

/-- a cell of the formatted column: a naive time, or seconds since 1970 in UTC -/
inductive Cell where
  | naive (t : Civil)
  | epoch (seconds : Int)
  deriving DecidableEq

/-- the parser of the cells that `format_timestamp` chooses by the first cell (`date_utils.py:51-71`). `fromTs` is
`datetime.fromtimestamp(int(s), tz=utc)`, which may raise. -/
def cellParser (fromTs : List Char → Except PyErr Int) (s : List Char) : Option (List Char → Except PyErr Cell) :=
  let naive (p : List Directive) := some fun r => (strptime p r).map Cell.naive
  if reMatch (shapeDate ++ [.lit ' '] ++ shapeTime ++ [.lit ':'] ++ digits 2 ++ [.lit ' ', .lit '+'] ++ digits 4) s then
    naive (fmtDate ++ [.space] ++ fmtTime ++ [.lit ':', .second])
  else if reMatch (shapeDate ++ [.lit 'T'] ++ shapeTime ++ [.lit ':'] ++ digits 2 ++ [.lit 'Z']) s then
    naive (fmtDate ++ [.lit 'T'] ++ fmtTime ++ [.lit ':', .second, .lit 'Z'])
  else if reMatch (shapeDate ++ [.lit 'T'] ++ shapeTime ++ [.lit ':'] ++ digits 2) s then
    naive (fmtDate ++ [.lit 'T'] ++ fmtTime ++ [.lit ':', .second])
  else if reMatch (shapeDate ++ [.lit ' '] ++ shapeTime ++ [.lit ':'] ++ digits 2) s then
    naive (fmtDate ++ [.space] ++ fmtTime ++ [.lit ':', .second])
  else if reMatch (shapeDate ++ [.lit ' '] ++ shapeTime) s then
    naive (fmtDate ++ [.space] ++ fmtTime)
  else if reMatch (digits 2 ++ [.lit '/'] ++ digits 2 ++ [.lit '/'] ++ digits 2) s then
    naive [.month, .lit '/', .day, .lit '/', .year2]
  else if reMatch (digits 2 ++ [.lit '/'] ++ digits 2 ++ [.lit '/'] ++ digits 4) s then
    naive [.year4, .month, .day]
  else if reMatch (digits 4 ++ digits 2 ++ digits 2) s then
    naive [.year4, .lit '/', .month, .lit '/', .day, .lit '/', .hour]
  else if reMatch (digits 10) s then some fun r => (fromTs r).map Cell.epoch
  else none

/-- `format_timestamp(df)` (`date_utils.py:48-75`) on the cells of the column of a frame with the labels `0, 1, …`; there is no cell 0 in an
empty column -/
def formatTimestamp (fromTs : List Char → Except PyErr Int) : List (List Char) → Except PyErr (List Cell)
  | [] => .error .keyError
  | s :: t => match cellParser fromTs s with
    | none => .error .valueError
    | some f => (s :: t).mapM f

/-- the digits of a year below 10000 as the C library writes them for `%Y`, without padding (glibc) -/
def yearDigits (n : Nat) : List Char :=
  let d (k : Nat) := Char.ofNat (48 + k % 10)
  if n < 10 then [d n]
  else if n < 100 then [d (n / 10), d n]
  else if n < 1000 then [d (n / 100), d (n / 10), d n]
  else [d (n / 1000), d (n / 100), d (n / 10), d n]

/-- `obj.strftime("%Y-%m-%dT%H:%M:%SZ")` of `json_serial` and `format_timestamp_to_str` (`date_utils.py:12-14, 78-80`) -/
def strftimeZ (t : Civil) : List Char :=
  let two (k : Nat) := [Char.ofNat (48 + k / 10 % 10), Char.ofNat (48 + k % 10)]
  yearDigits t.year ++ '-' :: two t.month ++ '-' :: two t.day ++ 'T' :: two t.hour ++ ':' :: two t.minute ++ ':' :: two t.second ++ ['Z']

/-- `format_timestamp_to_str(df)` (`date_utils.py:78-80`) on the cells of the column -/
def formatTimestampToStr (ts : List Civil) : List (List Char) := ts.map strftimeZ

end Verif
