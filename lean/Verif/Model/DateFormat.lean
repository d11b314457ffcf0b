import Verif.Model.Values
/-!
# Date and time formats

Model of `dt_format_and_regex` (`/repo/src/csvw/datatypes.py` 1026–1158), of `with_tz` (283–297) and of the `dateTime`,
`date`, `time` parsers (312–346, 377–393, 422–430).

The compiled regular expression is represented by the list of its pieces (`RItem`); `matchItems` is `regex.match`
for such expressions (greedy, with backtracking). The key `fmt` of the description is not used anywhere and is dropped.
-/

namespace Csvw.DateFmt
open Py

/-- The named groups. -/
inductive Field where
  | year | month | day | hour | minute | second
  deriving DecidableEq, Repr

/-- Pieces of the regular expressions built by the code. -/
inductive RItem where
  /-- An escaped separator. -/
  | lit (c : Char)
  /-- `(?P<f>[0-9]{lo,hi})`. -/
  | field (f : Field) (lo hi : Nat)
  /-- The two optional groups for (extra) microseconds, 1154–1155; always last. -/
  | frac (n : Nat)
  deriving DecidableEq, Repr

/-- `translate` (1076–1085), regular expression part. -/
def translate (s : Str) : Option RItem :=
  if s = "yyyy".toList then some (.field .year 4 4)
  else if s = "MM".toList then some (.field .month 2 2)
  else if s = "dd".toList then some (.field .day 2 2)
  else if s = "M".toList then some (.field .month 1 2)
  else if s = "d".toList then some (.field .day 1 2)
  else if s = "HH".toList then some (.field .hour 2 2)
  else if s = "mm".toList then some (.field .minute 2 2)
  else if s = "ss".toList then some (.field .second 2 2)
  else none

/-- `date_patterns` (1054–1069). -/
def datePatterns : List Str :=
  ["yyyy-MM-dd".toList, "yyyyMMdd".toList, "dd-MM-yyyy".toList, "d-M-yyyy".toList, "MM-dd-yyyy".toList,
   "M-d-yyyy".toList, "dd/MM/yyyy".toList, "d/M/yyyy".toList, "MM/dd/yyyy".toList, "M/d/yyyy".toList,
   "dd.MM.yyyy".toList, "d.M.yyyy".toList, "MM.dd.yyyy".toList, "M.d.yyyy".toList]

/-- `time_patterns` (1071). -/
def timePatterns : List Str := ["HH:mm:ss".toList, "HHmmss".toList, "HH:mm".toList, "HHmm".toList]

/-- `$` also matches before a trailing newline (the string is reversed here). -/
def dropNl : Str → Str
  | '\n' :: r => r
  | r => r

/-- `re.search('(?P<marker> ?[xX]{1,3})$', fmt)` (1042): (marker, text before it). -/
def tzMarker (fmt : Str) : Option (Str × Str) :=
  let r := dropNl fmt.reverse
  let run := r.takeWhile (fun c => c = 'x' || c = 'X')
  let rest := r.dropWhile (fun c => c = 'x' || c = 'X')
  if run = [] then none
  else if run.length > 3 then some ((run.take 3).reverse, (run.drop 3 ++ rest).reverse)
  else match rest with
    | ' ' :: rest => some (' ' :: run.reverse, rest.reverse)
    | _ => some (run.reverse, rest.reverse)

/-- `len(set(s)) != 1` is false. -/
def allSame (s : Str) : Bool := match s with
  | [] => false
  | c :: cs => cs.all (· = c)

/-- Runs of equal characters (`itertools.groupby`). -/
def runs : Str → List Str
  | [] => []
  | c :: cs => match runs cs with
    | (d :: ds) :: rs => if c = d then (c :: d :: ds) :: rs else [c] :: (d :: ds) :: rs
    | rs => [c] :: rs

/-- Translate the components, with the separator between them. `KeyError` for an unknown component (cannot happen,
the format has been checked before). -/
def transParts (sep : Option Char) : List Str → Res (List RItem)
  | [] => .ok []
  | p :: ps => match translate p with
    | none => .error .keyError
    | some i => match transParts sep ps with
      | .error e => .error e
      | .ok is => match sep, ps with
        | some c, _ :: _ => .ok (i :: .lit c :: is)
        | _, _ => .ok (i :: is)

/-- Result of `dt_format_and_regex`: `regex = None` only if no format was given. -/
structure Desc where
  regex : Option (List RItem) := none
  tzMarker : Option Str := none
  pattern : Option Str := none
  deriving DecidableEq, Repr

/-- The regular expression of the date part (1115–1136). -/
def dateItems (dfmt : Str) : Res (List RItem) :=
  match ['.', '-', '/'].find? (fun c => dfmt.contains c) with
  | some c => transParts (some c) (split [c] dfmt)
  | none => transParts none (runs dfmt)

/-- The regular expression of the time part (1142–1156). -/
def timeItems (tfmt : Str) : Res (List RItem) :=
  if tfmt.contains ':' then transParts (some ':') (split [':'] tfmt) else transParts none (runs tfmt)

/-- The fractional seconds part of a time format (1104–1109): (time format, number of `S`). -/
def splitMsecs (tfmt : Str) : Res (Str × Option Nat) :=
  if tfmt.contains '.' then
    match split ['.'] tfmt with
    | [t, m] => if m ≠ [] ∧ m.all (· = 'S') then .ok (t, some m.length) else .error .valueError
    | _ => .error .valueError
  else .ok (tfmt, none)

/-- First step of `dt_format_and_regex`: the timezone marker (1040–1050). -/
def stripMk (f : Str) : Res (Option Str × Str) :=
  match tzMarker f with
  | some (m, rest) => if allSame (strip m) then Except.ok (some m, rest) else .error PyErr.valueError
  | none => .ok (none, f)

/-- Second step: date and time format (1087–1102). -/
def splitDT (t : Bool) (b : Str) : Res (Option Char × Str × Str) :=
  let sep : Option Char := if b.contains ' ' then some ' ' else if b.contains 'T' then some 'T' else none
  match sep with
  | some c => match split [c] b with
    | [d, t] => .ok (some c, d, t)
    | _ => .error .valueError
  | none => if t then .ok (none, [], b) else .ok (none, b, [])

/-- The rest: fractions of seconds, checks, regular expression (1104–1158). `fmt` is the unchanged format. -/
def bodyDesc (f : Str) (mk : Option Str) (sep : Option Char) (dfmt tf : Str) : Res Desc :=
  match splitMsecs tf with
  | .error e => .error e
  | .ok (tfmt, msecs) =>
    if (dfmt ≠ [] ∧ dfmt ∉ datePatterns) ∨ (tfmt ≠ [] ∧ tfmt ∉ timePatterns) then .error .valueError
    else match (if dfmt = [] then Except.ok [] else dateItems dfmt), (if tfmt = [] then Except.ok [] else timeItems tfmt) with
      | .error e, _ => .error e
      | .ok _, .error e => .error e
      | .ok ds, .ok ts =>
        .ok ⟨some (ds ++ (match sep with | some c => [RItem.lit c] | none => []) ++ ts ++
          (match msecs with | some n => [RItem.frac n] | none => [])), mk, some f⟩

/-- `dt_format_and_regex(fmt, no_date)` for a string format (1037–1158). -/
def formatAndRegex (f : Str) (noDate : Bool) : Res Desc :=
  match stripMk f with
  | .error e => .error e
  | .ok (mk, b) => match splitDT noDate b with
    | .error e => .error e
    | .ok (sep, d, tf) => bodyDesc f mk sep d tf

/-- The groups of a match. `micro`/`extra` are the groups of the fractional seconds. -/
structure Groups where
  fields : List (Field × Str) := []
  micro : Option Str := none
  extra : Option Str := none
  deriving DecidableEq, Repr

/-- An ASCII digit, `[0-9]`. -/
def isDig (c : Char) : Bool := '0' ≤ c && c ≤ '9'

/-- The optional group `(\.([0-9]{lo,hi})(?![0-9]))?`: the digits and the rest of the string. -/
def fracGroup (lo : Nat) (hi : Option Nat) (s : Str) : Option Str × Str :=
  match s with
  | '.' :: r =>
    if lo ≤ (r.takeWhile isDig).length ∧ (∀ h ∈ hi, (r.takeWhile isDig).length ≤ h) then
      (some (r.takeWhile isDig), r.dropWhile isDig)
    else (none, s)
  | _ => (none, s)

/-- The groups for the fractional seconds (1154–1155). -/
def matchFrac (n : Nat) (s : Str) : Groups :=
  ⟨[], (fracGroup 1 (some n) s).1, (fracGroup (n + 1) none (fracGroup 1 (some n) s).2).1⟩

mutual
/-- `regex.match(s)`: a prefix of `s` has to match. -/
def matchItems : List RItem → Str → Option Groups
  | [], _ => some {}
  | .lit c :: is, s => match s with
    | c' :: s' => if c = c' then matchItems is s' else none
    | [] => none
  | .field f lo hi :: is, s => matchField f lo (hi + 1 - lo) is s
  | .frac n :: is, s => match matchItems is [] with
    | none => none
    | some _ => some (matchFrac n s)
/-- The greedy repetition `[0-9]{lo,lo+k-1}`: try `k` lengths, longest first. -/
def matchField (f : Field) (lo : Nat) : Nat → List RItem → Str → Option Groups
  | 0, _, _ => none
  | k + 1, is, s =>
    if (s.take (lo + k)).length = lo + k ∧ (s.take (lo + k)).all isDig then
      match matchItems is (s.drop (lo + k)) with
      | some g => some { g with fields := (f, s.take (lo + k)) :: g.fields }
      | none => matchField f lo k is s
    else matchField f lo k is s
end

/-- The number of days of a month (Gregorian). -/
def daysIn (y m : Nat) : Nat :=
  if m = 2 then (if y % 4 = 0 ∧ (y % 100 ≠ 0 ∨ y % 400 = 0) then 29 else 28)
  else if m = 4 ∨ m = 6 ∨ m = 9 ∨ m = 11 then 30 else 31

/-- The range checks of the `datetime` constructor. -/
def validDT (d : DateTime) : Bool :=
  1 ≤ d.year && d.year ≤ 9999 && 1 ≤ d.month && d.month ≤ 12 && 1 ≤ d.day && d.day ≤ daysIn d.year d.month &&
  d.hour ≤ 23 && d.minute ≤ 59 && d.second ≤ 59 && d.micro ≤ 999999

/-- `datetime.datetime(...)`. -/
def mkDT (d : DateTime) : Res DateTime := if validDT d then .ok d else .error .valueError

/-- `int(comps[f])`. -/
def fieldNat (g : Groups) (f : Field) : Option Nat :=
  (g.fields.find? (fun p => p.1 = f)).map fun p => Dec.numeral p.2

/-- `s[:6].ljust(6, '0')`. -/
def micro6 (s : Str) : Str := s.take 6 ++ List.replicate (6 - s.length) '0'

/-- The number of microseconds. -/
def microOf : Option Str → Nat
  | some u => Dec.numeral (micro6 u)
  | none => 0

/-- Does the expression contain the group `year`? -/
def hasYear (rx : List RItem) : Bool := rx.any fun i => match i with | .field .year _ _ => true | _ => false

/-- `dateTime._parse` (312–335) with `cls = datetime.datetime`. -/
def parseRx (ext : Ext) (v0 : Str) (rx : Option (List RItem)) (marker : Option Str) : Res DateTime :=
  let v := strip v0
  match rx with
  | none => .error .valueError
  | some items => match matchItems items v with
    | none => .error .valueError
    | some g =>
      if g.extra.getD [] ≠ [] then .error .valueError
      else
        let (y, m, d) := if hasYear items then
            (fieldNat g .year, fieldNat g .month, fieldNat g .day)
          else (some ext.today.1, some ext.today.2.1, some ext.today.2.2)
        match y, m, d with
        | some y, some m, some d =>
          match mkDT ⟨y, m, d, (fieldNat g .hour).getD 0, (fieldNat g .minute).getD 0, (fieldNat g .second).getD 0,
              microOf g.micro, none⟩ with
          | .error e => .error e
          | .ok r =>
            if marker.getD [] ≠ [] then (ext.tzOf v).map fun t => { r with tz := t } else .ok r
        | _, _, _ => .error .typeError

/-- Digits with single underscores between them; `prev`: the previous character is a digit. -/
def intOk : Bool → Str → Bool
  | prev, [] => prev
  | prev, c :: cs => if isDig c then intOk true cs else if c = '_' ∧ prev = true then
      (match cs with | d :: _ => isDig d | [] => false) && intOk false cs else false

/-- A string without a leading `+`. -/
def dropPlus : Str → Str
  | '+' :: r => r
  | r => r

/-- The whitespace which `int(bytes)` ignores. -/
def byteSpace (c : Char) : Bool := c = ' ' || c = '\t' || c = '\n' || c = '\r' || c.toNat = 11 || c.toNat = 12

/-- A byte string without surrounding whitespace. -/
def byteStrip (s : Str) : Str := rstripP byteSpace (lstripP byteSpace s)

/-- Python's `int(bytes)` for a short ASCII byte string: surrounding whitespace, a sign, digits with single underscores
between them. Negative numbers are not distinguished (as components of a date they make `datetime` raise `ValueError` like a
syntax error). -/
def pyInt (s : Str) : Option Nat :=
  let t := dropPlus (byteStrip s)
  if t ≠ [] ∧ intOk false t then some (Dec.numeral (t.filter (· ≠ '_'))) else none

/-- Python's `int(bytes)`, with negative numbers. -/
def pyIntZ (s : Str) : Option Int :=
  match byteStrip s with
  | '-' :: t => if t ≠ [] ∧ intOk false t then some (-(Dec.numeral (t.filter (· ≠ '_')) : Int)) else none
  | _ => (pyInt s).map Int.ofNat

/-- `dateutil.parser.isoparser._parse_tzstr`: offset in minutes. -/
def isoTz (s : Str) : Option Int :=
  if s = ['Z'] ∨ s = ['z'] then some 0
  else if s.length ≠ 3 ∧ s.length ≠ 5 ∧ s.length ≠ 6 then none
  else
    match (match s.head? with | some '-' => some (-1 : Int) | some '+' => some 1 | _ => none) with
    | none => none
    | some mult =>
      match pyIntZ ((s.drop 1).take 2), (if s.length = 3 then some 0 else pyIntZ (s.drop (if (s.drop 3).head? = some ':' then 4 else 3))) with
      | some h, some m => if h = 0 ∧ m = 0 then some 0 else if m > 59 ∨ h > 23 then none else some (mult * (h * 60 + m))
      | _, _ => none

/-- Is the first character a time zone boundary (`-+Zz`)? -/
def tzHead (s : Str) : Bool := match s with
  | c :: _ => c = '-' || c = '+' || c = 'Z' || c = 'z'
  | [] => false

/-- End of `dateutil.parser.isoparser._parse_isotime`: nothing or a timezone may be left. -/
def isoTimeEnd (h m s us : Int) (r : Str) : Option (Int × Int × Int × Int × Option Int) :=
  if r = [] then some (h, m, s, us, none)
  else if tzHead r then (isoTz r).map fun t => (h, m, s, us, some t)
  else none

/-- Fraction of a second (`[\.,]([0-9]+)`): truncated to microseconds. -/
def isoFrac (h m s : Int) (r : Str) : Option (Int × Int × Int × Int × Option Int) :=
  match r with
  | c :: r' =>
    if (c = '.' ∨ c = ',') ∧ r'.takeWhile isDig ≠ [] then
      let us := (r'.takeWhile isDig).take 6
      isoTimeEnd h m s (Dec.numeral us * 10 ^ (6 - us.length)) (r'.dropWhile isDig)
    else isoTimeEnd h m s 0 r
  | [] => isoTimeEnd h m s 0 r

/-- Seconds, fraction, timezone. -/
def isoSecond (sep : Bool) (h m : Int) (r : Str) : Option (Int × Int × Int × Int × Option Int) :=
  if r = [] ∨ tzHead r then isoTimeEnd h m 0 0 r
  else if sep ∧ r.head? ≠ some ':' then none
  else
    let r := if sep then r.drop 1 else r
    match pyIntZ (r.take 2) with
    | none => none
    | some s => isoFrac h m s (r.drop 2)

/-- Minutes, seconds, fraction, timezone. -/
def isoMinute (h : Int) (r : Str) : Option (Int × Int × Int × Int × Option Int) :=
  if r = [] ∨ tzHead r then isoTimeEnd h 0 0 0 r
  else
    let sep := r.head? = some ':'
    let r := if sep then r.drop 1 else r
    match pyIntZ (r.take 2) with
    | none => none
    | some m => isoSecond sep h m (r.drop 2)

/-- `dateutil.parser.isoparser._parse_isotime`: (hour, minute, second, microsecond, timezone); the loop over the components is
unrolled. `none`: `ValueError`. -/
def isoTime (r : Str) : Option (Int × Int × Int × Int × Option Int) :=
  if r.length < 2 then none
  else
    match (if tzHead r then isoTimeEnd 0 0 0 0 r
      else match pyIntZ (r.take 2) with
        | none => none
        | some h => isoMinute h (r.drop 2)) with
    | some (h, m, s, us, tz) => if h = 24 ∧ (m ≠ 0 ∨ s ≠ 0 ∨ us ≠ 0) then none else some (h, m, s, us, tz)
    | none => none

/-- `d + datetime.timedelta(days=1)`. -/
def nextDay (d : DateTime) : Res DateTime :=
  if d.day < daysIn d.year d.month then .ok { d with day := d.day + 1 }
  else if d.month < 12 then .ok { d with month := d.month + 1, day := 1 }
  else if d.year < 9999 then .ok { d with year := d.year + 1, month := 1, day := 1 }
  else .error .overflowError

/-- `datetime.datetime(...)` with signed components of the time. -/
def mkDTZ (y mo d : Nat) (h m s us : Int) (tz : Option Int) : Res DateTime :=
  if h < 0 ∨ m < 0 ∨ s < 0 ∨ us < 0 then .error .valueError else mkDT ⟨y, mo, d, h.toNat, m.toNat, s.toNat, us.toNat, tz⟩

/-- `dateutil.parser.isoparser._parse_isodate_common`: (year, month, day, position). -/
def isoCommon (s : Str) : Option (Nat × Nat × Nat × Nat) :=
  match pyInt (s.take 4) with
  | none => none
  | some y =>
    if s.length = 4 then some (y, 1, 1, 4)
    else
      let sep := (s.drop 4).head? = some '-'
      let pos := if sep then 5 else 4
      if s.length - pos < 2 then none
      else match pyInt ((s.drop pos).take 2) with
        | none => none
        | some m =>
          let pos := pos + 2
          if s.length ≤ pos then (if sep then some (y, m, 1, pos) else none)
          else if sep ∧ (s.drop pos).head? ≠ some '-' then none
          else
            let pos := if sep then pos + 1 else pos
            if s.length - pos < 2 then none
            else match pyInt ((s.drop pos).take 2) with
              | none => none
              | some d => some (y, m, d, pos + 2)

/-- `dateutil.parser.isoparse(s)`. The uncommon date formats (week and ordinal dates, which also need a four digit year) are
external. -/
def isoparse (ext : Ext) (s : Str) : Res DateTime :=
  if !(s.all fun c => c.toNat < 128) || decide (s.length < 4) then .error .valueError
  else match pyInt (s.take 4) with
    | none => .error .valueError
    | some _ =>
      match (match isoCommon s with | some r => some r | none => ext.isoUncommon s) with
      | none => .error .valueError
      | some (y, m, d, pos) =>
        if s.length ≤ pos then mkDT ⟨y, m, d, 0, 0, 0, 0, none⟩
        else match isoTime (s.drop (pos + 1)) with
          | none => .error .valueError
          | some (hh, mi, ss, us, tz) =>
            if hh = 24 then
              match mkDT ⟨y, m, d, 0, 0, 0, 0, tz⟩ with
              | .error e => .error e
              | .ok r => nextDay r
            else mkDTZ y m d hh mi ss us tz

/-- `if pattern and regex: regex.match(v)` (338–341). -/
def preMatch (v : Str) (rx : Option (List RItem)) (pattern : Option Str) : Bool :=
  match pattern.getD [], rx with
  | _ :: _, some items => (matchItems items v).isSome
  | _, _ => true

/-- `dateTime.to_python` (337–346). -/
def dateTimeToPython (ext : Ext) (v : Str) (rx : Option (List RItem)) (marker pattern : Option Str) : Res DateTime :=
  if preMatch v rx pattern then
    match isoparse ext v with
    | .error .valueError => parseRx ext v rx marker
    | r => r
  else .error .valueError

/-- `re.compile('(Z|[+-][0-2][0-9]:[0-5][0-9])$').search(v)` (284–285): (text before, timezone). -/
def tzSuffix (v : Str) : Option (Str × Str) :=
  let r := dropNl v.reverse
  match r with
  | 'Z' :: r => some (r.reverse, ['Z'])
  | m2 :: m1 :: ':' :: h2 :: h1 :: sg :: r =>
    if (sg = '+' ∨ sg = '-') ∧ '0' ≤ h1 ∧ h1 ≤ '2' ∧ isDig h2 ∧ '0' ≤ m1 ∧ m1 ≤ '5' ∧ isDig m2 then
      some (r.reverse, [sg, h1, h2, ':', m1, m2])
    else none
  | _ => none

/-- `with_tz` (283–297): `tzOf` is the timezone dateutil assigns to the current time with the suffix appended. -/
def withTz (ext : Ext) (v : Str) (f : Str → Res DateTime) : Res DateTime :=
  match tzSuffix v with
  | none => f v
  | some (v', tz) => match f v' with
    | .error e => .error e
    | .ok r => (ext.tzOf tz).map fun t => { r with tz := t }

/-- `date.to_python` (383–386). -/
def dateToPython (ext : Ext) (v : Str) (d : Desc) : Res DateTime :=
  withTz ext (strip v) fun w => dateTimeToPython ext w d.regex none d.pattern

/-- `_time.to_python` (422–426). -/
def timeToPython (ext : Ext) (v : Str) (d : Desc) : Res DateTime :=
  if (d.pattern.getD []).any (fun c => c = 'x' || c = 'X') then ext.duParse v
  else match d.regex with
    | none => .error .assertionError
    | some _ => withTz ext v fun w => parseRx ext w d.regex d.tzMarker

/-- `'%0nd' % k`. -/
def padNat (n k : Nat) : Str := let s := Dec.digits k; List.replicate (n - s.length) '0' ++ s

/-- One field of a babel date pattern: year, month or day, zero padded to the length of the run; other
characters are literals. -/
def babelField (d : DateTime) (run : Str) : Str :=
  match run with
  | 'y' :: _ => padNat run.length d.year
  | 'M' :: _ => padNat run.length d.month
  | 'd' :: _ => padNat run.length d.day
  | _ => run

/-- `babel.dates.format_date(v, format=pattern, locale='en')`. Only patterns made of `yyyy`, `M`, `MM`, `d`, `dd`
and separators are modelled, all others are external. -/
def babelDate (ext : Ext) (pattern : Str) (d : DateTime) : Str :=
  if pattern ∈ datePatterns then ((runs pattern).map (babelField d)).flatten else ext.babelDateOther pattern d

end Csvw.DateFmt
