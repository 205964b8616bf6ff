import Verif.Model.Values
/-
  Dates and times in vCards: src/vcardtool.cpp:1216-1344.
-/
namespace KC

/-! ### numbers in texts -/

/-- Decimal digits of a number (fuel: the number itself is more than enough). -/
def decAux : Nat → Nat → QString
  | 0, _ => []
  | k + 1, n => if n < 10 then [UInt16.ofNat (48 + n)] else decAux k (n / 10) ++ [UInt16.ofNat (48 + n % 10)]
/-- `QString::number(n)`. -/
def dec (n : Nat) : QString := decAux (n + 1) n
/-- `%0<w>d`, and the fields `yyyy`, `MM`, `dd`, `HH`, `mm`, `ss` of Qt's date formats: padded with zeros to `w` digits. -/
def padded (w n : Nat) : QString := List.replicate (w - (dec n).length) 48 ++ dec n

/-- `QStringView::toInt()`: surrounding white space, an optional sign, decimal digits; 0 for anything else.
    Simplification: no overflow (the code converts at most four characters at a time). -/
def toIntQ (s : QString) : Int :=
  let digits (d : QString) : Option Nat :=
    if d.isEmpty || d.any (fun c => c < 48 || 57 < c) then none else some (d.foldl (fun n c => 10 * n + (c.toNat - 48)) 0)
  match trimmedQ s with
  | [] => 0
  | c :: t =>
    if c = qc! '-' then match digits t with | some n => -(n : Int) | none => 0
    else if c = qc! '+' then match digits t with | some n => (n : Int) | none => 0
    else match digits (c :: t) with | some n => (n : Int) | none => 0

/-! ### calendar -/

/-- Leap years of the proleptic Gregorian calendar without a year 0 (`QDate::isLeapYear`). -/
def isLeap (y : Int) : Bool :=
  let y := if y < 1 then y + 1 else y
  y % 4 = 0 && (y % 100 ≠ 0 || y % 400 = 0)

/-- `QDate::daysInMonth`. -/
def daysInMonth (y m : Int) : Int :=
  if m = 2 then (if isLeap y then 29 else 28) else if m = 4 || m = 6 || m = 9 || m = 11 then 30 else 31

/-- `QDate::isValid(y, m, d)`. -/
def validDate (y m d : Int) : Bool := y ≠ 0 && 1 ≤ m && m ≤ 12 && 1 ≤ d && d ≤ daysInMonth y m
/-- `QTime::isValid(h, m, s)`. -/
def validTime (h m s : Int) : Bool := 0 ≤ h && h < 24 && 0 ≤ m && m < 60 && 0 ≤ s && s < 60

/-! ### writing -/

/-- `VCardTool::createDate`, vcardtool.cpp:1320-1333. -/
def createDate (date : Int × Nat × Nat) (v4 : Bool) : QString :=
  let sep : QString := if v4 then [] else [qc! '-']
  let year := if date.1 > 0 then padded 4 date.1.toNat ++ sep else [qc! '-', qc! '-']
  year ++ padded 2 date.2.1 ++ sep ++ padded 2 date.2.2

/-- `VCardTool::createTime`, vcardtool.cpp:1335-1344. -/
def createTime (time : Nat × Nat × Nat × Nat) (v4 : Bool) : QString :=
  let sep : QString := if v4 then [] else [qc! ':']
  qc! 'T' :: (padded 2 time.1 ++ sep ++ padded 2 time.2.1 ++ sep ++ padded 2 time.2.2.1)

/-- `VCardTool::createDateTime`, vcardtool.cpp:1291-1318. -/
def createDateTime (dt : QDateTime) (v4 : Bool) (withTime : Bool := true) : QString :=
  match dt with
  | none => []
  | some d =>
    let str := createDate d.date v4
    if !withTime then str
    else
      let str := str ++ createTime d.time v4
      match d.zone with
      | none => str
      | some o =>
        if o = 0 then str ++ [qc! 'Z']
        else
          let secs := o.natAbs % 86400          -- QTime(0, 0).addSecs(abs(offsetSecs)) wraps at midnight
          let sep : QString := if v4 then [] else [qc! ':']
          str ++ [if o ≥ 0 then qc! '+' else qc! '-'] ++ padded 2 (secs / 3600) ++ sep ++ padded 2 (secs / 60 % 60)

/-! ### reading -/

/-- `indexOf(c)` as a number, -1 when there is none. -/
def indexQ (c : UInt16) (s : QString) : Int := match indexOf? c s with | some i => i | none => -1

/-- The date part of `VCardTool::parseDateTime`, vcardtool.cpp:1221-1233; `none` is an invalid date. -/
def parseDatePart (s : QString) : Option (Int × Nat × Nat) :=
  let noYear := startsWith (q! "--") s
  let dstr := removeChar (qc! '-') s
  let ymd : Int × Int × Int :=
    if noYear then (-1, toIntQ (mid dstr 0 2), toIntQ (mid dstr 2 2))
    else (toIntQ (mid dstr 0 4), toIntQ (mid dstr 4 2), toIntQ (mid dstr 6 2))
  if validDate ymd.1 ymd.2.1 ymd.2.2 then some (ymd.1, ymd.2.1.toNat, ymd.2.2.toNat) else none

/-- The time of day in `VCardTool::parseDateTime`, vcardtool.cpp:1245-1264. -/
def parseHms (s : QString) : Int × Int × Int :=
  match s.length with
  | 2 => (toIntQ s, 0, 0)
  | 4 => (toIntQ (mid s 0 2), toIntQ (mid s 2 2), 0)
  | 6 => (toIntQ (mid s 0 2), toIntQ (mid s 2 2), toIntQ (mid s 4 2))
  | _ => (0, 0, 0)

/-- The zone in `VCardTool::parseDateTime`, vcardtool.cpp:1272-1284: seconds ahead of UTC. -/
def parseOffset (s : QString) (minus : Bool) : Int :=
  let secs : Int := match s.length with
    | 2 => toIntQ (s.take 2) * 3600
    | 4 => toIntQ (s.take 2) * 3600 + toIntQ (mid s 2 2) * 60
    | _ => 0
  if minus then -secs else secs

/-- `VCardTool::parseDateTime`, vcardtool.cpp:1216-1289: the date and time, and whether the time is valid.
    Qt: an offset of more than 16 hours makes the zone, and with it the result, invalid; an offset of 0 is UTC; a valid date with an
    invalid time gets midnight. Simplification: local times that a change to summer time skips are kept as they are. -/
def parseDateTime (str : QString) : QDateTime × Bool :=
  let posT := indexQ (qc! 'T') str
  let date := parseDatePart (if posT ≥ 0 then str.take posT.toNat else str)
  if posT ≥ 0 then
    let timeString := removeChar (qc! ':') (str.drop (posT.toNat + 1))
    let zPos := indexQ (qc! 'Z') timeString
    let plusPos := indexQ (qc! '+') timeString
    let minusPos := indexQ (qc! '-') timeString
    let tzPos := max (max zPos plusPos) minusPos
    let hms := parseHms (if tzPos ≥ 0 then timeString.take tzPos.toNat else timeString)
    let timeOk := validTime hms.1 hms.2.1 hms.2.2
    let time : Nat × Nat × Nat × Nat := if timeOk then (hms.1.toNat, hms.2.1.toNat, hms.2.2.toNat, 0) else (0, 0, 0, 0)
    let zone : Option Int :=
      if tzPos ≥ 0 then
        if zPos ≥ 0 then some 0 else some (parseOffset (timeString.drop (tzPos.toNat + 1)) (minusPos ≥ 0))
      else none
    let zoneOk := match zone with | some o => -57600 ≤ o && o ≤ 57600 | none => true
    ((if zoneOk then date.map fun d => { date := d, time := time, zone := zone } else none), timeOk)
  else (date.map fun d => { date := d, time := (0, 0, 0, 0), zone := none }, false)

end KC
