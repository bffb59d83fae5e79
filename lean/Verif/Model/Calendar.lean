import Verif.Model.Text
import Verif.Model.Time
import Verif.Spec.Calendar

/-! # `gmtime_r` and `{:%FT%TZ}` as used by `src/time/time.cpp:12-21`

`gmtime_r` is a function of the C library and `%F`, `%T` are from `fmt/chrono.h`; both are outside the repository.  This is what the
model assumes of them. -/

namespace Mp4

/-- The date `z` days after 1970-01-01, by splitting into cycles of 400, 100, 4 years and 1 year that begin on the first of March. -/
def civil (z : Int) : Int × Nat × Nat :=
  let z := z + 719468
  let era := z / 146097
  let doe := (z % 146097).toNat
  let c := min (doe / 36524) 3
  let doc := doe - 36524 * c
  let q := doc / 1461
  let doq := doc % 1461
  let yy := min (doq / 365) 3
  let doy := doq - 365 * yy
  let mp := (5 * doy + 2) / 153
  let d := doy - (153 * mp + 2) / 5 + 1
  let m := if mp < 10 then mp + 3 else mp - 9
  let y := era * 400 + (100 * c + 4 * q + yy : Nat)
  (if m ≤ 2 then y + 1 else y, m, d)

/-- The broken-down time of a number of seconds since 1970. -/
def utc (t : Int) : DateTime :=
  let days := t / 86400
  let sec := (t % 86400).toNat
  let (year, month, day) := civil days
  { year, month, day, hour := sec / 3600, minute := sec % 3600 / 60, second := sec % 60 }

/-- `gmtime_r` of glibc: the broken-down time, or `NULL` when the year minus 1900 does not fit into `int tm_year`. -/
def gmtime_r (t : Int) : Option DateTime :=
  let d := utc t
  if -2 ^ 31 ≤ d.year - 1900 ∧ d.year - 1900 < 2 ^ 31 then some d else none

/-- The year as `%F` prints it (`on_iso_date` and `write_year_extended` of fmt/chrono.h): at least four characters. -/
def yearText (y : Int) : List Byte :=
  if 0 ≤ y ∧ y < 10000 then decPad 4 y.natAbs
  else
    let width := if y < 0 then 3 else 4
    let n := dec y.natAbs
    sign (y < 0) ++ List.replicate (width - n.length) 0x30#8 ++ n

/-- `{:%FT%TZ}` -/
def DateTime.text (d : DateTime) : List Byte :=
  yearText d.year ++ b!"-" ++ decPad 2 d.month ++ b!"-" ++ decPad 2 d.day ++ b!"T" ++
    decPad 2 d.hour ++ b!":" ++ decPad 2 d.minute ++ b!":" ++ decPad 2 d.second ++ b!"Z"

/-- The string returned by `format_epoch_19040101` (src/time/time.cpp:12-21); a null pointer returned by `gmtime_r` is
dereferenced (undefined behaviour). -/
def timeText (t : BitVec 64) : Except Err (List Byte) :=
  match format_epoch_19040101 t with
  | .tooBig => .ok b!"0000-00-00T00:00:00Z"
  | .calendar s =>
    match gmtime_r s with
    | some d => .ok d.text
    | none => .error (.ub "null pointer dereferenced: gmtime_r() failed")

end Mp4
