import Verif.Model.FloatOps

/-! Dates and durations, src/helper_functions.rs:33-130. -/

namespace Dxf

/-- `DateTime<Local>` and `DateTime<Utc>` as nanoseconds since `epoch(timezone)`, midnight of
1900-01-01 in that time zone (src/helper_functions.rs:42-48). -/
abbrev Date := Int

/-- Models `as_double`, src/helper_functions.rs:97-104. -/
def Date.asDouble (d : Date) : F64 :=
  ((((F64.ofInt (d.tdiv 1000000000)).div (F64.ofInt 24)).div (F64.ofInt 60)).div
    (F64.ofInt 60)).add (F64.ofInt 2415021)

/-- The last second that a `DateTime` of the chrono crate can hold (262142-12-31, 23:59:59 UTC;
older releases of the crate go one year further), in seconds since 1900-01-01.  For
`DateTime<Local>` the limit is shifted by the offset of the time zone; the model takes UTC. -/
def Date.maxSecs : Int := 95051804 * 86400 - 1

/-- Models `as_datetime` with `f64_to_adjusted_duration`, src/helper_functions.rs:33-66.  The
panics: `seconds as i64 - secs_per_day` overflows, `ChronoDuration::seconds` does not take more
than `i64::MAX / 1000` seconds, and the sum with the epoch may be out of range. -/
def Date.ofDouble (f : F64) : Except DxfErr Date :=
  if f.isFinite && f.units = 0 then .ok 0
  else
    let days := f.sub (F64.ofInt 2415020)
    let seconds := (days.mul (F64.ofInt 86400)).toIntSat (-2 ^ 63) (2 ^ 63 - 1)
    if seconds - 86400 < -2 ^ 63 then .error .panic
    else
      let s := seconds - 86400 + 1
      if s < -((2 ^ 63 - 1) / 1000) ∨ (2 ^ 63 - 1) / 1000 < s then .error .panic
      else if 0 < s then
        if Date.maxSecs < s then .error .panic else .ok (s * 1000000000)
      else .ok 0

/-- `std::time::Duration`. -/
structure Dur where
  secs : BitVec 64
  nanos : Nat
  deriving DecidableEq, Repr

/-- Models `duration_as_double`, src/helper_functions.rs:124-126. -/
def Dur.asDouble (d : Dur) : F64 := F64.ofInt d.secs.toNat

/-- Models `as_duration`, src/helper_functions.rs:128-130. -/
def Dur.ofDouble (f : F64) : Dur := ⟨BitVec.ofInt 64 (f.toIntSat 0 (2 ^ 64 - 1)), 0⟩

end Dxf
