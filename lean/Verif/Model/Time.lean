import Verif.Core.Stream

/-! # `src/time/time.cpp` -/

namespace Mp4

/-- `SECONDS_19040101_to_19700101` (include/shiguredo/mp4/time/time.hpp). -/
def SECONDS_19040101_to_19700101 : BitVec 64 := 2082844800#64

/-- `convert_to_epoch_19040101` (src/time/time.cpp:23-25). -/
def convert_to_epoch_19040101 (t : BitVec 64) : BitVec 64 := t + SECONDS_19040101_to_19700101

/-- What `format_epoch_19040101` prints. -/
inductive TimeText where
  /-- `"0000-00-00T00:00:00Z"` -/
  | tooBig
  /-- `gmtime_r` + `{:%FT%TZ}` of this signed number of seconds since 1970 (libc, not modelled) -/
  | calendar (secondsSince1970 : Int)
  deriving DecidableEq, Repr

/-- `format_epoch_19040101` (src/time/time.cpp:12-21): `std::time_t` is a signed 64-bit integer, the comparison with
`UINT32_MAX` is done in 64 bits signed. -/
def format_epoch_19040101 (t : BitVec 64) : TimeText :=
  let from1970 := (t - SECONDS_19040101_to_19700101).toInt
  if from1970 > 4294967295 then .tooBig else .calendar from1970

end Mp4
