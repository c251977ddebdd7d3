/-!
# The names callers use for numbers in commands

The library does not look at most of these itself: a caller writes, for instance,

    PersistentReserveOutCommand(service_action=PERSISTENT_RESERVE_OUT_SERVICE_ACTION_CODES.PREEMPT,
                                pr_type=PERSISTENT_RESERVE_OUT_TYPES.EXCLUSIVE_ACCESS, ...)
-/

namespace Verif.Constants

/-- `PERSISTENT_RESERVE_OUT_SERVICE_ACTION_CODES`: `cdb/persist/output.py:10-23`. -/
inductive OutAction where
  | REGISTER
  | RESERVE
  | RELEASE
  | CLEAR
  | PREEMPT
  | PREEMPT_AND_ABORT
  | REGISTER_AND_IGNORE_EXISTING_KEY
  | REGISTER_AND_MOVE
  | REPLACE_LOST_RESERVATION

/-- The numbers: `cdb/persist/output.py:15-23`. -/
def OutAction.value : OutAction → Int
  | REGISTER => 0x00
  | RESERVE => 0x01
  | RELEASE => 0x02
  | CLEAR => 0x03
  | PREEMPT => 0x04
  | PREEMPT_AND_ABORT => 0x05
  | REGISTER_AND_IGNORE_EXISTING_KEY => 0x06
  | REGISTER_AND_MOVE => 0x07
  | REPLACE_LOST_RESERVATION => 0x08

/-- `PERSISTENT_RESERVE_OUT_TYPES`: `cdb/persist/output.py:25-35`. -/
inductive OutType where
  | WRITE_EXCLUSIVE
  | EXCLUSIVE_ACCESS
  | WRITE_EXCLUSIVE_REGISTRANTS_ONLY
  | EXCLUSIVE_ACCESS_REGISTRANTS_ONLY
  | WRITE_EXCLUSIVE_ALL_REGISTRANTS
  | EXCLUSIVE_ACCESS_ALL_REGISTRANTS

/-- The numbers: `cdb/persist/output.py:30-35`. -/
def OutType.value : OutType → Int
  | WRITE_EXCLUSIVE => 0x01
  | EXCLUSIVE_ACCESS => 0x03
  | WRITE_EXCLUSIVE_REGISTRANTS_ONLY => 0x05
  | EXCLUSIVE_ACCESS_REGISTRANTS_ONLY => 0x6
  | WRITE_EXCLUSIVE_ALL_REGISTRANTS => 0x07
  | EXCLUSIVE_ACCESS_ALL_REGISTRANTS => 0x8

/-- `PERSISTENT_RESERVE_IN_SERVICE_ACTION_CODES`: `cdb/persist/input.py:10-18`. -/
inductive InAction where
  | READ_KEYS
  | READ_RESERVATION
  | REPORT_CAPABILITIES
  | READ_FULL_STATUS

/-- The numbers: `cdb/persist/input.py:15-18`. -/
def InAction.value : InAction → Int
  | READ_KEYS => 0x00
  | READ_RESERVATION => 0x01
  | REPORT_CAPABILITIES => 0x02
  | READ_FULL_STATUS => 0x03

end Verif.Constants
