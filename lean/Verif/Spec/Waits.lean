/-!
# What Windows documents about `WaitForMultipleObjects`

The function as `kernel32` exports it, called for any one of the given handles (`bWaitAll` FALSE). Independent of the code modelled.
-/

namespace Verif.Spec

/-- `MAXIMUM_WAIT_OBJECTS` (winnt.h). -/
def maximumWaitObjects : Nat := 64

/-- `WaitAny ready handles r`: the call may return `r`, a `DWORD` seen as a C `int`. `ready` says which of the events are signalled when the
call is made or become signalled before its time is over. The handles are those of events, so that `WAIT_ABANDONED_0` (mutexes only) is
never returned. -/
inductive WaitAny (ready : Nat → Prop) (handles : List Nat) : Int → Prop
  /-- `WAIT_OBJECT_0 + k`: the event with index `k` was signalled. -/
  | object {k h : Nat} : 0 < handles.length → handles.length ≤ maximumWaitObjects → handles[k]? = some h → ready h → WaitAny ready handles k
  /-- `WAIT_TIMEOUT`: none was. -/
  | timeout : 0 < handles.length → handles.length ≤ maximumWaitObjects → (∀ h ∈ handles, ¬ ready h) → WaitAny ready handles 0x102
  /-- `WAIT_FAILED`: no handles, too many handles, or for another reason. -/
  | failed : WaitAny ready handles (-1)

/-- The call does not fail unless it must: what a user may expect of a healthy system. -/
def Healthy (handles : List Nat) (r : Int) : Prop := 0 < handles.length → handles.length ≤ maximumWaitObjects → r ≠ -1

end Verif.Spec
