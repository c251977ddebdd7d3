import Verif.Base
/-!
# Model of `UnixFile.read` (unix.py:15-24)

The loop polls the descriptor, sleeps, and looks at the clock. The environment gives, for every round `k` of the loop, whether
`select` finds the descriptor readable (`ready k`), what `time.time()` returns after the sleep of that round (`clock k`), and what
`os.read` returns once round `k` found it readable. Times are in arbitrary integer units. `select` raises for descriptors it has no bit for (`readFd`); it is
not taken to raise otherwise.
-/

namespace Verif.Unix

/-- The environment of one call of `read`. -/
structure Env where
  start : Int
  ready : Nat → Bool
  clock : Nat → Int
  osRead : Nat → Py Bytes

/-- The loop from round `k`, cut off after `fuel` rounds (`none`: still looping). Result and the number of the last round. -/
def pollLoop (env : Env) (timeout : Int) : (fuel : Nat) → (k : Nat) → Option (Py Bytes × Nat)
  | 0, _ => none
  | fuel + 1, k =>
    if env.ready k then some (env.osRead k, k)                                            -- return os.read(...)
    else if env.clock k > env.start + timeout then some (.error .ioError, k)              -- raise IOError(...)
    else pollLoop env timeout fuel (k + 1)

/-- `read` ends, with this result, in this round. -/
def Reads (env : Env) (timeout : Int) (r : Py Bytes) (k : Nat) : Prop := ∃ fuel, pollLoop env timeout fuel 0 = some (r, k)

/-- `FD_SETSIZE` of select(2) on Linux; it cannot be changed there. CPython's `select.select` checks it. (Only the sg executer calls `UnixFile.read`.) -/
def fdSetSize : Nat := 1024

/-- `read` (unix.py:15-24) of a file with descriptor `fd`: `select.select([self.fd], [], [], 0)` is a `ValueError` ("filedescriptor out of range in select()")
for a descriptor that is not below `FD_SETSIZE`, before anything was read. -/
def ReadsFd (fd : Nat) (env : Env) (timeout : Int) (r : Py Bytes) (k : Nat) : Prop :=
  if fd < fdSetSize then Reads env timeout r k else r = .error .valueError ∧ k = 0

end Verif.Unix
