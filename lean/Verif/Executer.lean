import Verif.Base
/-!
# Model of `CommandExecuterBase` (src/infi/asi/__init__.py:71-157)

The executer's methods are generators driven by `sync_wait`; here each method is modelled as the state
transformer obtained by running it to completion (that driving a generator is the same as this direct-style reading
is the subject of `Verif.Coroutine`, and `Verif.ExecuterGen` proves the link for these very methods).

Simplifications, all stated in DESIGN.md: user callbacks are recorded (who was called with what), they neither raise
nor re-enter the executer; the operating system is an arbitrary state machine.
-/

namespace Verif.Executer

/-- A Python `dict` with integer keys, in insertion order. -/
abbrev Dict (α : Type) := List (Nat × α)

namespace Dict
/-- `d.get(k)` -/
def get {α} (d : Dict α) (k : Nat) : Option α :=
  match d with
  | [] => none
  | (k', v) :: r => if k' = k then some v else get r k

/-- `d[k] = v` : replaces in place, or appends. -/
def set {α} (d : Dict α) (k : Nat) (v : α) : Dict α :=
  match d with
  | [] => [(k, v)]
  | (k', v') :: r => if k' = k then (k, v) :: r else (k', v') :: set r k v

/-- `del d[k]` -/
def erase {α} (d : Dict α) (k : Nat) : Dict α :=
  match d with
  | [] => []
  | (k', v') :: r => if k' = k then r else (k', v') :: erase r k

/-- The keys, in insertion order. -/
def keys {α} (d : Dict α) : List Nat := d.map Prod.fst
end Dict

/-- What a platform's `_os_receive` hands over: the data, or an exception instance
(`isinstance(result, Exception)`, __init__.py:133). -/
inductive Outcome (D E : Type) where
  | data (d : D)
  | exc (e : E)
  deriving DecidableEq, Repr

/-- The two positional arguments of a callback: `callback(data, exception)`; `none` is Python's `None`. -/
structure CbArgs (D E : Type) where
  data : Option D
  exc : Option E
  deriving DecidableEq, Repr

/-- State of a `CommandExecuterBase` (__init__.py:72-75): `pending_packets`, `packet_index`, `max_queue_size`.
A negative `max_queue_size` behaves as 0 (every send is refused). -/
structure St (Q K : Type) where
  pending : Dict (Q × Option K)
  index : Nat
  maxq : Nat

/-- `__init__` (__init__.py:72-75) -/
def St.init (Q K : Type) (maxq : Nat) : St Q K := { pending := [], index := 0, maxq := maxq }

variable {Q K D E ω : Type}

/-- `is_queue_full` (__init__.py:93-94) -/
def isQueueFull (s : St Q K) : Bool := decide (s.pending.length ≥ s.maxq)

/-- `is_queue_empty` (__init__.py:96-97) -/
def isQueueEmpty (s : St Q K) : Bool := decide (s.pending.length = 0)

/-- `_get_os_data` (__init__.py:140-141) -/
def getOsData (s : St Q K) (packetIndex : Nat) : Option Q := (Dict.get s.pending packetIndex).map Prod.fst

/-- `_next_packet_index` (__init__.py:116-121). `AsiRequestQueueFullError` is not imported by the module
(__init__.py:6 imports three other names), so line 118 raises `NameError`. -/
def nextPacketIndex (s : St Q K) : Py (Nat × St Q K) :=
  if s.pending.length ≥ s.maxq then .error .nameError
  else .ok (s.index, { s with index := (s.index + 1) % s.maxq })

/-- The result of `send`. -/
structure SendResult (Q K ω : Type) where
  out : Py Unit
  st : St Q K
  os : ω

/-- `send` (__init__.py:99-110). `prepare` is the platform's `_os_prepare_to_send(command, packet_index)`,
`osSend` its `_os_send(os_data)`; both may raise. -/
def send (prepare : Nat → Py Q) (osSend : Q → ω → Py Unit × ω) (cb : Option K) (s : St Q K) (w : ω) :
    SendResult Q K ω :=
  match nextPacketIndex s with
  | .error e => ⟨.error e, s, w⟩
  | .ok (i, s1) =>
    match prepare i with
    | .error e => ⟨.error e, s1, w⟩
    | .ok q =>
      let s2 := { s1 with pending := Dict.set s1.pending i (q, cb) }
      match osSend q w with
      | (.error e, w') => ⟨.error e, { s2 with pending := Dict.erase s2.pending i }, w'⟩
      | (.ok (), w') => ⟨.ok (), s2, w'⟩

/-- The result of `_process_pending_response`: value or exception, the callback invoked (if any), new states. -/
structure ProcResult (Q K D E ω : Type) where
  out : Py Bool
  fired : Option (K × CbArgs D E)
  st : St Q K
  os : ω

/-- Callback arguments chosen at __init__.py:133-136. -/
def cbArgs : Outcome D E → CbArgs D E
  | .exc e => { data := none, exc := some e }
  | .data d => { data := some d, exc := none }

/-- `_process_pending_response` (__init__.py:123-138). `recv` is the platform's `_os_receive`, which may raise and
may look at the pending packets (through `_get_os_data`). On an empty queue `yield False` (line 125) is followed by the
very same code, so emptiness makes no difference. A `None` callback raises `TypeError` after the packet was popped. -/
def process (recv : St Q K → ω → Py (Outcome D E × Nat) × ω) (s : St Q K) (w : ω) : ProcResult Q K D E ω :=
  match recv s w with
  | (.error e, w') => ⟨.error e, none, s, w'⟩
  | (.ok (result, packetId), w') =>
    match Dict.get s.pending packetId with
    | none => ⟨.error .asiInternal, none, s, w'⟩
    | some (_, cb) =>
      let s' := { s with pending := Dict.erase s.pending packetId }
      match cb with
      | none => ⟨.error .typeError, none, s', w'⟩
      | some k => ⟨.ok true, some (k, cbArgs result), s', w'⟩

theorem Dict.erase_length_of_get {α} {d : Dict α} {k : Nat} {v : α} (h : Dict.get d k = some v) :
    (Dict.erase d k).length + 1 = d.length := by
  induction d with
  | nil => simp [Dict.get] at h
  | cons p r ih =>
    obtain ⟨k', v'⟩ := p
    by_cases hk : k' = k
    · simp [Dict.erase, hk]
    · simp only [Dict.get, hk, if_false] at h
      simp [Dict.erase, hk, ih h]

/-- A successful `_process_pending_response` consumes exactly one pending packet. -/
theorem process_ok_length {recv : St Q K → ω → Py (Outcome D E × Nat) × ω} {s : St Q K} {w : ω} {b : Bool}
    (h : (process recv s w).out = .ok b) : (process recv s w).st.pending.length + 1 = s.pending.length := by
  revert h
  unfold process
  split
  · simp
  · split
    · simp
    · rename_i hg
      dsimp only
      split
      · simp
      · intro _; exact Dict.erase_length_of_get hg

/-- The result of `wait`. -/
structure WaitResult (Q K D E ω : Type) where
  out : Py Unit
  fired : List (K × CbArgs D E)
  st : St Q K
  os : ω

/-- `wait` (__init__.py:112-114) -/
def wait (recv : St Q K → ω → Py (Outcome D E × Nat) × ω) (s : St Q K) (w : ω) : WaitResult Q K D E ω :=
  if isQueueEmpty s then ⟨.ok (), [], s, w⟩
  else
    match h : (process recv s w).out with
    | .error e => ⟨.error e, (process recv s w).fired.toList, (process recv s w).st, (process recv s w).os⟩
    | .ok _ =>
      have := process_ok_length h
      let r := wait recv (process recv s w).st (process recv s w).os
      ⟨r.out, (process recv s w).fired.toList ++ r.fired, r.st, r.os⟩
termination_by s.pending.length
decreasing_by omega

/-- What `call` raises: an exception of the executer itself, or the device's exception delivered to `my_cb`. -/
inductive Exn (E : Type) where
  | py (e : PyErr)
  | dev (e : E)
  deriving DecidableEq, Repr

/-- The result of `call`: `out` is the yielded data (`none` = Python `None`); `fired` lists the invocations of
callbacks other than the call's own `my_cb`. -/
structure CallResult (Q K D E ω : Type) where
  out : Except (Exn E) (Option D)
  fired : List (K × CbArgs D E)
  st : St Q K
  os : ω

/-- The loop of `call` (__init__.py:84-91). Callbacks are `Option K`: `none` is the local `my_cb` of this call,
`some k` any other callback. The loop runs until `my_cb` was invoked. -/
def callLoop (recv : St Q (Option K) → ω → Py (Outcome D E × Nat) × ω) (s : St Q (Option K)) (w : ω) :
    CallResult Q (Option K) D E ω :=
  match h : (process recv s w).out with
  | .error e => ⟨.error (.py e), (process recv s w).fired.toList, (process recv s w).st, (process recv s w).os⟩
  | .ok _ =>
    have := process_ok_length h
    match (process recv s w).fired with
    | some (none, args) =>
      match args.exc with
      | some e => ⟨.error (.dev e), [], (process recv s w).st, (process recv s w).os⟩
      | none => ⟨.ok args.data, [], (process recv s w).st, (process recv s w).os⟩
    | other =>
      let r := callLoop recv (process recv s w).st (process recv s w).os
      ⟨r.out, other.toList ++ r.fired, r.st, r.os⟩
termination_by s.pending.length
decreasing_by omega

/-- `call` (__init__.py:77-91) -/
def call (prepare : Nat → Py Q) (osSend : Q → ω → Py Unit × ω)
    (recv : St Q (Option K) → ω → Py (Outcome D E × Nat) × ω) (s : St Q (Option K)) (w : ω) :
    CallResult Q (Option K) D E ω :=
  let r := send prepare osSend (some none) s w
  match r.out with
  | .error e => ⟨.error (.py e), [], r.st, r.os⟩
  | .ok () => callLoop recv r.st r.os

end Verif.Executer
