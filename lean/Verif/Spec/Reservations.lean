import Verif.Spec.Disk
import Verif.Spec.Responses
/-!
# Specification: persistent reservations

A logical unit that keeps registrations and a reservation as SPC-4 (5.13) says, shared by any number of hosts. Host 0 is the one that uses the
library; between its commands the others do what they like.

Left out: SPEC_I_PT, ALL_TG_PT, APTPL, REGISTER AND MOVE, REPLACE LOST RESERVATION, READ FULL STATUS, the aborting of tasks.
-/

namespace Verif.Spec.Reservations

open Verif.Spec.Disk (good failed)

abbrev Key := UInt64

/-- Reservation types. -/
inductive Kind where
  | writeExclusive
  | exclusiveAccess
  | writeExclusiveRegistrants
  | exclusiveAccessRegistrants
  | writeExclusiveAll
  | exclusiveAccessAll
  deriving DecidableEq

def Kind.code : Kind → Nat
  | .writeExclusive => 1
  | .exclusiveAccess => 3
  | .writeExclusiveRegistrants => 5
  | .exclusiveAccessRegistrants => 6
  | .writeExclusiveAll => 7
  | .exclusiveAccessAll => 8

def Kind.ofCode : Nat → Option Kind
  | 1 => some .writeExclusive
  | 3 => some .exclusiveAccess
  | 5 => some .writeExclusiveRegistrants
  | 6 => some .exclusiveAccessRegistrants
  | 7 => some .writeExclusiveAll
  | 8 => some .exclusiveAccessAll
  | _ => none

/-- With these types every registered host holds the reservation. -/
def Kind.everyRegistrant : Kind → Bool
  | .writeExclusiveAll | .exclusiveAccessAll => true
  | _ => false

/-- With these types every registered host may use the unit, and is told when the reservation ends. -/
def Kind.registrants : Kind → Bool
  | .writeExclusive | .exclusiveAccess => false
  | _ => true

/-- Unit attentions with additional sense code 2Ah. -/
inductive Notice where
  | reservationsPreempted
  | reservationsReleased
  | registrationsPreempted
  deriving DecidableEq

def Notice.ascq : Notice → Nat
  | .reservationsPreempted => 3
  | .reservationsReleased => 4
  | .registrationsPreempted => 5

/-- Registrations in order of their making (host and key) and how many there may be, the reservation (the host that made it and its type), the number
of changes, and a unit attention waiting for host 0. -/
structure Lun where
  generation : Nat
  keys : List (Nat × Key)
  limit : Nat
  holder : Option (Nat × Kind)
  attention : Option Notice

/-- PERSISTENT RESERVE OUT service actions. -/
inductive Action where
  | register (old new : Key)
  | registerAnyway (new : Key)
  | reserve (type : Nat) (key : Key)
  | release (type : Nat) (key : Key)
  | clear (key : Key)
  | preempt (type : Nat) (key victim : Key) (abort : Bool)
  deriving DecidableEq

inductive Verdict where
  | done
  | conflict
  /-- ILLEGAL REQUEST with this additional sense code -/
  | illegal (asc ascq : Nat)
  deriving DecidableEq

def keyOf (u : Lun) (host : Nat) : Option Key := u.keys.lookup host

/-- The host is registered with this key. -/
def knows (u : Lun) (host : Nat) (key : Key) : Bool := keyOf u host == some key

def changed (u : Lun) : Lun := { u with generation := u.generation + 1 }

/-- Host 0 is told, unless it is the one that did it or has nothing to do with it. -/
def warn (u : Lun) (doer : Nat) (why : Notice) (concerned : Bool) : Lun :=
  if doer ≠ 0 ∧ concerned then { u with attention := some why } else u

/-- The reservation that remains when only `keys` are left registered. -/
def stillHeld (keys : List (Nat × Key)) : Option (Nat × Kind) → Option (Nat × Kind)
  | none => none
  | some (h, kind) => if kind.everyRegistrant then if keys = [] then none else some (h, kind) else if keys.any (·.1 == h) then some (h, kind) else none

/-- The registration of a host is removed; a reservation it held ends. Other registrants of a shared reservation are told (RESERVATIONS
RELEASED). -/
def unregister (u : Lun) (host : Nat) : Lun :=
  let keys := u.keys.filter (·.1 != host)
  let v := { u with keys := keys, holder := stillHeld keys u.holder }
  warn (changed v) host .reservationsReleased (v.holder.isNone && (u.holder.any (·.2.registrants)) && (keyOf u 0).isSome)

/-- A host gets a key, or another key. There may be no room for another host (INSUFFICIENT REGISTRATION RESOURCES). -/
def enroll (u : Lun) (host : Nat) (key : Key) : Verdict × Lun :=
  if (keyOf u host).isSome then (.done, changed { u with keys := u.keys.map fun r => if r.1 = host then (host, key) else r })
  else if u.keys.length < u.limit then (.done, changed { u with keys := u.keys ++ [(host, key)] })
  else (.illegal 0x55 4, u)

/-- The host holds the reservation. -/
def holds (u : Lun) (host : Nat) : Bool :=
  match u.holder with
  | none => false
  | some (h, kind) => if kind.everyRegistrant then (keyOf u host).isSome else h == host

/-- The key of the reservation a preempting host may name: that of the holder, or 0 if all registrants hold it. -/
def holderKey (u : Lun) : Option Key :=
  match u.holder with
  | none => none
  | some (h, kind) => if kind.everyRegistrant then some 0 else keyOf u h

/-- A service action of a host. -/
def act (u : Lun) (host : Nat) : Action → Verdict × Lun
  | .register old new =>
    match keyOf u host with
    | none => if old ≠ 0 then (.conflict, u) else if new = 0 then (.done, u) else enroll u host new
    | some k => if old ≠ k then (.conflict, u) else if new = 0 then (.done, unregister u host) else enroll u host new
  | .registerAnyway new =>
    if new = 0 then (.done, if (keyOf u host).isSome then unregister u host else u) else enroll u host new
  | .reserve type key =>
    if ¬ knows u host key then (.conflict, u)
    else match Kind.ofCode type with
      | none => (.illegal 0x24 0, u)
      | some kind =>
        match u.holder with
        | none => (.done, { u with holder := some (host, kind) })
        | some (_, k) => if holds u host ∧ k = kind then (.done, u) else (.conflict, u)
  | .release type key =>
    if ¬ knows u host key then (.conflict, u)
    else match u.holder with
      | none => (.done, u)
      | some (_, kind) =>
        if ¬ holds u host then (.done, u)
        else if kind.code ≠ type then (.illegal 0x26 4, u)
        else (.done, warn { u with holder := none } host .reservationsReleased (kind.registrants && (keyOf u 0).isSome))
  | .clear key =>
    if ¬ knows u host key then (.conflict, u)
    else (.done, warn (changed { u with keys := [], holder := none }) host .reservationsPreempted (keyOf u 0).isSome)
  | .preempt type key victim _ =>
    if ¬ knows u host key then (.conflict, u)
    else if holderKey u = some victim then
      match Kind.ofCode type with
      | none => (.illegal 0x24 0, u)
      | some kind =>
        let keys := u.keys.filter fun r => r.1 == host || (r.2 != victim && victim != 0)
        (.done, warn (changed { u with keys := keys, holder := some (host, kind) }) host .registrationsPreempted ((keyOf u 0).isSome && (keys.lookup 0).isNone))
    else if victim = 0 ∧ u.holder.isSome then (.illegal 0x26 0, u)
    else if u.keys.all (·.2 != victim) then (.conflict, u)
    else
      let keys := u.keys.filter (·.2 != victim)
      (.done, warn (changed { u with keys := keys, holder := stillHeld keys u.holder }) host .registrationsPreempted ((keyOf u 0).isSome && (keys.lookup 0).isNone))

/-! ## The target -/

open Verif.Spec.Cdb in
/-- The service action in a PERSISTENT RESERVE OUT command. -/
def actionOf (action type key saKey : Nat) : Option Action :=
  match action with
  | 0 => some (.register (.ofNat key) (.ofNat saKey))
  | 1 => some (.reserve type (.ofNat key))
  | 2 => some (.release type (.ofNat key))
  | 3 => some (.clear (.ofNat key))
  | 4 => some (.preempt type (.ofNat key) (.ofNat saKey) false)
  | 5 => some (.preempt type (.ofNat key) (.ofNat saKey) true)
  | 6 => some (.registerAnyway (.ofNat saKey))
  | _ => none

/-- RESERVATION CONFLICT. -/
def refused : Answer := { status := 0x18, sense := [], data := [] }

def answerOf : Verdict → Answer
  | .done => good []
  | .conflict => refused
  | .illegal asc ascq => failed 5 asc ascq

/-- READ KEYS data. -/
def keysData (u : Lun) : Bytes := readKeys (u.generation % 2 ^ 32) (u.keys.map (·.2.toNat))

/-- READ RESERVATION data: nothing but the header, or key (0 if all registrants hold it), obsolete and reserved bytes, scope 0 and type. -/
def reservationData (u : Lun) : Bytes :=
  match u.holder with
  | none => be 4 (u.generation % 2 ^ 32) ++ be 4 0
  | some (_, kind) => be 4 (u.generation % 2 ^ 32) ++ be 4 16 ++ be 8 ((holderKey u).getD 0).toNat ++ [0, 0, 0, 0, 0, byte kind.code, 0, 0]

open Verif.Spec.Cdb in
/-- What the unit does with a task of host 0. -/
def perform (u : Lun) : Meaning → Answer × Lun
  | .testUnitReady => (good [], u)
  | .persistentReserveIn 0 n => (good ((keysData u).take n), u)
  | .persistentReserveIn 1 n => (good ((reservationData u).take n), u)
  | .persistentReserveOut action type key saKey =>
    match actionOf action type key saKey with
    | some a => (answerOf (act u 0 a).1, (act u 0 a).2)
    | none => (failed 5 0x24 0, u)
  | _ => (failed 5 0x20 0, u)

/-- A waiting unit attention is reported first, instead of doing anything. -/
def serve (u : Lun) (q : OsRequest) : Answer × Lun :=
  match u.attention with
  | some why => (failed 6 0x2A why.ascq, { u with attention := none })
  | none =>
    match Cdb.decode q.cdb q.toDevice with
    | some task => perform u task
    | none => (failed 5 0x20 0, u)

/-- What other hosts do one after the other (host numbers from 1 on). -/
def others (u : Lun) : List (Nat × Action) → Lun
  | [] => u
  | (h, a) :: rest => others (act u (h + 1) a).2 rest

/-- The shared unit as host 0 sees it: before each of its commands some more actions of the others have happened. -/
def shared : Device (Lun × List (List (Nat × Action))) := fun k q =>
  let r := serve (others k.1 (k.2.headD [])) q
  (r.1, r.2, k.2.tail)

/-! ## The caller -/

inductive Op where
  | ready
  | act (a : Action)
  /-- the registered keys, with room for so many -/
  | keys (room : Nat)
  | reservation

inductive Reply where
  | ready
  | done
  | conflict
  | failed (key asc ascq : Nat)
  | keys (generation : Nat) (keys : List Key)
  /-- more keys than there is room for -/
  | tooMany (generation count : Nat)
  | reservation (generation : Nat) (held : Option (Key × Nat))
  deriving DecidableEq

/-- What an operation of host 0 does and what its caller is told. -/
def Op.run (u : Lun) (op : Op) : Reply × Lun :=
  match u.attention with
  | some why => (.failed 6 0x2A why.ascq, { u with attention := none })
  | none =>
    match op with
    | .ready => (.ready, u)
    | .act a =>
      match Reservations.act u 0 a with
      | (.done, v) => (.done, v)
      | (.conflict, v) => (.conflict, v)
      | (.illegal asc ascq, v) => (.failed 5 asc ascq, v)
    | .keys room =>
      if u.keys.length ≤ room then (.keys (u.generation % 2 ^ 32) (u.keys.map (·.2)), u) else (.tooMany (u.generation % 2 ^ 32) u.keys.length, u)
    | .reservation =>
      (.reservation (u.generation % 2 ^ 32) (u.holder.map fun h => ((holderKey u).getD 0, h.2.code)), u)

/-- Operations of host 0, interleaved with what the others do. -/
def runOps : List Op → Lun → List (List (Nat × Action)) → List Reply × Lun
  | [], u, _ => ([], u)
  | o :: os, u, s =>
    let r := o.run (others u (s.headD []))
    let rs := runOps os r.2 s.tail
    (r.1 :: rs.1, rs.2)

end Verif.Spec.Reservations
