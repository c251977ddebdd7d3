import Verif.Spec.Reservations
import Verif.Props.Target
/-!
# C65: persistent reservations through the library

PERSISTENT RESERVE OUT and PERSISTENT RESERVE IN commands built by the library, executed through driver, executer and operating system, in front of a
unit that other hosts register with, reserve and preempt at the same time.
-/
set_option linter.unusedSimpArgs false
set_option linter.unusedSectionVars false

namespace Verif.Commands

open Verif.Executer Verif.Coroutine Verif.ExecuterGen Verif.Platform Verif.Spec Verif.Spec.Cdb Verif.Sense

namespace Reserve

open Verif.Spec.Reservations
open Verif.Spec.Disk (good failed Each)

/-- The command object a caller uses for an operation. -/
inductive Asks : Cmd → Op → Prop
  | ready : Asks .testUnitReady .ready
  | register {old new : Key} : Asks (.persistentReserveOut { serviceAction := 0, key := old.toNat, saKey := new.toNat }) (.act (.register old new))
  | registerAnyway {old new : Key} :
      Asks (.persistentReserveOut { serviceAction := 6, key := old.toNat, saKey := new.toNat }) (.act (.registerAnyway new))
  | reserve {type : Nat} {key : Key} : type < 16 →
      Asks (.persistentReserveOut { serviceAction := 1, prType := type, key := key.toNat }) (.act (.reserve type key))
  | release {type : Nat} {key : Key} : type < 16 →
      Asks (.persistentReserveOut { serviceAction := 2, prType := type, key := key.toNat }) (.act (.release type key))
  | clear {key : Key} : Asks (.persistentReserveOut { serviceAction := 3, key := key.toNat }) (.act (.clear key))
  | preempt {type : Nat} {key victim : Key} : type < 16 →
      Asks (.persistentReserveOut { serviceAction := 4, prType := type, key := key.toNat, saKey := victim.toNat }) (.act (.preempt type key victim false))
  | preemptAbort {type : Nat} {key victim : Key} : type < 16 →
      Asks (.persistentReserveOut { serviceAction := 5, prType := type, key := key.toNat, saKey := victim.toNat }) (.act (.preempt type key victim true))
  /-- the allocation length less the header, in keys -/
  | keys {n : Nat} : 8 ≤ n → n < 2 ^ 16 → Asks (.persistentReserveIn 0 n) (.keys ((n - 8) / 8))
  | reservation {n : Nat} : 24 ≤ n → n < 2 ^ 16 → Asks (.persistentReserveIn 1 n) .reservation

/-- What the caller of a command sees of a reply. A conflict is an `AsiSCSIError` that says no more. -/
def Shows (r : Except (Exn (DevErr Sense)) (Option (Val (Option Bytes) (DevErr Sense) Result))) : Reply → Prop
  | .ready => r = .ok (some (.obj .true))
  | .done => r = .ok (some (.obj (.raw none)))
  | .conflict => r = .error (.dev .scsi)
  | .failed key asc ascq => ∃ raw s, r = .error (.dev (.checkCondition raw (some s))) ∧ Says s key asc ascq
  | .keys generation keys => ∃ k, r = .ok (some (.obj (.reservations (.keys k)))) ∧ Parse.get k.attrs "pr_generation" = generation ∧
      k.keys = some (keys.map UInt64.toNat)
  | .tooMany generation count => ∃ k, r = .ok (some (.obj (.reservations (.keys k)))) ∧ Parse.get k.attrs "pr_generation" = generation ∧
      k.keys = none ∧ Parse.requiredLength k.attrs = (8 + 8 * count : Nat)
  | .reservation generation none => ∃ attrs, r = .ok (some (.obj (.reservations (.reservation attrs)))) ∧
      attrs.lookup "pr_generation" = some (generation : Int) ∧ attrs.lookup "additional_length" = some 0
  | .reservation generation (some (key, type)) => ∃ attrs, r = .ok (some (.obj (.reservations (.reservation attrs)))) ∧
      attrs.lookup "pr_generation" = some (generation : Int) ∧ attrs.lookup "additional_length" = some 16 ∧
      attrs.lookup "reservation_key" = some (key.toNat : Int) ∧ attrs.lookup "pr_type" = some (type : Int) ∧ attrs.lookup "scope" = some 0

/-- What a platform has to make of the answers: data with something behind it, nothing for a command that sends data, an error without details for a
conflict, the sense data of a failure. -/
structure Brings (tail : Nat → Bytes → Bytes → Prop) (out : Req → Answer → Except (Exn (DevErr Sense)) (Option (Option Bytes))) : Prop where
  passes : Passes tail out
  delivers : Delivers out
  conflict : ∀ c, out c refused = .error (.dev .scsi)
  /-- nothing, or as much as was asked for -/
  whole : ∀ n d rest, tail n d rest → rest = [] ∨ n ≤ d.length + rest.length

theorem outcome_brings : Brings Filled (Platform.outcome getSense) where
  passes := outcome_passes
  delivers := outcome_delivers
  conflict _ := rfl
  whole n d rest h := by
    right; rw [show rest = zeros _ from h]; simp; omega

theorem winOutcome_brings : Brings Exactly (Win32.winOutcome getSense) where
  passes := winOutcome_passes
  delivers := winOutcome_delivers
  conflict _ := rfl
  whole _ _ _ h := .inl h

/-- The number of registrations can be reported. -/
def Bounded (u : Lun) : Prop := u.keys.length ≤ u.limit ∧ u.limit < 2 ^ 29

theorem warn_bounded {u : Lun} (h : Bounded u) (d : Nat) (w : Notice) (c : Bool) : Bounded (warn u d w c) := by
  unfold warn; split <;> exact h

theorem filter_bounded {u : Lun} (h : Bounded u) (p : Nat × Key → Bool) (g : Nat) (o : Option (Nat × Kind)) (a : Option Notice) :
    Bounded { u with generation := g, keys := u.keys.filter p, holder := o, attention := a } :=
  ⟨Nat.le_trans (List.length_filter_le _ _) h.1, h.2⟩

theorem unregister_bounded {u : Lun} (h : Bounded u) (host : Nat) : Bounded (unregister u host) :=
  warn_bounded (filter_bounded h _ _ _ _) _ _ _

theorem enroll_bounded {u : Lun} (h : Bounded u) (host : Nat) (k : Key) : Bounded (enroll u host k).2 := by
  unfold enroll
  split
  · exact ⟨by simpa [changed] using h.1, h.2⟩
  split
  · rename_i h'
    exact ⟨by simp only [changed, List.length_append, List.length_singleton]; omega, h.2⟩
  · exact h

theorem act_bounded {u : Lun} (h : Bounded u) (host : Nat) (a : Action) : Bounded (act u host a).2 := by
  cases a <;> simp only [act] <;> repeat' split
  all_goals first
    | exact h
    | exact unregister_bounded h _
    | exact enroll_bounded h _ _
    | exact warn_bounded (filter_bounded h _ _ _ _) _ _ _
    | (refine warn_bounded ?_ _ _ _; first | exact h | exact ⟨Nat.zero_le _, h.2⟩)

theorem others_bounded : ∀ (l : List (Nat × Action)) {u : Lun}, Bounded u → Bounded (others u l)
  | [], _, h => h
  | (_, _) :: l, _, h => others_bounded l (act_bounded h _ _)

theorem run_bounded {u : Lun} (h : Bounded u) (op : Op) : Bounded (op.run u).2 := by
  unfold Op.run
  split
  · exact h
  · cases op with
    | act a =>
      have := act_bounded h 0 a
      simp only
      split <;> (rename_i e; rw [e] at this; exact this)
    | keys => simp only; split <;> exact h
    | ready => exact h
    | reservation => exact h

section step

variable {tail : Nat → Bytes → Bytes → Prop} {out : Req → Answer → Except (Exn (DevErr Sense)) (Option (Option Bytes))} (L : Lib) (B : Parse.BufLib)
  (other : Bytes → Py (List (String × Int)))

/-- One command: the request can be built, the unit changes as the operation says, the caller sees its reply. -/
def Step (out : Req → Answer → Except (Exn (DevErr Sense)) (Option (Option Bytes))) (L : Lib) (B : Parse.BufLib)
    (other : Bytes → Py (List (String × Int))) (u : Lun) (c : Cmd) (op : Op) : Prop :=
  ∃ q, (c.command L B other).request = .ok q ∧ (serve u (asked q)).2 = (op.run u).2 ∧
    Shows (decoded (c.command L B other) (out q (serve u (asked q)).1)) (op.run u).1

theorem shows_failed (c : Cmd) {r : Except (Exn (DevErr Sense)) (Option (Option Bytes))} {key asc ascq : Nat} (h : RaisesSense r key asc ascq) :
    Shows (decoded (c.command L B other) r) (.failed key asc ascq) := by
  obtain ⟨raw, s, rfl, hs⟩ := h
  exact ⟨raw, s, rfl, hs⟩

theorem serve_task {u : Lun} (hu : u.attention = none) (c : Cdb.Cmd) (r : Req) (hc : InRange c) (h : Cdb.request L c = .ok r) :
    serve u (asked r) = perform u (meaning c) := by
  have hd := Cdb.C29_decode L c r hc h
  have e1 : (asked r).cdb = r.cdb := by cases r <;> rfl
  have e2 : (asked r).toDevice = dataOut r := by cases r <;> rfl
  unfold serve
  rw [hu, e1, e2, hd]

/-- A waiting unit attention is all the caller sees. -/
theorem step_attention (hB : Brings tail out) {u : Lun} {why : Notice} (hu : u.attention = some why) (c : Cmd) (op : Op) (q : Req)
    (hq : Cdb.request L c.cdb = .ok q) : Step out L B other u c op := by
  refine ⟨q, hq, ?_⟩
  simp only [serve, Op.run, hu, true_and]
  exact shows_failed L B other c (hB.delivers.fails _ 6 0x2A _ (by decide) (by decide) (by cases why <;> decide))

/-- All ways a service action can fail. -/
theorem act_illegal {u v : Lun} {host asc ascq : Nat} {a : Action} (h : act u host a = (.illegal asc ascq, v)) : asc < 256 ∧ ascq < 256 := by
  have he : ∀ k, enroll u host k = (.illegal asc ascq, v) → asc < 256 ∧ ascq < 256 := by
    intro k; unfold enroll
    repeat' split
    all_goals simp (config := { contextual := true }) only [Prod.mk.injEq, Verdict.illegal.injEq, false_and, reduceCtorEq, false_implies]
    all_goals (rintro ⟨⟨rfl, rfl⟩, -⟩; decide)
  revert h
  cases a <;> simp only [act] <;> repeat' split
  all_goals first
    | exact he _
    | (simp only [Prod.mk.injEq, Verdict.illegal.injEq, false_and, reduceCtorEq, false_implies]; done)
    | (simp only [Prod.mk.injEq, Verdict.illegal.injEq]; rintro ⟨⟨rfl, rfl⟩, -⟩; decide)

theorem step_act (hB : Brings tail out) (u : Lun) (a : Cdb.ProutArgs) (x : Action) (ha : Cdb.ProutOk a) (h0 : 0 ≤ a.serviceAction)
    (h8 : a.serviceAction ≤ 6) (haptpl : a.aptpl = 0)
    (hx : actionOf a.serviceAction.toNat a.prType.toNat a.key.toNat a.saKey.toNat = some x) :
    Step out L B other u (.persistentReserveOut a) (.act x) := by
  have hq := Cdb.C34_basic_partial L a ha h0 (by omega) (by omega) haptpl
  cases hu : u.attention with
  | some why => exact step_attention L B other hB hu _ _ _ hq
  | none =>
    refine ⟨_, hq, ?_⟩
    rw [serve_task L hu (.persistentReserveOut a) _ ⟨⟨h0, by omega⟩, ha.type, ha.key, ha.saKey⟩ hq]
    simp only [meaning, perform, hx, Op.run, hu]
    cases hv : act u 0 x with
    | mk v w =>
      cases v with
      | done =>
        refine ⟨rfl, ?_⟩
        simp only [answerOf, hB.delivers.write]
        rfl
      | conflict =>
        refine ⟨rfl, ?_⟩
        simp only [answerOf, hB.conflict]
        rfl
      | illegal asc ascq =>
        have := act_illegal hv
        exact ⟨rfl, shows_failed L B other _ (hB.delivers.fails _ 5 asc ascq (by decide) this.1 this.2)⟩

theorem step_prin (hB : Brings tail out) {u : Lun} (sa n : Nat) (hs : sa < 32) (h8 : 8 ≤ n) (hn : n < 2 ^ 16) (d : Bytes) (op : Op)
    (hu : u.attention = none) (hp : perform u (.persistentReserveIn sa n) = (good d, u)) (hr : (op.run u).2 = u) (h0 : d ≠ []) (hl : d.length ≤ n)
    (hdec : ∀ rest : Bytes, rest.length + d.length ≤ n → tail n d rest →
      ∃ x, Parse.prin B.sg sa (d ++ rest) = .ok x ∧ Shows (.ok (some (.obj (.reservations x)))) (op.run u).1) :
    Step out L B other u (.persistentReserveIn sa n) op := by
  have hq := Cdb.C36_persistent_reserve_in L sa n ⟨by omega, by omega⟩ ⟨by omega, by omega⟩ (by omega)
  refine ⟨_, hq, ?_⟩
  rw [serve_task L hu (.persistentReserveIn sa n) _ ⟨⟨by omega, by omega⟩, ⟨by omega, by omega⟩⟩ hq]
  simp only [meaning, Int.toNat_natCast, hp, hr, true_and]
  obtain ⟨rest, hrl, ht, h⟩ := hB.passes.read (Spec.Cdb.persistentReserveIn (sa : Int).toNat (n : Int).toNat) n d h0 (by omega)
  simp only [Int.toNat_natCast] at h
  rw [h]
  obtain ⟨x, h1, h2⟩ := hdec rest (by omega) ht
  have : (Cmd.command L B other (.persistentReserveIn sa n)).decode (some (some (d ++ rest))) = .ok (.reservations x) := by
    simp [Cmd.command, Cmd.decode, withData, h1, Except.map]
  simp only [decoded, this]
  exact h2

theorem lookup_reservation (generation key type : Nat) (hg : generation < 2 ^ 32) (hk : key < 2 ^ 64) (ht : type < 16) (rest : Bytes) :
    let b := be 4 generation ++ be 4 16 ++ be 8 key ++ [0, 0, 0, 0, 0, byte type, 0, 0]
    num (b ++ rest) 0 4 = generation ∧ num (b ++ rest) 4 4 = 16 ∧ num (b ++ rest) 8 8 = key ∧ bitsAt (b ++ rest) 21 3 0 = type ∧
      bitsAt (b ++ rest) 21 7 4 = 0 := by
  intro b
  have e1 : b ++ rest = be 4 generation ++ (be 4 16 ++ (be 8 key ++ ([0, 0, 0, 0, 0, byte type, 0, 0] ++ rest))) := by
    simp only [b, List.append_assoc]
  have n0 := Parse.num_be 4 generation (be 4 16 ++ (be 8 key ++ ([0, 0, 0, 0, 0, byte type, 0, 0] ++ rest))) (by omega)
  have n4 := Parse.num_append_right (be 4 generation) (be 4 16 ++ (be 8 key ++ ([0, 0, 0, 0, 0, byte type, 0, 0] ++ rest))) 0 4
  rw [be_length, Parse.num_be _ _ _ (by decide)] at n4
  have n8 := Parse.num_append_right (be 4 generation ++ be 4 16) (be 8 key ++ ([0, 0, 0, 0, 0, byte type, 0, 0] ++ rest)) 0 8
  rw [Parse.num_be _ _ _ (by omega), List.append_assoc] at n8
  simp only [List.length_append, be_length] at n8
  have b21 : byteAt (b ++ rest) 21 = type := by
    have : byteAt (b ++ rest) 21 = byteAt [0, 0, 0, 0, 0, byte type, 0, 0] 5 := by
      rw [Parse.byteAt_append_left _ _ _ (by simp [b])]
      simp [b, byteAt, List.getD_eq_getElem?_getD, List.getElem?_append_right]
    rw [this]
    simp [byteAt, byte]; omega
  rw [← e1] at n0 n4 n8
  refine ⟨n0, n4, n8, ?_, ?_⟩
  · simp only [bitsAt, b21]; omega
  · simp only [bitsAt, b21]; omega

theorem step (hB : Brings tail out) {u : Lun} (hb : Bounded u) {c : Cmd} {op : Op} (h : Asks c op) : Step out L B other u c op := by
  have fits : ∀ k : Key, Fits 64 (k.toNat : Int) := fun k => ⟨by omega, by have := k.toNat_lt; omega⟩
  have zero : ∀ n, Fits n (0 : Int) := fun n => ⟨by omega, by have := Nat.two_pow_pos n; exact_mod_cast this⟩
  have four : ∀ t : Nat, t < 16 → Fits 4 (t : Int) := fun t h => ⟨by omega, by omega⟩
  have one : Fits 4 (1 : Int) := ⟨by omega, by omega⟩
  have ofn : ∀ k : Key, UInt64.ofNat k.toNat = k := fun k => by simp
  cases h with
  | ready =>
    have hq := Cdb.C36_test_unit_ready L
    cases hu : u.attention with
    | some why => exact step_attention L B other hB hu _ _ _ hq
    | none =>
      refine ⟨_, hq, ?_⟩
      rw [serve_task L hu .testUnitReady _ trivial hq]
      simp only [meaning, perform, Op.run, hu, hB.passes.ready, true_and]
      rfl
  | @register old new =>
    exact step_act L B other hB u _ _ ⟨fits _, fits _, one, zero _, zero _, zero _, zero _, zero _⟩ (by simp) (by simp) rfl (by simp [actionOf])
  | @registerAnyway old new =>
    exact step_act L B other hB u _ _ ⟨fits _, fits _, one, zero _, zero _, zero _, zero _, zero _⟩ (by simp) (by simp) rfl (by simp [actionOf])
  | @reserve type key ht =>
    exact step_act L B other hB u _ _ ⟨fits _, zero _, four _ ht, zero _, zero _, zero _, zero _, zero _⟩ (by simp) (by simp) rfl (by simp [actionOf])
  | @release type key ht =>
    exact step_act L B other hB u _ _ ⟨fits _, zero _, four _ ht, zero _, zero _, zero _, zero _, zero _⟩ (by simp) (by simp) rfl (by simp [actionOf])
  | @clear key =>
    exact step_act L B other hB u _ _ ⟨fits _, zero _, one, zero _, zero _, zero _, zero _, zero _⟩ (by simp) (by simp) rfl (by simp [actionOf])
  | @preempt type key victim ht =>
    exact step_act L B other hB u _ _ ⟨fits _, fits _, four _ ht, zero _, zero _, zero _, zero _, zero _⟩ (by simp) (by simp) rfl (by simp [actionOf])
  | @preemptAbort type key victim ht =>
    exact step_act L B other hB u _ _ ⟨fits _, fits _, four _ ht, zero _, zero _, zero _, zero _, zero _⟩ (by simp) (by simp) rfl (by simp [actionOf])
  | @keys n h8 hn =>
    cases hu : u.attention with
    | some why =>
      exact step_attention L B other hB hu _ _ _ (Cdb.C36_persistent_reserve_in L 0 n ⟨by omega, by omega⟩ ⟨by omega, by omega⟩ (by omega))
    | none =>
      have hl := keys_length (u.generation % 2 ^ 32) (u.keys.map (·.2.toNat))
      rw [List.length_map] at hl
      have hg : u.generation % 2 ^ 32 < 2 ^ 32 := Nat.mod_lt _ (by decide)
      have hc : 8 * u.keys.length < 2 ^ 32 := by have := hb.1; have := hb.2; omega
      have hkb : ∀ k ∈ u.keys.map (·.2.toNat), k < 2 ^ 64 := by
        intro k hk
        obtain ⟨x, -, rfl⟩ := List.mem_map.1 hk
        exact x.2.toNat_lt
      by_cases hfit : u.keys.length ≤ (n - 8) / 8
      · refine step_prin L B other hB 0 n (by decide) h8 hn (keysData u) _ hu (by rw [perform, List.take_of_length_le]; rw [keysData, hl]; omega)
          (by simp [Op.run, hu, hfit]) (ne_nil_of_le 3 (by rw [keysData, hl]; omega)) (by rw [keysData, hl]; omega) fun rest _ _ => ?_
        obtain ⟨r, e1, e2, e3, -⟩ := Parse.C35_read_keys B.sg _ _ rest hg hkb (by rw [List.length_map]; exact hc)
        refine ⟨_, e1, ?_⟩
        simp only [Op.run, hu, if_pos hfit]
        exact ⟨r, rfl, e3, by rw [e2, List.map_map]; rfl⟩
      · have hlen : ((keysData u).take n).length = n := by rw [List.length_take, keysData, hl]; omega
        refine step_prin L B other hB 0 n (by decide) h8 hn ((keysData u).take n) _ hu rfl
          (by simp [Op.run, hu, hfit]) (ne_nil_of_le 3 (by omega)) (by omega) fun rest hr _ => ?_
        have h0 : rest = [] := List.length_eq_zero_iff.1 (by omega)
        subst h0
        rw [List.append_nil]
        have e1 : num (keysData u) 4 4 = 8 * u.keys.length := by
          have := Parse.num_append_right (be 4 (u.generation % 2 ^ 32)) (be 4 (8 * u.keys.length) ++ (u.keys.map (·.2.toNat)).flatMap (be 8)) 0 4
          rw [Parse.num_be _ _ _ (by omega)] at this
          rw [keysData, readKeys, List.append_assoc, List.length_map]; simpa using this
        have e0 : num (keysData u) 0 4 = u.generation % 2 ^ 32 := by
          rw [keysData, readKeys, List.append_assoc, Parse.num_be _ _ _ (by omega)]
        have ht : ∀ i, i + 4 ≤ 8 → num ((keysData u).take n) i 4 = num (keysData u) i 4 := by
          intro i hi
          conv => rhs; rw [← List.take_append_drop n (keysData u)]
          rw [Parse.num_append_left _ _ _ _ (by omega)]
        obtain ⟨e2, e3⟩ := Parse.C35_read_keys_incomplete B.sg ((keysData u).take n) (by omega) (by rw [ht 4 (by omega), e1, hlen]; omega)
        refine ⟨_, e2, ?_⟩
        simp only [Op.run, hu, if_neg hfit]
        refine ⟨_, rfl, ?_, rfl, ?_⟩
        · simp [prHeader, Parse.get, List.lookup, ht 0 (by omega), e0]
        · rw [e3, ht 4 (by omega), e1]; omega
  | @reservation n h8 hn =>
    cases hu : u.attention with
    | some why =>
      exact step_attention L B other hB hu _ _ _ (Cdb.C36_persistent_reserve_in L 1 n ⟨by omega, by omega⟩ ⟨by omega, by omega⟩ (by omega))
    | none =>
      have hg : u.generation % 2 ^ 32 < 2 ^ 32 := Nat.mod_lt _ (by decide)
      cases hh : u.holder with
      | none =>
        have hd : reservationData u = be 4 (u.generation % 2 ^ 32) ++ be 4 0 := by simp [reservationData, hh]
        have hl := no_reservation_length (u.generation % 2 ^ 32)
        refine step_prin L B other hB 1 n (by decide) (by omega) hn (reservationData u) _ hu (by rw [perform, List.take_of_length_le]; rw [hd, hl]; omega)
          (by simp [Op.run, hu]) (ne_nil_of_le 3 (by rw [hd, hl]; omega)) (by rw [hd, hl]; omega) fun rest _ ht => ?_
        have hw := hB.whole _ _ _ ht
        have hh0 := no_reservation_header (u.generation % 2 ^ 32) hg
        simp only [prHeader, List.cons.injEq, Prod.mk.injEq, true_and, and_true] at hh0
        simp only [Op.run, hu, hh, Option.map_none, Shows]
        rw [hd] at hw ⊢
        rcases hw with rfl | hw
        · refine ⟨_, Parse.C35_no_reservation B.sg _ (by rw [List.append_nil]; omega) (by rw [List.append_nil]; omega), _, rfl, ?_, ?_⟩
          · simp [prHeader, List.lookup, hh0.1]
          · simp [prHeader, List.lookup, hh0.2]
        · refine ⟨_, Parse.C35_read_reservation B.sg _ (by rw [List.length_append]; omega), _, rfl, ?_, ?_⟩
          · show some ((num (_ ++ rest) 0 4 : Nat) : Int) = _
            rw [Parse.num_append_left _ _ _ _ (by omega), hh0.1]
          · show some ((num (_ ++ rest) 4 4 : Nat) : Int) = _
            rw [Parse.num_append_left _ _ _ _ (by omega), hh0.2]
      | some p =>
        obtain ⟨host, kind⟩ := p
        have hd : reservationData u = be 4 (u.generation % 2 ^ 32) ++ be 4 16 ++ be 8 ((holderKey u).getD 0).toNat ++ [0, 0, 0, 0, 0, byte kind.code, 0, 0] := by
          simp [reservationData, hh]
        have hl : (reservationData u).length = 24 := by rw [hd]; simp
        refine step_prin L B other hB 1 n (by decide) (by omega) hn (reservationData u) _ hu (by rw [perform, List.take_of_length_le]; omega)
          (by simp [Op.run, hu]) (ne_nil_of_le 3 (by omega)) (by omega) fun rest _ _ => ?_
        obtain ⟨r1, r2, r3, r4, r5⟩ := lookup_reservation (u.generation % 2 ^ 32) ((holderKey u).getD 0).toNat kind.code hg (UInt64.toNat_lt _)
          (by cases kind <;> decide) rest
        rw [← hd] at r1 r2 r3 r4 r5
        refine ⟨_, Parse.C35_read_reservation B.sg _ (by rw [List.length_append]; omega), ?_⟩
        simp only [Op.run, hu, hh, Option.map_some, Shows]
        refine ⟨_, rfl, ?_⟩
        simp [readReservation, List.lookup, r1, r2, r3, r4, r5]

/-- A sequence of commands given to the unit directly. -/
theorem askAll_shared (hB : Brings tail out) {cmds : List Cmd} {ops : List Op} (h : Each Asks cmds ops) (u : Lun) (hb : Bounded u)
    (s : List (List (Nat × Action))) :
    Each Shows (askAll shared out (cmds.map (·.command L B other)) (u, s)).1 (runOps ops u s).1 ∧
      (askAll shared out (cmds.map (·.command L B other)) (u, s)).2.1 = (runOps ops u s).2 := by
  induction h generalizing u s with
  | nil => exact ⟨.nil, rfl⟩
  | @cons c op cs ops h _ ih =>
    have hb' := others_bounded (s.headD []) hb
    obtain ⟨q, hq, hm, hs⟩ := step L B other hB hb' h
    have := ih _ (run_bounded hb' op) s.tail
    simp only [List.map_cons, askAll, hq, runOps, shared]
    rw [hm]
    exact ⟨.cons hs this.1, this.2⟩

end step

/-- The unit sends sense data whenever it reports CHECK CONDITION. -/
theorem shared_parses (k : Lun × List (List (Nat × Action))) (q : OsRequest) (h : (shared k q).1.status.toNat / 2 % 2 = 1) :
    ∃ sn, getSense (padded 255 (shared k q).1.sense) = .ok sn := by
  have key : ∀ a : Answer, ((∃ d, a = good d) ∨ a = refused ∨ ∃ k : Nat × Nat × Nat, a = failed k.1 k.2.1 k.2.2 ∧ k.1 < 16 ∧ k.2.1 < 256 ∧ k.2.2 < 256) →
      a.status.toNat / 2 % 2 = 1 → ∃ sn, getSense (padded 255 a.sense) = .ok sn := by
    rintro a (⟨d, rfl⟩ | rfl | ⟨k, rfl, h1, h2, h3⟩) h
    · simp [good] at h
    · simp [refused] at h
    · obtain ⟨s, hs, -⟩ := getSense_says _ (by rw [padded_length]; decide) _ _ _ (reports_padded _ _ _ _ (failed_reports _ _ _ h1 h2 h3))
      exact ⟨_, hs⟩
  refine key _ ?_ h
  have bad : ∀ a b c : Nat, a < 16 → b < 256 → c < 256 → (∃ d, failed a b c = good d) ∨ failed a b c = refused ∨
      ∃ k : Nat × Nat × Nat, failed a b c = failed k.1 k.2.1 k.2.2 ∧ k.1 < 16 ∧ k.2.1 < 256 ∧ k.2.2 < 256 :=
    fun a b c h1 h2 h3 => .inr (.inr ⟨(a, b, c), rfl, h1, h2, h3⟩)
  simp only [shared, serve]
  split
  · rename_i why _
    exact bad _ _ _ (by decide) (by decide) (by cases why <;> decide)
  split
  · unfold perform
    split
    · exact .inl ⟨_, rfl⟩
    · exact .inl ⟨_, rfl⟩
    · exact .inl ⟨_, rfl⟩
    · split
      · rename_i a _
        cases hv : act (others k.1 (k.2.headD [])) 0 a with
        | mk v w =>
          cases v with
          | done => exact .inl ⟨_, rfl⟩
          | conflict => exact .inr (.inl rfl)
          | illegal asc ascq => exact bad _ _ _ (by decide) (act_illegal hv).1 (act_illegal hv).2
      · exact bad _ _ _ (by decide) (by decide) (by decide)
    · exact bad _ _ _ (by decide) (by decide) (by decide)
  · exact bad _ _ _ (by decide) (by decide) (by decide)

variable {K T : Type} [DecidableEq K] (L : Lib) (B : Parse.BufLib) (other : Bytes → Py (List (String × Int)))

/-- **C65 on Linux.** Any sequence of registrations, reservations, releases, preemptions and queries executed through the sg executer, with any actions
of other hosts in between: the caller of each sees what the unit decided (done, conflict, refused, a unit attention) or holds (the registered keys, how many
there are, the reservation's key and type), and the unit ends in the state those actions lead to. -/
theorem C65_linux (l : Bool) (alloc : Nat → Alloc) (t : Int) (ht : 0 ≤ t ∧ t < 2 ^ 32) (cmds : List Cmd) (ops : List Op)
    (hask : Each Asks cmds ops) (hok : Carried L (LinuxOk alloc) cmds) (u : Lun) (hu : Bounded u) (others : List (List (Nat × Action)))
    (w : W Handle K (Option Bytes) (DevErr Sense) (World ((Lun × List (List (Nat × Action))) × Option Bytes))) (hw : LinuxIdle w.st w.os (u, others)) :
    ∃ w' as left, RunAll (machine (T := T) (Linux.sgBlocking (lp64 l) getSense (Linux.sgDevice l shared)).plat (Linux.prepare (lp64 l) alloc t))
        (cmds.map (·.command L B other)) w as w' ∧ Each Shows as (runOps ops u others).1 ∧ LinuxIdle w'.st w'.os ((runOps ops u others).2, left) := by
  obtain ⟨w', h1, h2⟩ := C51_linux (K := K) (T := T) l getSense shared alloc t ht shared_parses (cmds.map (·.command L B other)) (carried_map B other hok)
    w _ hw
  obtain ⟨e1, e2⟩ := askAll_shared L B other outcome_brings hask u hu others
  exact ⟨w', _, _, h1, e1, by rw [← e2]; exact h2⟩

/-- **C65 on Solaris.** -/
theorem C65_solaris (l : Bool) (alloc : Nat → Alloc) (t : Int) (ht : 0 ≤ t ∧ t < 2 ^ 15) (cmds : List Cmd) (ops : List Op)
    (hask : Each Asks cmds ops) (hok : Carried L (SolarisOk alloc) cmds) (u : Lun) (hu : Bounded u) (others : List (List (Nat × Action)))
    (w : W Handle K (Option Bytes) (DevErr Sense) (Solaris.SolWorld (Lun × List (List (Nat × Action))))) (hw : SolarisIdle w.st w.os (u, others)) :
    ∃ w' as left, RunAll (machine (T := T) (Solaris.solBlocking (lp64 l) getSense (Solaris.uscsiDevice l shared)).plat (Solaris.prepare (lp64 l) alloc t))
        (cmds.map (·.command L B other)) w as w' ∧ Each Shows as (runOps ops u others).1 ∧ SolarisIdle w'.st w'.os ((runOps ops u others).2, left) := by
  obtain ⟨w', h1, h2⟩ := C51_solaris (K := K) (T := T) l getSense shared alloc t ht shared_parses (cmds.map (·.command L B other)) (carried_map B other hok)
    w _ hw
  obtain ⟨e1, e2⟩ := askAll_shared L B other outcome_brings hask u hu others
  exact ⟨w', _, _, h1, e1, by rw [← e2]; exact h2⟩

/-- **C65 on AIX**, with either ioctl binding. -/
theorem C65_aix (b : Aix.Binding) (alloc : Nat → Alloc) (t : Int) (ht : 0 ≤ t ∧ t < 2 ^ 32) (cmds : List Cmd) (ops : List Op)
    (hask : Each Asks cmds ops) (hok : Carried L (AixOk b alloc) cmds) (u : Lun) (hu : Bounded u) (others : List (List (Nat × Action)))
    (w : W Handle K (Option Bytes) (DevErr Sense) (Aix.AixWorld (Lun × List (List (Nat × Action))))) (hw : AixIdle w.st w.os (u, others)) :
    ∃ w' as left, RunAll (machine (T := T) (Aix.aixBlocking (lp64 false) getSense b (Aix.scDevice shared)).plat (Aix.prepare (lp64 false) alloc t))
        (cmds.map (·.command L B other)) w as w' ∧ Each Shows as (runOps ops u others).1 ∧ AixIdle w'.st w'.os ((runOps ops u others).2, left) := by
  obtain ⟨w', h1, h2⟩ := C51_aix (K := K) (T := T) getSense b shared alloc t ht shared_parses (cmds.map (·.command L B other)) (carried_map B other hok)
    w _ hw
  obtain ⟨e1, e2⟩ := askAll_shared L B other outcome_brings hask u hu others
  exact ⟨w', _, _, h1, e1, by rw [← e2]; exact h2⟩

/-- **C65 on Windows**, 32 and 64 bit. -/
theorem C65_windows (b : Bool) (alloc : Nat → Alloc) (cmds : List Cmd) (ops : List Op)
    (hask : Each Asks cmds ops) (hok : Carried L (WindowsOk b alloc) cmds) (u : Lun) (hu : Bounded u) (others : List (List (Nat × Action)))
    (w : W Win32.Spt K (Option Bytes) (DevErr Sense) (Win32.WinWorld (Lun × List (List (Nat × Action))))) (hw : WindowsIdle w.st w.os (u, others)) :
    ∃ w' as left, RunAll (machine (T := T) (Win32.winPlat (Win32.W b) getSense (Win32.sptDevice b shared)) (Win32.prepare (Win32.W b) alloc))
        (cmds.map (·.command L B other)) w as w' ∧ Each Shows as (runOps ops u others).1 ∧ WindowsIdle w'.st w'.os ((runOps ops u others).2, left) := by
  obtain ⟨w', h1, h2⟩ := C51_windows (K := K) (T := T) b getSense shared alloc
    (fun m q h => shared_parses m q (by rw [h]; decide)) (cmds.map (·.command L B other)) (carried_map B other hok) w _ hw
  obtain ⟨e1, e2⟩ := askAll_shared L B other winOutcome_brings hask u hu others
  exact ⟨w', _, _, h1, e1, by rw [← e2]; exact h2⟩

/-! ## A case -/

/-- The requests are small. -/
theorem asks_size {c : Cmd} {op : Op} (h : Asks c op) (q : Req) (hq : Cdb.request L c.cdb = .ok q) : q.cdb.length ≤ 16 ∧ dataSize q < 2 ^ 16 := by
  have fits : ∀ k : Key, Fits 64 (k.toNat : Int) := fun k => ⟨by omega, by have := k.toNat_lt; omega⟩
  have zero : ∀ n, Fits n (0 : Int) := fun n => ⟨by omega, by have := Nat.two_pow_pos n; exact_mod_cast this⟩
  have four : ∀ t : Nat, t < 16 → Fits 4 (t : Int) := fun t h => ⟨by omega, by omega⟩
  have one : Fits 4 (1 : Int) := ⟨by omega, by omega⟩
  have out : ∀ a : Cdb.ProutArgs, Cdb.ProutOk a → 0 ≤ a.serviceAction → a.serviceAction ≤ 6 → a.aptpl = 0 → Cdb.persistentReserveOut L a = .ok q →
      q.cdb.length ≤ 16 ∧ dataSize q < 2 ^ 16 := by
    intro a ha h0 h6 hp hq
    cases (Cdb.C34_basic_partial L a ha h0 (by omega) (by omega) hp).symm.trans hq
    simp [Req.cdb, dataSize, Spec.Cdb.persistentReserveOut, Spec.Cdb.proutBasic]
  cases h with
  | ready =>
    cases (Cdb.C36_test_unit_ready L).symm.trans hq
    simp [Req.cdb, dataSize]
  | register => exact out _ ⟨fits _, fits _, one, zero _, zero _, zero _, zero _, zero _⟩ (by simp) (by simp) rfl hq
  | registerAnyway => exact out _ ⟨fits _, fits _, one, zero _, zero _, zero _, zero _, zero _⟩ (by simp) (by simp) rfl hq
  | reserve ht => exact out _ ⟨fits _, zero _, four _ ht, zero _, zero _, zero _, zero _, zero _⟩ (by simp) (by simp) rfl hq
  | release ht => exact out _ ⟨fits _, zero _, four _ ht, zero _, zero _, zero _, zero _, zero _⟩ (by simp) (by simp) rfl hq
  | clear => exact out _ ⟨fits _, zero _, one, zero _, zero _, zero _, zero _, zero _⟩ (by simp) (by simp) rfl hq
  | preempt ht => exact out _ ⟨fits _, fits _, four _ ht, zero _, zero _, zero _, zero _, zero _⟩ (by simp) (by simp) rfl hq
  | preemptAbort ht => exact out _ ⟨fits _, fits _, four _ ht, zero _, zero _, zero _, zero _, zero _⟩ (by simp) (by simp) rfl hq
  | @keys n h8 hn =>
    cases (Cdb.C36_persistent_reserve_in L 0 n ⟨by omega, by omega⟩ ⟨by omega, by omega⟩ (by omega)).symm.trans hq
    simp [Req.cdb, dataSize, Spec.Cdb.persistentReserveIn]; omega
  | @reservation n h8 hn =>
    cases (Cdb.C36_persistent_reserve_in L 1 n ⟨by omega, by omega⟩ ⟨by omega, by omega⟩ (by omega)).symm.trans hq
    simp [Req.cdb, dataSize, Spec.Cdb.persistentReserveIn]; omega

/-- A unit nobody uses, with room for 100 registrations. -/
def unused : Lun := { generation := 0, keys := [], limit := 100, holder := none, attention := none }

/-- We register, reserve and ask; then another host registers and preempts us. The next command is told so (UNIT ATTENTION, REGISTRATIONS PREEMPTED), the one
after shows the other's reservation, a reservation of ours is a conflict. -/
def story : List (Cmd × Op) :=
  [(.persistentReserveOut { serviceAction := 0, key := 0, saKey := 0xA }, .act (.register 0 0xA)),
   (.persistentReserveOut { serviceAction := 1, prType := (1 : Nat), key := 0xA }, .act (.reserve 1 0xA)),
   (.persistentReserveIn 1 (24 : Nat), .reservation),
   (.persistentReserveIn 1 (24 : Nat), .reservation),
   (.persistentReserveIn 1 (24 : Nat), .reservation),
   (.persistentReserveOut { serviceAction := 1, prType := (1 : Nat), key := 0xA }, .act (.reserve 1 0xA)),
   (.persistentReserveIn 0 (20 : Nat), .keys 1)]

/-- What others do before each of them. -/
def meanwhile : List (List (Nat × Action)) := [[], [], [], [(0, .register 0 0xB), (0, .preempt 3 0xB 0xA true)]]

theorem story_replies : (runOps (story.map (·.2)) unused meanwhile).1 =
    [.done, .done, .reservation 1 (some (0xA, 1)), .failed 6 0x2A 5, .reservation 3 (some (0xB, 3)), .conflict, .keys 3 [0xB]] := by decide

theorem story_asks : Each Asks (story.map (·.1)) (story.map (·.2)) :=
  .cons (.register (old := 0) (new := 0xA)) <| .cons (.reserve (type := 1) (key := 0xA) (by decide)) <| .cons (.reservation (by decide) (by decide)) <| .cons (.reservation (by decide) (by decide)) <|
    .cons (.reservation (by decide) (by decide)) <| .cons (.reserve (type := 1) (key := 0xA) (by decide)) <| .cons (.keys (n := 20) (by decide) (by decide)) .nil

/-- The hypotheses are met, on Linux. -/
example : ∃ w' as left, RunAll (machine (T := Unit) (Linux.sgBlocking (K := Unit) (lp64 true) getSense (Linux.sgDevice true shared)).plat
        (Linux.prepare (lp64 true) (fun _ => { block := 4096, sense := 8192, cmd := 12288, data := 16384 }) 30000))
        ((story.map (·.1)).map (·.command L B other))
        { st := { pending := [], index := 6, maxq := 7 }, os := { mem := fun _ => 0xEE, kernel := ((unused, meanwhile), none) }, fired := [], box := fun _ => [] }
        as w' ∧
      Each Shows as [.done, .done, .reservation 1 (some (0xA, 1)), .failed 6 0x2A 5, .reservation 3 (some (0xB, 3)), .conflict, .keys 3 [0xB]] ∧
      LinuxIdle w'.st w'.os ((runOps (story.map (·.2)) unused meanwhile).2, left) := by
  rw [← story_replies]
  refine C65_linux L B other true (fun _ => { block := 4096, sense := 8192, cmd := 12288, data := 16384 }) 30000 (by decide) _ _ story_asks ?_
    unused ⟨by decide, by decide⟩ meanwhile _ ⟨rfl, by simp, by simp, by simp, rfl⟩
  intro c hc q hq
  have : ∃ op, Asks c op := by
    have key : ∀ {cs : List Cmd} {os : List Op}, Each Asks cs os → ∀ c ∈ cs, ∃ op, Asks c op := by
      intro cs os h
      induction h with
      | nil => simp
      | cons h _ ih => exact fun c hc => (List.mem_cons.1 hc).elim (fun e => e ▸ ⟨_, h⟩) (ih c)
    exact key story_asks c hc
  obtain ⟨op, h⟩ := this
  obtain ⟨h1, h2⟩ := asks_size L h q hq
  refine ⟨by omega, by omega, fun _ => ⟨?_, ?_⟩⟩
  · simp; omega
  · simp

end Reserve

end Verif.Commands
