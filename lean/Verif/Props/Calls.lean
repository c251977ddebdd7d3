import Verif.Spec.Calls
import Verif.Props.Queue
import Verif.Parse.Core
set_option linter.unusedSimpArgs false
set_option linter.unusedSectionVars false
/-!
# C73: a call that was given up does not spoil the calls after it (Linux)

`CommandExecuterBase.call` itself, over the sg executer and the driver with a queue of `Verif.Props.Queue`. A call that is given up (the 60
seconds of `UnixFile.read`, an interrupt) leaves its packet pending and its command with the driver. Later calls meet its late answer.
-/

namespace Verif.Platform.Linux
open Verif.Executer Verif.Spec
open Verif.Reactor (dict_get_set dict_get_erase dict_keys_erase)

variable {S δ Q K K' D E ω : Type}

/-- The same executer, its callbacks called by other names. -/
def rename (f : K → K') (s : St Q K) : St Q K' :=
  { pending := s.pending.map fun p => (p.1, p.2.1, p.2.2.map f), index := s.index, maxq := s.maxq }

/-- `_os_receive` while the waits go as foreseen: the device executes some commands, then a response is read; when the waits are over the
exception `e` arrives. -/
def receives (l : Bool) (parse : Bytes → Py (Option S)) (dev : Device δ) (room : Nat) (e : PyErr) (s : St Handle K)
    (w : World (Kernel δ) × List Queue.Round) : Py (Outcome (Option Bytes) (DevErr S) × Nat) × World (Kernel δ) × List Queue.Round :=
  match w.2 with
  | [] => (.error e, w.1, [])
  | r :: rs =>
    let p := sgReceive (lp64 l) parse (sgQueue l room r.pick) s (r.work.foldl (fun w x => sgFinish l dev x.1 x.2 w) w.1)
    (p.1, p.2, rs)

/-- `_os_send` -/
def sends (l : Bool) (room : Nat) (h : Handle) (w : World (Kernel δ) × List Queue.Round) : Py Unit × World (Kernel δ) × List Queue.Round :=
  let p := sgSend (sgQueue l room 0) h w.1
  (p.1, p.2, w.2)

/-- What a caller sees. -/
abbrev Seen (S : Type) := Except (Exn (DevErr S)) (Option (Option Bytes))

/-- One `call` (__init__.py:77-91). The callbacks left behind by calls given up earlier bear the numbers of their commands. -/
def Live.call (l : Bool) (parse : Bytes → Py (Option S)) (dev : Device δ) (alloc : Nat → Alloc) (tmo : Int) (room : Nat) (s : Live δ S)
    (c : Queue.Call) : Seen S × Live δ S :=
  let r := Executer.call (prepare (lp64 l) alloc tmo c.cmd) (sends l room) (receives l parse dev room c.interrupt) (rename some s.ex)
    (s.world, c.rounds)
  (r.out, ⟨rename (fun k => k.getD s.next) r.st, r.os.1, if isQueueFull s.ex then s.next else s.next + 1, s.log⟩)

/-- One call after the other. -/
def Live.calls (l : Bool) (parse : Bytes → Py (Option S)) (dev : Device δ) (alloc : Nat → Alloc) (tmo : Int) (room : Nat) :
    Live δ S → List Queue.Call → List (Seen S) × Live δ S
  | s, [] => ([], s)
  | s, c :: cs =>
    let r := s.call l parse dev alloc tmo room c
    let rest := Live.calls l parse dev alloc tmo room r.2 cs
    (r.1 :: rest.1, rest.2)

/-- What the caller should see: the data, the device's error, the exception that ended the wait, or (a full queue) the `NameError` of
__init__.py:118. -/
def seen : Queue.Heard (Told S) → Seen S
  | .told a => match a.exc with
    | some e => .error (.dev e)
    | none => .ok a.data
  | .gaveUp e => .error (.py e)
  | .refused => .error (.py .nameError)

/-! ## Names of callbacks do not matter -/

section
variable (f : K → K')

abbrev ren (d : Dict (Q × Option K)) : Dict (Q × Option K') := d.map fun p => (p.1, p.2.1, p.2.2.map f)

theorem get_ren (d : Dict (Q × Option K)) (k : Nat) : Dict.get (ren f d) k = (Dict.get d k).map fun v => (v.1, v.2.map f) := by
  induction d with
  | nil => rfl
  | cons p r ih =>
    obtain ⟨k', v⟩ := p
    simp only [ren, List.map_cons, Dict.get] at ih ⊢
    split
    · rfl
    · exact ih

theorem erase_ren (d : Dict (Q × Option K)) (k : Nat) : Dict.erase (ren f d) k = ren f (Dict.erase d k) := by
  induction d with
  | nil => rfl
  | cons p r ih =>
    obtain ⟨k', v⟩ := p
    simp only [ren, List.map_cons, Dict.erase] at ih ⊢
    split
    · rfl
    · rw [ih]; rfl

theorem set_ren (d : Dict (Q × Option K)) (k : Nat) (v : Q × Option K) :
    Dict.set (ren f d) k (v.1, v.2.map f) = ren f (Dict.set d k v) := by
  induction d with
  | nil => rfl
  | cons p r ih =>
    obtain ⟨k', v'⟩ := p
    simp only [ren, List.map_cons, Dict.set] at ih ⊢
    split
    · rfl
    · rw [ih]; rfl

theorem process_rename {recv : St Q K → ω → Py (Outcome D E × Nat) × ω} {recv' : St Q K' → ω → Py (Outcome D E × Nat) × ω}
    {s : St Q K} {w : ω} (h : recv' (rename f s) w = recv s w) :
    process recv' (rename f s) w =
      ⟨(process recv s w).out, (process recv s w).fired.map (fun x => (f x.1, x.2)), rename f (process recv s w).st, (process recv s w).os⟩ := by
  unfold process
  rw [h]
  obtain ⟨o, w'⟩ := recv s w
  cases o with
  | error e => rfl
  | ok p =>
    obtain ⟨res, pid⟩ := p
    simp only [rename]
    rw [get_ren f s.pending pid]
    cases hg : Dict.get s.pending pid with
    | none => rfl
    | some v =>
      obtain ⟨q, cb⟩ := v
      simp only [Option.map_some]
      rw [show Dict.erase (List.map (fun p => (p.1, p.2.1, p.2.2.map f)) s.pending) pid = _ from erase_ren f s.pending pid]
      cases cb <;> rfl

theorem getOs_rename (s : St Handle K) : getOs (rename f s) = getOs s := by
  funext i
  simp only [getOs, getOsData]
  split
  · simp only [rename]
    rw [show Dict.get (List.map (fun p => (p.1, p.2.1, p.2.2.map f)) s.pending) _ = _ from get_ren f s.pending _]
    cases Dict.get s.pending i.toNat <;> rfl
  · rfl

theorem receives_rename (l : Bool) (parse : Bytes → Py (Option S)) (dev : Device δ) (room : Nat) (e : PyErr) (s : St Handle K)
    (w : World (Kernel δ) × List Queue.Round) :
    receives l parse dev room e (rename f s) w = receives l parse dev room e s w := by
  obtain ⟨w, rs⟩ := w
  cases rs with
  | nil => rfl
  | cons r rs => simp only [receives, sgReceive, getOs_rename]
end

/-- A callback was called: the method came to its end. -/
theorem process_ok_of_fired {recv : St Q K → ω → Py (Outcome D E × Nat) × ω} {s : St Q K} {w : ω} {x}
    (h : (process recv s w).fired = some x) : (process recv s w).out = .ok true := by
  revert h
  unfold process
  split
  · simp
  · split
    · simp
    · dsimp only
      split
      · simp
      · simp

theorem callLoop_error {recv : St Q (Option K) → ω → Py (Outcome D E × Nat) × ω} {s : St Q (Option K)} {w : ω} {e f st os}
    (h : process recv s w = ⟨.error e, f, st, os⟩) : callLoop recv s w = ⟨.error (.py e), f.toList, st, os⟩ := by
  rw [callLoop]
  split
  · rename_i e' he
    simp only [h, Except.error.injEq] at he ⊢
    rw [he]
  · rename_i b hb
    rw [h] at hb
    cases hb

theorem callLoop_own {recv : St Q (Option K) → ω → Py (Outcome D E × Nat) × ω} {s : St Q (Option K)} {w : ω} {b args st os}
    (h : process recv s w = ⟨.ok b, some (none, args), st, os⟩) :
    callLoop recv s w = ⟨match args.exc with | some e => .error (.dev e) | none => .ok args.data, [], st, os⟩ := by
  rw [callLoop]
  split
  · rename_i e' he
    rw [h] at he
    cases he
  · simp only [h]
    cases args.exc <;> rfl

theorem callLoop_other {recv : St Q (Option K) → ω → Py (Outcome D E × Nat) × ω} {s : St Q (Option K)} {w : ω} {b k args st os}
    (h : process recv s w = ⟨.ok b, some (some k, args), st, os⟩) :
    callLoop recv s w = ⟨(callLoop recv st os).out, (some k, args) :: (callLoop recv st os).fired, (callLoop recv st os).st,
      (callLoop recv st os).os⟩ := by
  rw [callLoop]
  split
  · rename_i e' he
    rw [h] at he
    cases he
  · simp only [h]
    rfl

/-! ## A call -/

/-- The own callback of command `own` is `my_cb`. -/
def tag (own t : Nat) : Option Nat := if t = own then none else some t

theorem works_cons {A : Type} (dev : Device δ) (limit : Nat) (hear : Req → Answer → A) (s : Queue.State δ A) (x : Nat × Bool) (w) :
    Queue.works dev limit hear s (x :: w) = Queue.works dev limit hear (Queue.step dev limit hear s (.finish x.1 x.2)) w := rfl

theorem rename_id (n : Nat) (s : St Q Nat) : rename (fun k => Option.getD k n) (rename (tag n) s) = s := by
  obtain ⟨p, i, m⟩ := s
  simp only [rename, List.map_map, St.mk.injEq, and_true]
  conv => rhs; rw [← List.map_id p]
  apply List.map_congr_left
  rintro ⟨k, q, cb⟩ _
  cases cb with
  | none => rfl
  | some t =>
    simp only [Function.comp, Option.map_some, id, tag]
    split
    · rename_i h; subst h; rfl
    · rfl

theorem rename_some (n : Nat) (s : St Q Nat) : rename (fun k => Option.getD k n) (rename some s) = s := by
  obtain ⟨p, i, m⟩ := s
  simp only [rename, List.map_map, St.mk.injEq, and_true]
  conv => rhs; rw [← List.map_id p]
  apply List.map_congr_left
  rintro ⟨k, q, cb⟩ _
  cases cb <;> rfl

theorem send_rename (f : K → K') (prep : Nat → Py Q) (osSend : Q → ω → Py Unit × ω) (cb : Option K) (s : St Q K) (w : ω) :
    send prep osSend (cb.map f) (rename f s) w =
      ⟨(send prep osSend cb s w).out, rename f (send prep osSend cb s w).st, (send prep osSend cb s w).os⟩ := by
  unfold send
  simp only [nextPacketIndex, rename, List.length_map]
  split
  · rename_i h
    split at h
    · rename_i hfull
      cases h
      simp only [hfull, if_true]
    · cases h
  · rename_i i s1 h
    split at h
    · cases h
    · rename_i hfull
      simp only [Except.ok.injEq, Prod.mk.injEq] at h
      obtain ⟨rfl, rfl⟩ := h
      simp only [hfull, if_false]
      cases prep s.index with
      | error e => rfl
      | ok q =>
        simp only
        have hs := set_ren f s.pending s.index (q, cb)
        simp only [ren] at hs
        rw [hs]
        obtain ⟨o, w'⟩ := osSend q w
        cases o with
        | ok u => cases u; rfl
        | error e =>
          simp only
          have he := erase_ren f (Dict.set s.pending s.index (q, cb)) s.index
          simp only [ren] at he
          rw [he]

theorem send_sends (l : Bool) (room : Nat) (prep : Nat → Py Handle) (cb : Option K) (s : St Handle K) (w : World (Kernel δ)) (rs : List Queue.Round) :
    send prep (sends l room) cb s (w, rs) =
      ⟨(send prep (sgSend (sgQueue l room 0)) cb s w).out, (send prep (sgSend (sgQueue l room 0)) cb s w).st,
        ((send prep (sgSend (sgQueue l room 0)) cb s w).os, rs)⟩ := by
  unfold send
  cases nextPacketIndex s with
  | error e => rfl
  | ok p =>
    obtain ⟨i, s1⟩ := p
    simp only
    cases prep i with
    | error e => rfl
    | ok q =>
      simp only [sends]
      obtain ⟨o, w'⟩ := sgSend (sgQueue l room 0) q w
      cases o with
      | ok u => cases u; rfl
      | error e => rfl

theorem get_of_mem {α : Type} {d : Dict α} {k : Nat} {v : α} (hn : (Dict.keys d).Nodup) (h : (k, v) ∈ d) : Dict.get d k = some v := by
  induction d with
  | nil => cases h
  | cons p r ih =>
    obtain ⟨k', v'⟩ := p
    simp only [Dict.keys, List.map_cons, List.nodup_cons] at hn
    rcases List.mem_cons.1 h with h | h
    · cases h; simp only [Dict.get, if_true]
    · have : k' ≠ k := fun e => hn.1 (e ▸ List.mem_map.2 ⟨_, h, rfl⟩)
      simp only [Dict.get, this, if_false]
      exact ih hn.2 h

/-! ## The ideal: numbers and answers -/

/-- Every outstanding command has been given its number before. -/
def Below {A : Type} (s : Queue.State δ A) : Prop := ∀ t ∈ s.tickets, t < s.next

/-- Every response waiting to be read is the device's answer to its command; command number `own` is `c`. -/
structure Fair {A : Type} (dev : Device δ) (own : Nat) (c : Req) (s : Queue.State δ A) : Prop where
  waiting : ∀ e ∈ s.waiting, e.1 = own → e.2 = c
  done : ∀ e ∈ s.done, (e.1 = own → e.2.1 = c) ∧ ∃ k, e.2.2 = (dev k (asked e.2.1)).1

section
variable {A : Type} {dev : Device δ} {limit : Nat} {hear : Req → Answer → A}

theorem below_finish {s : Queue.State δ A} (h : Below s) (i : Nat) (x : Bool) : Below (Queue.step dev limit hear s (.finish i x)) := by
  simp only [Queue.step]
  split
  · exact h
  · rename_i t c hw
    intro t' ht'
    apply h
    simp only [Queue.State.tickets, List.map_append, List.map_cons, List.map_nil, List.mem_append, List.mem_map, List.mem_cons,
      List.not_mem_nil, or_false] at ht' ⊢
    rcases ht' with (ht' | rfl) | ⟨e, he, rfl⟩
    · exact .inl ht'
    · exact .inr ⟨_, List.mem_of_getElem? hw, rfl⟩
    · exact .inr ⟨_, List.mem_of_mem_eraseIdx he, rfl⟩

theorem below_receive {s : Queue.State δ A} (h : Below s) (i : Nat) : Below (Queue.step dev limit hear s (.receive i)) := by
  simp only [Queue.step]
  split
  · exact h
  · rename_i t c ans hw
    intro t' ht'
    apply h
    simp only [Queue.State.tickets, List.mem_append, List.mem_map] at ht' ⊢
    rcases ht' with ⟨e, he, rfl⟩ | ht'
    · exact .inl ⟨_, List.mem_of_mem_eraseIdx he, rfl⟩
    · exact .inr ht'

theorem below_send {s : Queue.State δ A} (h : Below s) (c : Req) : Below (Queue.step dev limit hear s (.send c)) := by
  simp only [Queue.step]
  split
  · exact h
  · intro t ht
    simp only [Queue.State.tickets, List.map_append, List.map_cons, List.map_nil, List.mem_append, List.mem_cons,
      List.not_mem_nil, or_false] at ht
    have := h t
    simp only [Queue.State.tickets, List.mem_append] at this
    rcases ht with ht | ht | rfl
    · exact Nat.lt_succ_of_lt (this (.inl ht))
    · exact Nat.lt_succ_of_lt (this (.inr ht))
    · exact Nat.lt_succ_self _

theorem next_finish (s : Queue.State δ A) (i : Nat) (x : Bool) : (Queue.step dev limit hear s (.finish i x)).next = s.next := by
  simp only [Queue.step]; split <;> rfl

theorem next_receive (s : Queue.State δ A) (i : Nat) : (Queue.step dev limit hear s (.receive i)).next = s.next := by
  simp only [Queue.step]; split <;> rfl

theorem fair_finish {own : Nat} {c : Req} {s : Queue.State δ A} (h : Fair dev own c s) (i : Nat) (x : Bool) :
    Fair dev own c (Queue.step dev limit hear s (.finish i x)) := by
  simp only [Queue.step]
  split
  · exact h
  · rename_i t c' hw
    refine ⟨fun e he => h.waiting e (List.mem_of_mem_eraseIdx he), ?_⟩
    intro e he
    simp only [List.mem_append, List.mem_cons, List.not_mem_nil, or_false] at he
    rcases he with he | rfl
    · exact h.done e he
    · exact ⟨h.waiting _ (List.mem_of_getElem? hw), s.dev, rfl⟩

theorem fair_receive {own : Nat} {c : Req} {s : Queue.State δ A} (h : Fair dev own c s) (i : Nat) :
    Fair dev own c (Queue.step dev limit hear s (.receive i)) := by
  simp only [Queue.step]
  split
  · exact ⟨h.waiting, h.done⟩
  · exact ⟨h.waiting, fun e he => h.done e (List.mem_of_mem_eraseIdx he)⟩

theorem works_keeps {own : Nat} {c : Req} (work : List (Nat × Bool)) {s : Queue.State δ A} (hb : Below s) (hf : Fair dev own c s) :
    Below (Queue.works dev limit hear s work) ∧ Fair dev own c (Queue.works dev limit hear s work) ∧
      (Queue.works dev limit hear s work).next = s.next := by
  induction work generalizing s with
  | nil => exact ⟨hb, hf, rfl⟩
  | cons x work ih =>
    have := ih (below_finish (dev := dev) (limit := limit) (hear := hear) hb x.1 x.2) (fair_finish hf x.1 x.2)
    rw [works_cons]
    exact ⟨this.1, this.2.1, this.2.2.trans (next_finish _ _ _)⟩

theorem waitFor_keeps {own : Nat} {c : Req} (e : PyErr) (rs : List Queue.Round) {s : Queue.State δ A} (hb : Below s) (hf : Fair dev own c s) :
    Below (Queue.waitFor dev limit hear own e s rs).2 ∧ Fair dev own c (Queue.waitFor dev limit hear own e s rs).2 ∧
      (Queue.waitFor dev limit hear own e s rs).2.next = s.next ∧
      ∀ a, (Queue.waitFor dev limit hear own e s rs).1 = .told a → ∃ k, a = hear c (dev k (asked c)).1 := by
  induction rs generalizing s with
  | nil => exact ⟨hb, hf, rfl, by intro a ha; cases ha⟩
  | cons r rs ih =>
    obtain ⟨b1, f1, n1⟩ := works_keeps (limit := limit) (hear := hear) r.work hb hf
    have b2 := below_receive (dev := dev) (limit := limit) (hear := hear) b1 r.pick
    have f2 := fair_receive (limit := limit) (hear := hear) f1 r.pick
    have n2 := (next_receive (dev := dev) (limit := limit) (hear := hear) _ r.pick).trans n1
    simp only [Queue.waitFor]
    cases hd : (Queue.works dev limit hear s r.work).done[r.pick]? with
    | none => exact ⟨b2, f2, n2, by intro a ha; cases ha⟩
    | some x =>
      obtain ⟨t, c', ans⟩ := x
      simp only
      split
      · rename_i hto
        refine ⟨b2, f2, n2, ?_⟩
        intro a ha
        cases ha
        obtain ⟨h1, k, h2⟩ := f1.done _ (List.mem_of_getElem? hd)
        have h1 := h1 hto
        simp only at h1 h2
        subst h1
        exact ⟨k, by rw [h2]⟩
      · obtain ⟨i1, i2, i3, i4⟩ := ih b2 f2
        exact ⟨i1, i2, i3.trans n2, i4⟩

/-- Every response waiting to be read is the device's answer to its command. -/
def Honest (dev : Device δ) (s : Queue.State δ A) : Prop := ∀ e ∈ s.done, ∃ k, e.2.2 = (dev k (asked e.2.1)).1

theorem call_keeps (c : Queue.Call) {s : Queue.State δ A} (hb : Below s) (hh : Honest dev s) :
    Below (Queue.call dev limit hear s c).2 ∧ Honest dev (Queue.call dev limit hear s c).2 ∧
      (Queue.call dev limit hear s c).2.next ≤ s.next + 1 ∧
      ∀ a, (Queue.call dev limit hear s c).1 = .told a → ∃ k, a = hear c.cmd (dev k (asked c.cmd)).1 := by
  simp only [Queue.call]
  split
  · exact ⟨hb, hh, Nat.le_succ _, by intro a ha; cases ha⟩
  · rename_i hfull
    have hf : Fair dev s.next c.cmd (Queue.step dev limit hear s (.send c.cmd)) := by
      simp only [Queue.step, hfull, if_false]
      constructor
      · intro e he hn
        simp only [List.mem_append, List.mem_cons, List.not_mem_nil, or_false] at he
        rcases he with he | rfl
        · have := hb e.1 (by simp only [Queue.State.tickets, List.mem_append, List.mem_map]; exact .inr ⟨_, he, rfl⟩)
          omega
        · rfl
      · intro e he
        refine ⟨fun hn => ?_, hh e he⟩
        have := hb e.1 (by simp only [Queue.State.tickets, List.mem_append, List.mem_map]; exact .inl ⟨_, he, rfl⟩)
        omega
    obtain ⟨h1, h2, h3, h4⟩ := waitFor_keeps (limit := limit) (hear := hear) c.interrupt c.rounds
      (below_send (dev := dev) (limit := limit) (hear := hear) hb c.cmd) hf
    refine ⟨h1, fun e he => (h2.done e he).2, ?_, h4⟩
    rw [h3]
    simp only [Queue.step, hfull, if_false]
    exact Nat.le_refl _

end

section
variable {l : Bool} {parse : Bytes → Py (Option S)} {dev : Device δ} {alloc : Nat → Alloc} {tmo : Int} {limit : Nat} {cmds : Req → Prop}
variable (hroom : Room alloc limit cmds) (hl : limit ≤ 2 ^ 31) (ht : 0 ≤ tmo ∧ tmo < 2 ^ 32)
variable (hparse : ∀ k q, (dev k q).1.status.toNat / 2 % 2 = 1 → ∃ sn, parse (padded 255 (dev k q).1.sense) = .ok sn)
include hroom hl ht hparse

theorem inv_works (room : Nat) (work : List (Nat × Bool)) (a : Queue.State δ (Told S)) (d : List (Nat × Req × Answer × Bool)) (s : Live δ S)
    (h : Inv l parse alloc tmo limit cmds a d s) :
    ∃ d', Inv l parse alloc tmo limit cmds (Queue.works dev limit (hear parse) a work) d'
      { s with world := work.foldl (fun w x => sgFinish l dev x.1 x.2 w) s.world } := by
  induction work generalizing a d s with
  | nil => exact ⟨d, h⟩
  | cons x work ih =>
    obtain ⟨d', h'⟩ := inv_finish hroom hl ht room hparse h x.1 x.2
    exact ih _ _ _ h'

theorem loop_sound {room : Nat} (e : PyErr) (own : Nat) (rs : List Queue.Round) (a : Queue.State δ (Told S))
    (d : List (Nat × Req × Answer × Bool)) (s : Live δ S) (h : Inv l parse alloc tmo limit cmds a d s) :
    (callLoop (receives l parse dev room e) (rename (tag own) s.ex) (s.world, rs)).out =
      seen (Queue.waitFor dev limit (hear parse) own e a rs).1 ∧
    ∃ d' s', Inv l parse alloc tmo limit cmds (Queue.waitFor dev limit (hear parse) own e a rs).2 d' s' ∧ s'.next = s.next ∧
      (callLoop (receives l parse dev room e) (rename (tag own) s.ex) (s.world, rs)).st = rename (tag own) s'.ex ∧
      (callLoop (receives l parse dev room e) (rename (tag own) s.ex) (s.world, rs)).os.1 = s'.world := by
  induction rs generalizing a d s with
  | nil =>
    have hp : process (receives l parse dev room e) (rename (tag own) s.ex) (s.world, []) =
        ⟨.error e, none, rename (tag own) s.ex, (s.world, [])⟩ := rfl
    rw [callLoop_error hp]
    exact ⟨rfl, d, s, h, rfl, rfl, rfl⟩
  | cons r rs ih =>
    obtain ⟨d1, h1⟩ := inv_works hroom hl ht hparse room r.work a d s h
    generalize hs1 : ({ s with world := r.work.foldl (fun w x => sgFinish l dev x.1 x.2 w) s.world } : Live δ S) = s1 at h1
    generalize ha1 : Queue.works dev limit (hear parse) a r.work = a1 at h1
    obtain ⟨d2, h2⟩ := inv_receive hroom hl ht (dev := dev) room h1 r.pick
    -- what the method does here is what it does on the driver alone
    have hpr := process_rename (tag own) (receives_rename (tag own) l parse dev room e s.ex (s.world, r :: rs))
    have hpp : process (receives l parse dev room e) s.ex (s.world, r :: rs) =
        ⟨(process (sgReceive (lp64 l) parse (sgQueue l room r.pick)) s1.ex s1.world).out,
         (process (sgReceive (lp64 l) parse (sgQueue l room r.pick)) s1.ex s1.world).fired,
         (process (sgReceive (lp64 l) parse (sgQueue l room r.pick)) s1.ex s1.world).st,
         ((process (sgReceive (lp64 l) parse (sgQueue l room r.pick)) s1.ex s1.world).os, rs)⟩ := by
      rw [← hs1]
      unfold process
      simp only [receives]
      generalize sgReceive (lp64 l) parse (sgQueue l room r.pick) s.ex _ = p
      obtain ⟨o, w'⟩ := p
      cases o with
      | error e => rfl
      | ok p =>
        obtain ⟨res, pid⟩ := p
        simp only
        cases Dict.get s.ex.pending pid with
        | none => rfl
        | some v =>
          obtain ⟨q, cb⟩ := v
          cases cb <;> rfl
    generalize hp : process (sgReceive (lp64 l) parse (sgQueue l room r.pick)) s1.ex s1.world = p at hpp
    rw [hpp] at hpr
    have hstep : Live.step l parse dev alloc tmo room s1 (.receive r.pick) =
        match p.fired with
        | some (t, x) => ⟨p.st, p.os, s1.next, s1.log ++ [.told t x]⟩
        | none => ⟨p.st, p.os, s1.next, s1.log ++ [.nothing]⟩ := by
      simp only [Live.step, hp]
      rcases p.fired with _ | ⟨t, x⟩ <;> rfl
    have hnext : s1.next = s.next := by rw [← hs1]
    have hlog := h2.log
    simp only [Queue.waitFor, ha1]
    cases hdone : a1.done[r.pick]? with
    | none =>
      have hq : Queue.step dev limit (hear parse) a1 (.receive r.pick) = { a1 with log := a1.log ++ [.nothing] } := by
        simp only [Queue.step, hdone]
      have hk : s1.world.kernel.done[r.pick]? = none := by
        have := h1.done
        rw [this, List.getElem?_map] at hdone
        rw [h1.kdone, List.getElem?_map]
        cases hd : d1[r.pick]? with
        | none => rfl
        | some x => rw [hd] at hdone; cases hdone
      have hpe : p = ⟨.error .ioError, none, s1.ex, s1.world⟩ := by
        rw [← hp]; simp only [process, sgReceive, sgQueue, hk]
      rw [hpe] at hpr hstep
      rw [callLoop_error hpr]
      refine ⟨rfl, d2, _, h2, ?_, ?_, ?_⟩
      all_goals rw [hstep]
      exact hnext
    | some x =>
      obtain ⟨t, c, ans⟩ := x
      have hq : Queue.step dev limit (hear parse) a1 (.receive r.pick) =
          { a1 with done := a1.done.eraseIdx r.pick, log := a1.log ++ [.told t (hear parse c ans)] } := by
        simp only [Queue.step, hdone]
      have hfired : p.fired = some (t, hear parse c ans) := by
        rw [hstep, hq] at hlog
        cases hf : p.fired with
        | none =>
          rw [hf] at hlog
          simp only [h1.log, List.append_cancel_left_eq, List.cons.injEq, and_true] at hlog
          cases hlog
        | some x =>
          obtain ⟨t', x⟩ := x
          rw [hf] at hlog
          simp only [h1.log, List.append_cancel_left_eq, List.cons.injEq, and_true, Queue.Ev.told.injEq] at hlog
          rw [hlog.1, hlog.2]
      have hok : p.out = .ok true := by
        rw [← hp] at hfired ⊢; exact process_ok_of_fired hfired
      rw [hfired] at hstep
      have hstep' : Live.step l parse dev alloc tmo room s1 (.receive r.pick) = ⟨p.st, p.os, s1.next, s1.log ++ [.told t (hear parse c ans)]⟩ := hstep
      rw [hstep'] at h2
      simp only [hok, hfired, Option.map_some] at hpr
      simp only
      by_cases hto : t = own
      · simp only [tag, hto, if_true] at hpr ⊢
        rw [callLoop_own hpr]
        exact ⟨by simp only [seen]; cases (hear parse c ans).exc <;> rfl, d2, _, h2, hnext, rfl, rfl⟩
      · simp only [tag, hto, if_false] at hpr ⊢
        rw [callLoop_other hpr]
        obtain ⟨i1, d3, s3, i2, i3, i4, i5⟩ := ih _ _ _ h2
        exact ⟨i1, d3, s3, i2, i3.trans hnext, i4, i5⟩

theorem call_sound {room : Nat} (hr : limit ≤ room) (c : Queue.Call) (hc : cmds c.cmd) (a : Queue.State δ (Told S))
    (d : List (Nat × Req × Answer × Bool)) (s : Live δ S) (h : Inv l parse alloc tmo limit cmds a d { s with log := a.log }) (hb : Below a)
    (hd : Queue.Distinct limit a) :
    (s.call l parse dev alloc tmo room c).1 = seen (Queue.call dev limit (hear parse) a c).1 ∧
    ∃ d', Inv l parse alloc tmo limit cmds (Queue.call dev limit (hear parse) a c).2 d'
      { (s.call l parse dev alloc tmo room c).2 with log := (Queue.call dev limit (hear parse) a c).2.log } := by
  have htk := tickets_eq l parse alloc tmo limit cmds h
  have hlen : s.ex.pending.length = a.tickets.length := by
    have := h.keys.length_eq
    simp only [Dict.keys, List.length_map] at this
    rw [htk, List.length_map]; exact this.symm
  have hmax : s.ex.maxq = limit := h.maxq
  have hnx : s.next = a.next := h.next
  by_cases hfull : limit ≤ a.tickets.length
  · have hq : isQueueFull s.ex = true := by simp only [isQueueFull, hlen, hmax, ge_iff_le, hfull, decide_true]
    have hcall : s.call l parse dev alloc tmo room c = (.error (.py .nameError), s) := by
      simp only [Live.call, Executer.call, Executer.send, nextPacketIndex]
      simp only [show (rename some s.ex).pending.length = a.tickets.length by simp only [rename, List.length_map, hlen],
        show (rename some s.ex).maxq = limit from hmax, ge_iff_le, hfull, if_true, hq, rename_some]
    rw [hcall]
    simp only [Queue.call, hfull, if_true]
    exact ⟨rfl, d, h⟩
  · have hq : isQueueFull s.ex = false := by simp only [isQueueFull, hlen, hmax, ge_iff_le, hfull, decide_false]
    have hsend := inv_send hroom hl ht (dev := dev) room hr h c.cmd hc (fun _ => hd)
    have hstepa : Queue.step dev limit (hear parse) a (.send c.cmd) =
        { a with next := a.next + 1, waiting := a.waiting ++ [(a.next, c.cmd)], log := a.log ++ [.accepted a.next] } := by
      simp only [Queue.step, hfull, if_false]
    have hren : rename some s.ex = rename (tag s.next) s.ex := by
      simp only [rename, St.mk.injEq, and_true]
      apply List.map_congr_left
      rintro ⟨k, q, cb⟩ hmem
      have hkn : (Dict.keys s.ex.pending).Nodup := h.keys.nodup h.slots
      have hk : k ∈ Dict.keys s.ex.pending := List.mem_map.2 ⟨_, hmem, rfl⟩
      obtain ⟨e, he, hke⟩ := List.mem_map.1 (h.keys.mem_iff.2 hk)
      have hg := (h.each e he).get
      simp only at hg hke
      rw [hke, get_of_mem hkn hmem] at hg
      simp only [Option.some.injEq, Prod.mk.injEq] at hg
      rw [hg.2]
      have hlt := hb e.1 (by rw [htk]; exact List.mem_map_of_mem he)
      simp only [Option.map_some, tag, show ¬ e.1 = s.next by omega, if_false]
    have hsr := send_rename (tag s.next) (prepare (lp64 l) alloc tmo c.cmd) (sends l room (δ := δ)) (some s.next) s.ex (s.world, c.rounds)
    rw [← hren, send_sends l room _ (some s.next) s.ex s.world c.rounds, show (some s.next).map (tag s.next) = some none by simp [tag]] at hsr
    simp only [Live.step] at hsend
    generalize hR : send (prepare (lp64 l) alloc tmo c.cmd) (sgSend (sgQueue l room 0)) (some s.next) s.ex s.world = R at hsr hsend
    cases ho : R.out with
    | error e =>
      exfalso
      rw [ho] at hsend
      have := hsend.log
      rw [hstepa] at this
      simp only [List.append_cancel_left_eq, List.cons.injEq, and_true] at this
      cases this
    | ok u =>
      cases u
      rw [ho] at hsend hsr
      simp only at hsend
      obtain ⟨l1, d', s', l2, l3, l4, l5⟩ := loop_sound hroom hl ht hparse (room := room) c.interrupt s.next c.rounds _ _ _ hsend
      have hcall : Queue.call dev limit (hear parse) a c =
          Queue.waitFor dev limit (hear parse) s.next c.interrupt (Queue.step dev limit (hear parse) a (.send c.cmd)) c.rounds := by
        simp only [Queue.call, hfull, if_false, hnx]
      rw [hcall]
      have hlive : s.call l parse dev alloc tmo room c = (seen (Queue.waitFor dev limit (hear parse) s.next c.interrupt
          (Queue.step dev limit (hear parse) a (.send c.cmd)) c.rounds).1, ⟨s'.ex, s'.world, s'.next, s.log⟩) := by
        simp only [Live.call, Executer.call, hsr, hq, Bool.false_eq_true, if_false, l1, l4, l5, rename_id, l3]
      rw [hlive]
      refine ⟨rfl, d', ?_⟩
      have := l2.log
      rw [← this]
      exact l2

theorem calls_sound {room : Nat} (hr : limit ≤ room) (cs : List Queue.Call) (hcs : ∀ c ∈ cs, cmds c.cmd) (a : Queue.State δ (Told S))
    (d : List (Nat × Req × Answer × Bool)) (s : Live δ S) (h : Inv l parse alloc tmo limit cmds a d { s with log := a.log }) (hb : Below a)
    (hh : Honest dev a) (hd : Queue.Throughout dev limit (hear parse) (Queue.Distinct limit) a cs) :
    (s.calls l parse dev alloc tmo room cs).1 = (Queue.calls dev limit (hear parse) a cs).1.map seen ∧
    ∃ d', Inv l parse alloc tmo limit cmds (Queue.calls dev limit (hear parse) a cs).2 d'
      { (s.calls l parse dev alloc tmo room cs).2 with log := (Queue.calls dev limit (hear parse) a cs).2.log } := by
  induction cs generalizing a d s with
  | nil => exact ⟨rfl, d, h⟩
  | cons c cs ih =>
    obtain ⟨h1, h2⟩ := hd
    obtain ⟨c1, d', c2⟩ := call_sound hroom hl ht hparse hr c (hcs c List.mem_cons_self) a d s h hb h1
    obtain ⟨k1, k2, -, -⟩ := call_keeps (limit := limit) (hear := hear parse) c hb hh
    obtain ⟨i1, i2⟩ := ih (fun x hx => hcs x (List.mem_cons_of_mem _ hx)) _ _ _ c2 k1 k2 h2
    exact ⟨by simp only [Live.calls, Queue.calls, List.map_cons, c1, i1], i2⟩

/-- **C73** (partial: as long as no packet number is given out again while the command that had it is outstanding, cf. `C73_false`). Calls
made one after another through the sg executer, in front of any device, any of them given up at any moment with any exception, the device
executing the commands at any time and in any order, late answers coming in at any time and in any order: every call ends exactly as in the
ideal, whether it got its answer, was given up or refused; the device has executed exactly the commands sent; and exactly the commands of the
calls given up whose answer has not been read are pending. -/
theorem C73_partial {room : Nat} (hr : limit ≤ room) (cs : List Queue.Call) (hcs : ∀ c ∈ cs, cmds c.cmd) (m : Mem) (k : δ)
    (hd : Queue.Throughout dev limit (hear parse) (Queue.Distinct limit) (Queue.State.init k) cs) :
    let live := Live.calls l parse dev alloc tmo room (Live.init limit m k) cs
    let ideal := Queue.calls dev limit (hear parse) (Queue.State.init k) cs
    live.1 = ideal.1.map seen ∧ live.2.world.kernel.dev = ideal.2.dev ∧ live.2.ex.pending.length = ideal.2.tickets.length := by
  intro live ideal
  obtain ⟨h1, d, h⟩ := calls_sound (l := l) hroom hl ht hparse hr cs hcs (Queue.State.init k) [] (Live.init limit m k)
    (inv_init l parse alloc tmo limit cmds m k) (by intro t ht; cases ht) (by intro t ht; cases ht) hd
  refine ⟨h1, h.dev, ?_⟩
  have := h.keys.length_eq
  simp only [Dict.keys, List.length_map] at this
  rw [show ideal.2.tickets = _ from tickets_eq l parse alloc tmo limit cmds h, List.length_map]
  exact this.symm
end

theorem calls_own {A : Type} {dev : Device δ} {limit : Nat} {hear : Req → Answer → A} (cs : List Queue.Call) {s : Queue.State δ A} (hb : Below s)
    (hh : Honest dev s) (i : Nat) (c : Queue.Call) (hc : cs[i]? = some c) (a : A)
    (ha : (Queue.calls dev limit hear s cs).1[i]? = some (.told a)) : ∃ k, a = hear c.cmd (dev k (asked c.cmd)).1 := by
  induction cs generalizing s i with
  | nil => simp at hc
  | cons x cs ih =>
    obtain ⟨k1, k2, -, k4⟩ := call_keeps (limit := limit) (hear := hear) x hb hh
    cases i with
    | zero =>
      simp only [List.getElem?_cons_zero, Option.some.injEq] at hc
      subst hc
      simp only [Queue.calls, List.getElem?_cons_zero, Option.some.injEq] at ha
      exact k4 a ha
    | succ i =>
      simp only [List.getElem?_cons_succ] at hc
      simp only [Queue.calls, List.getElem?_cons_succ] at ha
      exact ih k1 k2 i hc ha

section
variable {l : Bool} {parse : Bytes → Py (Option S)} {dev : Device δ} {alloc : Nat → Alloc} {tmo : Int} {limit : Nat} {cmds : Req → Prop}
variable (hroom : Room alloc limit cmds) (hl : limit ≤ 2 ^ 31) (ht : 0 ≤ tmo ∧ tmo < 2 ^ 32)
variable (hparse : ∀ k q, (dev k q).1.status.toNat / 2 % 2 = 1 → ∃ sn, parse (padded 255 (dev k q).1.sense) = .ok sn)
include hroom hl ht hparse

/-- **C73 in terms of one call** (partial like `C73_partial`): data returned by a call, and a device error raised by it, is what the device
answered to the command of this very call, however many calls were given up before. -/
theorem C73_own_partial {room : Nat} (hr : limit ≤ room) (cs : List Queue.Call) (hcs : ∀ c ∈ cs, cmds c.cmd) (m : Mem) (k : δ)
    (hd : Queue.Throughout dev limit (hear parse) (Queue.Distinct limit) (Queue.State.init k) cs) (i : Nat) (c : Queue.Call)
    (hc : cs[i]? = some c) (v : Seen S) (hv : (Live.calls l parse dev alloc tmo room (Live.init limit m k) cs).1[i]? = some v)
    (hdev : ∀ e, v ≠ .error (.py e)) : ∃ k', v = seen (.told (hear parse c.cmd (dev k' (asked c.cmd)).1)) := by
  have h := (C73_partial (l := l) hroom hl ht hparse hr cs hcs m k hd).1
  rw [h, List.getElem?_map] at hv
  cases hi : (Queue.calls dev limit (hear parse) (Queue.State.init k) cs).1[i]? with
  | none => rw [hi] at hv; cases hv
  | some x =>
    rw [hi] at hv
    simp only [Option.map_some, Option.some.injEq] at hv
    subst hv
    cases x with
    | told a =>
      obtain ⟨k', hk⟩ := calls_own cs (by intro t ht; cases ht) (by intro t ht; cases ht) i c hc a hi
      exact ⟨k', by rw [hk]⟩
    | gaveUp e => exact absurd rfl (hdev e)
    | refused => exact absurd rfl (hdev _)
end

/-! ## When the condition holds -/

section
variable {A : Type} {dev : Device δ} {limit : Nat} {hear : Req → Answer → A}

theorem mod_ne {t n limit : Nat} (h1 : t < n) (h2 : n < t + limit) : t % limit ≠ n % limit := by
  intro h
  have h1 : (n - t) % limit = 0 := Nat.sub_mod_eq_zero_of_mod_eq h.symm
  rw [Nat.mod_eq_of_lt (by omega)] at h1
  omega

/-- It suffices that a call given up is answered, and its answer read, within the next `limit - 1` calls. -/
theorem C73_recent (cs : List Queue.Call) (k : δ) (h : Queue.Throughout dev limit hear (Queue.Recent limit) (Queue.State.init k) cs) :
    Queue.Throughout dev limit hear (Queue.Distinct limit) (Queue.State.init k) cs := by
  suffices ∀ (s : Queue.State δ A), Below s → Honest dev s → Queue.Throughout dev limit hear (Queue.Recent limit) s cs →
      Queue.Throughout dev limit hear (Queue.Distinct limit) s cs from
    this _ (by intro t ht; cases ht) (by intro t ht; cases ht) h
  clear h
  induction cs with
  | nil => intro s _ _ _; trivial
  | cons c cs ih =>
    rintro s hb hh ⟨h1, h2⟩
    obtain ⟨k1, k2, -, -⟩ := call_keeps (limit := limit) (hear := hear) c hb hh
    exact ⟨fun t ht => mod_ne (hb t ht) (h1 t ht), ih _ k1 k2 h2⟩

/-- It holds for the first `limit` calls. -/
theorem C73_few (cs : List Queue.Call) (k : δ) (h : cs.length ≤ limit) :
    Queue.Throughout dev limit hear (Queue.Distinct limit) (Queue.State.init k) cs := by
  suffices ∀ (s : Queue.State δ A), Below s → Honest dev s → s.next + cs.length ≤ limit →
      Queue.Throughout dev limit hear (Queue.Distinct limit) s cs from
    this _ (by intro t ht; cases ht) (by intro t ht; cases ht) (by simp only [Queue.State.init]; omega)
  clear h
  induction cs with
  | nil => intro s _ _ _; trivial
  | cons c cs ih =>
    intro s hb hh hn
    obtain ⟨k1, k2, k3, -⟩ := call_keeps (limit := limit) (hear := hear) c hb hh
    simp only [List.length_cons] at hn
    exact ⟨fun t ht => mod_ne (hb t ht) (by omega), ih _ k1 k2 (by omega)⟩
end

/-! ## The hypotheses can be met; and the condition is needed -/

/-- The first call times out; its answer comes while the second one waits; the third one is interrupted. -/
def someCalls : List Queue.Call :=
  [⟨.read [8, 65] 1, [⟨[], 0⟩], .keyError⟩, ⟨.read [8, 66] 1, [⟨[(0, false)], 0⟩, ⟨[(0, true)], 0⟩], .keyError⟩, ⟨.read [8, 67] 1, [], .keyError⟩]

example : (Queue.calls echo 15 (hear (S := Unit) (fun _ => .ok none)) (Queue.State.init ()) someCalls).1 =
    [.gaveUp .ioError, .told ⟨some (some [66]), none⟩, .gaveUp .keyError] := by decide +kernel

example : (Live.calls true (S := Unit) (fun _ => .ok none) echo pages 30000 16 (Live.init 15 (fun _ => 0) ()) someCalls).1 =
    [.error (.py .ioError), .ok (some (some [66])), .error (.py .keyError)] := by decide +kernel

/-- The first call times out, the second one is answered at once, the answer to the first comes just before that of the third. -/
def lateCalls : List Queue.Call :=
  [⟨.read [8, 65] 1, [⟨[], 0⟩], .ioError⟩, ⟨.read [8, 66] 1, [⟨[(1, false)], 0⟩], .ioError⟩,
   ⟨.read [8, 67] 1, [⟨[(0, false)], 0⟩, ⟨[(0, false)], 0⟩], .ioError⟩]

/-- **C73 is false in general**: with two commands allowed to be outstanding, a READ times out, a call comes and goes, and the next READ is handed
the late data of the first one as its own (GOOD status, no error), its own command not even executed. The ideal shows the data of its own
command. (With the default queue size of 15 it takes fourteen calls in between.) -/
theorem C73_false : (∀ c ∈ lateCalls, Small c.cmd) ∧
    (Live.calls true (S := Unit) (fun _ => .ok none) echo pages 30000 16 (Live.init 2 (fun _ => 0) ()) lateCalls).1 =
      [.error (.py .ioError), .ok (some (some [66])), .ok (some (some [65]))] ∧
    (Queue.calls echo 2 (hear (S := Unit) (fun _ => .ok none)) (Queue.State.init ()) lateCalls).1 =
      [.gaveUp .ioError, .told ⟨some (some [66]), none⟩, .told ⟨some (some [67]), none⟩] := by
  refine ⟨?_, by decide +kernel, by decide +kernel⟩
  simp [lateCalls, Small, dataSize, Req.cdb]

end Verif.Platform.Linux
