import Verif.Spec.LatestFaults
import Verif.Platform.IoctlAhead
set_option linter.unusedSimpArgs false
set_option linter.unusedSectionVars false
/-!
# Commands sent ahead on the executer for multipath devices, when `ioctl` can fail
-/

namespace Verif.Platform.Linux
open Verif.Executer Verif.Spec

namespace Ahead
open Verif.Platform.Book

variable {S δ : Type}

/-- A call of `ioctl` that fails: what it did to the device and what it left in memory, wherever. -/
structure Fault (δ : Type) where
  dev : δ → δ
  mem : Mem → Mem

/-- The driver when it fails: `fcntl.ioctl` raises `IOError`, `_os_send` (linux.py:285-289) has stored the request in `self.buffer` before. -/
def failing (f : Fault δ) : IoctlDriver δ :=
  { ioctl := fun _ w => (.error .ioError, ⟨f.mem w.mem, f.dev w.kernel⟩) }

/-- One thing the user does, and how the system fails at it, if it does. -/
abbrev LOp (δ : Type) := Pipeline.Op × Option (Fault δ)

/-- What the ideal knows of it. -/
def plain (op : LOp δ) : Pipeline.FOp δ := (op.1, op.2.map Fault.dev)

/-- One thing the user does, with the methods of the executer doing the work: `send` (__init__.py:99-110), `call` (77-91), `wait` (112-114), on
`LinuxIoctlCommandExecuter` (linux.py:279-293). -/
def Live.fstep (l : Bool) (parse : Bytes → Py (Option S)) (dev : Device δ) (alloc : Nat → Alloc) (timeout : Int) (s : Live δ S) : LOp δ → Live δ S
  | (op, none) => Live.step l parse dev alloc timeout s op
  | (.wait, some _) => Live.step l parse dev alloc timeout s .wait
  | (.send c, some f) =>
    let r := Executer.send (prepare (lp64 l) (fun _ => alloc s.next) timeout c) (ioctlSend (failing f)) (some (some s.next)) s.ex s.world
    match r.out with
    | .ok () => ⟨r.st, r.os, s.next + 1, s.log ++ [.accepted s.next]⟩
    | .error .nameError => ⟨r.st, r.os, s.next, s.log ++ [.refused]⟩
    | .error e => ⟨r.st, r.os, s.next + 1, s.log ++ [.raised e]⟩
  | (.call c, some f) =>
    let r := Executer.call (prepare (lp64 l) (fun _ => alloc s.next) timeout c) (ioctlSend (failing f)) (ioctlReceive (lp64 l) parse) s.ex s.world
    match r.out with
    | .error (.py .nameError) => ⟨r.st, r.os, s.next, s.log ++ r.fired.flatMap seen ++ [.refused]⟩
    | .error (.py e) => ⟨r.st, r.os, s.next + 1, s.log ++ r.fired.flatMap seen ++ [.raised e]⟩
    | o => ⟨r.st, r.os, s.next + 1, s.log ++ r.fired.flatMap seen ++ [.returned s.next o]⟩

def Live.frunFrom (l : Bool) (parse : Bytes → Py (Option S)) (dev : Device δ) (alloc : Nat → Alloc) (timeout : Int) (s : Live δ S)
    (ops : List (LOp δ)) : Live δ S := ops.foldl (Live.fstep l parse dev alloc timeout) s

def Live.frun (l : Bool) (parse : Bytes → Py (Option S)) (dev : Device δ) (alloc : Nat → Alloc) (timeout : Int) (limit : Nat) (m : Mem) (k : δ)
    (ops : List (LOp δ)) : Live δ S := Live.frunFrom l parse dev alloc timeout (Live.init limit m k) ops

section
variable {l : Bool} {parse : Bytes → Py (Option S)} {dev : Device δ} {alloc : Nat → Alloc} {timeout : Int} {limit : Nat}
variable {cb : Nat → Option Nat} {next : Nat} {items : List (Item Handle)} {ex : St Handle (Option Nat)} {w : IoctlWorld δ}

/-- A request block in `self.buffer` whose request object is not pending. -/
theorem stale_block (al : Alloc) (i : Nat) (t : Int) (c : Req) (hidx : i < 2 ^ 31) (hcdb : c.cdb.length ≤ 255) (hd : dataSize c < 2 ^ 32)
    (ht : 0 ≤ t ∧ t < 2 ^ 32) (hsep : Separate 64 [(al.block, 88), (al.sense, 255), (al.cmd, c.cdb.length), (al.data, dataSize c)])
    (w : IoctlWorld δ) (hw : w.buffer = some (create (lp64 l) al i c t).block) (s : St Handle (Option Nat)) (hs : getOsData s i = none) :
    ioctlReceive (lp64 l) parse s w = (.error .attribute, w) := by
  have hb := hsep.2
  simp only [List.mem_cons, List.not_mem_nil, or_false, forall_eq_or_imp, forall_eq] at hb
  obtain ⟨-, hb2, hb3, hb4⟩ := hb
  have hf := create_fields l al i c t hidx hcdb hd ht hb2 hb3 hb4
  generalize create (lp64 l) al i c t = h at *
  have e1 : sgStatus h.block = 0 := by rw [sgStatus, ← word_one l, word_lp64, hf.status]; rfl
  have e2 : sgHostStatus l h.block = 0 := by rw [sgHostStatus, word_lp64, hf.host]; rfl
  have e3 : sgDriverStatus l h.block = 0 := by rw [sgDriverStatus, word_lp64, hf.driver]; rfl
  have e4 : sgPackId l h.block = i := by rw [sgPackId, sword_lp64, hf.packId]
  have hget : getOs s (i : Int) = none := by simpa [getOs] using hs
  simp only [ioctlReceive, hw]
  rw [handle_eq l parse _ _ _ (by rw [hf.len]; omega), e1, e2, e3, e4, hget]
  simp only [Nat.zero_and, ne_eq, not_true_eq_false, or_false, if_false, toRecv, successData]

/-- A command fails. -/
theorem fail_rel (ht : 0 ≤ timeout ∧ timeout < 2 ^ 32) (hl : limit ≤ 2 ^ 31) (hr : Rel l parse limit some next items ex w) (hroom : items.length < limit)
    {c : Req} (hcdb : c.cdb.length ≤ 255) (hsize : dataSize c < 2 ^ 32)
    (hsep : Separate 64 [((alloc next).block, 88), ((alloc next).sense, 255), ((alloc next).cmd, c.cdb.length), ((alloc next).data, dataSize c)])
    (f : Fault δ) (k : Option Nat) :
    ∃ ex' w', Executer.send (prepare (lp64 l) (fun _ => alloc next) timeout c) (ioctlSend (failing f)) (some k) ex w = ⟨.error .ioError, ex', w'⟩ ∧
      w'.world.kernel = f.dev w.world.kernel ∧ Rel l parse limit some (next + 1) (kept limit next items) ex' w' := by
  have hm : next % limit < limit := Nat.mod_lt _ (by omega)
  have hne : ∀ x ∈ items, x.e.t ≠ next := fun x hx => by have := (hr.books.young x hx).1; omega
  have hb' : Books limit (fun t => if t = next then k else some t) next items ex := hr.books.cb_congr (fun x hx => by simp [hne x hx])
  have hb := (hb'.add hroom ⟨next, c, ⟨0, [], []⟩⟩ rfl (create (lp64 l) (alloc next) (next % limit) c timeout)).pop
  simp only [if_true] at hb
  refine ⟨_, ⟨⟨f.mem ((create (lp64 l) (alloc next) (next % limit) c timeout).install w.world.mem), f.dev w.world.kernel⟩,
    some (create (lp64 l) (alloc next) (next % limit) c timeout).block⟩, ?_, rfl,
    hb.cb_congr (fun x hx => by simp [hne x (mem_kept hx).1]), ?_, ?_⟩
  · unfold Executer.send nextPacketIndex
    rw [if_neg (by rw [hr.books.count, hr.books.maxq]; omega)]
    simp only [prepare, hr.books.index, hr.books.maxq, Nat.mod_add_mod]
    rfl
  · intro x hx hn
    have := (hr.books.young x (mem_kept hx).1).1
    omega
  · intro _ s hs
    exact stale_block (alloc next) (next % limit) timeout c (by omega) hcdb hsize ht hsep _ rfl s hs

theorem fail_full (hr : Rel l parse limit cb next items ex w) (hfull : limit ≤ items.length) (c : Req) (al : Nat → Alloc) (f : Fault δ) (k : Option Nat) :
    Executer.send (prepare (lp64 l) al timeout c) (ioctlSend (failing f)) (some k) ex w = ⟨.error .nameError, ex, w⟩ := by
  unfold Executer.send nextPacketIndex
  rw [if_pos (by rw [hr.books.count, hr.books.maxq]; omega)]

theorem finv_step {cmds : Req → Prop} (hfit : Fits alloc cmds) (ht : 0 ≤ timeout ∧ timeout < 2 ^ 32) (hl : limit ≤ 2 ^ 31) {s : Live δ S}
    {i : Pipeline.State δ (Told S) (Result S)} (h : Inv l parse limit s i) (op : LOp δ) (hop : Pipeline.Gives cmds op.1) :
    Inv l parse limit (Live.fstep l parse dev alloc timeout s op) (Latest.fstep .ioError dev limit hear ret i (plain op)) := by
  obtain ⟨op, f⟩ := op
  cases f with
  | none => exact inv_step hfit ht hl h op hop
  | some f =>
    cases op with
    | wait => exact inv_step (dev := dev) hfit ht hl h .wait hop
    | send c =>
      obtain ⟨hn, hlog, hdev, items, hit, hrel⟩ := h
      have hlen : i.out.length = items.length := by rw [← hit, List.length_map]
      by_cases hfull : limit ≤ items.length
      · have hs := fail_full (timeout := timeout) hrel hfull c (fun _ => alloc i.next) f (some i.next)
        simp only [Live.fstep, plain, Option.map_some, Latest.fstep, Pipeline.failed, hn, hs, hlen, if_pos hfull]
        exact ⟨rfl, by rw [hlog], hdev, items, hit, hrel⟩
      · obtain ⟨ex', w', h3, h4, h5⟩ := fail_rel (alloc := alloc) ht hl hrel (by omega) (hfit.cdb c hop) (hfit.size c hop) (hfit.one c hop i.next) f (some i.next)
        simp only [Live.fstep, plain, Option.map_some, Latest.fstep, Pipeline.failed, hn, h3, hlen, if_neg hfull]
        rw [hdev] at h4
        exact ⟨rfl, by rw [hlog], h4, _, keep_items hit, h5⟩
    | call c =>
      obtain ⟨hn, hlog, hdev, items, hit, hrel⟩ := h
      have hlen : i.out.length = items.length := by rw [← hit, List.length_map]
      by_cases hfull : limit ≤ items.length
      · have hs := fail_full (timeout := timeout) hrel hfull c (fun _ => alloc i.next) f none
        have hc : Executer.call (prepare (lp64 l) (fun _ => alloc i.next) timeout c) (ioctlSend (failing f)) (ioctlReceive (lp64 l) parse) s.ex s.world =
            ⟨.error (.py .nameError), [], s.ex, s.world⟩ := by
          unfold Executer.call
          simp only [hs]
        simp only [Live.fstep, plain, Option.map_some, Latest.fstep, Pipeline.failed, hn, hc, hlen, if_pos hfull]
        exact ⟨rfl, by simp [hlog], hdev, items, hit, hrel⟩
      · obtain ⟨ex', w', h3, h4, h5⟩ := fail_rel (alloc := alloc) ht hl hrel (by omega) (hfit.cdb c hop) (hfit.size c hop) (hfit.one c hop i.next) f none
        have hc : Executer.call (prepare (lp64 l) (fun _ => alloc i.next) timeout c) (ioctlSend (failing f)) (ioctlReceive (lp64 l) parse) s.ex s.world =
            ⟨.error (.py .ioError), [], ex', w'⟩ := by
          unfold Executer.call
          simp only [h3]
        simp only [Live.fstep, plain, Option.map_some, Latest.fstep, Pipeline.failed, hn, hc, hlen, if_neg hfull]
        rw [hdev] at h4
        exact ⟨rfl, by simp [hlog], h4, _, keep_items hit, h5⟩

theorem finv_run {cmds : Req → Prop} (hfit : Fits alloc cmds) (ht : 0 ≤ timeout ∧ timeout < 2 ^ 32) (hl : limit ≤ 2 ^ 31) (ops : List (LOp δ))
    (hops : ∀ op ∈ ops, Pipeline.Gives cmds op.1) (s : Live δ S) (i : Pipeline.State δ (Told S) (Result S)) (h : Inv l parse limit s i) :
    Inv l parse limit (Live.frunFrom l parse dev alloc timeout s ops) (Latest.frunFrom .ioError dev limit hear ret i (ops.map plain)) := by
  induction ops generalizing s i with
  | nil => exact h
  | cons op ops ih =>
    exact ih (fun o ho => hops o (List.mem_cons_of_mem _ ho)) _ _ (finv_step hfit ht hl h op (hops op List.mem_cons_self))

end

end Ahead
end Verif.Platform.Linux
