import Verif.Spec.LinkQueue
import Verif.Props.Queue
import Verif.Props.Link
set_option linter.unusedSimpArgs false
set_option linter.unusedSectionVars false
/-!
# C112: commands outstanding together on Linux, on a way that can fail

As C67, but the driver may not take a command (`os.write` raises), and besides the device's answer it reports errors of the host adapter and its own.
-/

namespace Verif.Platform.Linux.Linked
open Verif.Executer Verif.Spec Verif.Spec.Link
open Verif.Spec.LinkQueue (heard)
open Verif.Reactor (dict_get_set dict_get_erase dict_keys_erase)

variable {S δ : Type}

/-- The sg driver's own state: the device, the requests not executed yet (header as written, and what it asks for), the executed ones
(with the report, and whether the data already is in the user's buffer). -/
structure Kernel (δ : Type) where
  dev : δ
  waiting : List (Bytes × OsRequest)
  done : List (Bytes × OsRequest × Report × Bool)

/-- The sg driver (Linux `drivers/scsi/sg.c`, version 3 interface). `room` is the number of requests it accepts (`SG_MAX_QUEUE`, 16); `pick`
says which of the finished requests a read hands over; `taken` says whether a write succeeds. -/
def sgLinkQueue (l : Bool) (room pick : Nat) (taken : Bool) : SgDriver (Kernel δ) :=
  { write := fun raw w =>
      match sgView l raw w.mem with
      | none => (.error .ioError, w)
      | some req =>
        if taken = false ∨ room ≤ w.kernel.waiting.length + w.kernel.done.length then (.error .ioError, w)
        else (.ok (), { w with kernel := { w.kernel with waiting := w.kernel.waiting ++ [(raw, req)] } })
    read := fun n w =>
      match w.kernel.done[pick]? with
      | none => (.error .ioError, w)
      | some (raw, req, ans, direct) =>
        let m := if direct then w.mem else writeMem w.mem (word l raw 16 8) (ans.answer.data.take req.fromDevice)
        let m := writeMem m (sgSensePtr l raw) (ans.answer.sense.take req.senseRoom)
        (.ok ((completed l raw ans).take n), { mem := m, kernel := { w.kernel with done := w.kernel.done.eraseIdx pick } }) }

/-- The device executes one of the queued requests. -/
def sgLinkFinish (l : Bool) (dev : Linked δ) (i : Nat) (direct : Bool) (w : World (Kernel δ)) : World (Kernel δ) :=
  match w.kernel.waiting[i]? with
  | none => w
  | some (raw, req) =>
    let req := if direct then { req with toDevice := ((sgView l raw w.mem).map OsRequest.toDevice).getD [] } else req
    let r := dev w.kernel.dev req
    let m := if direct then writeMem w.mem (word l raw 16 8) (r.1.answer.data.take req.fromDevice) else w.mem
    { mem := m, kernel := { dev := r.2, waiting := w.kernel.waiting.eraseIdx i, done := w.kernel.done ++ [(raw, req, r.1, direct)] } }

/-- The executer in its world. The callback of the `t`-th command given to the driver is called `t`. -/
structure Live (δ S : Type) where
  ex : St Handle Nat
  world : World (Kernel δ)
  next : Nat
  log : List (LinkQueue.Ev (Told S))

def Live.init (limit : Nat) (m : Mem) (k : δ) : Live δ S := ⟨St.init _ _ limit, ⟨m, ⟨k, [], []⟩⟩, 0, []⟩

/-- One thing that happens, with the methods of the executer doing the work: `send` (__init__.py:99-110) and `_process_pending_response`
(123-138). -/
def Live.step (l : Bool) (parse : Bytes → Py (Option S)) (dev : Linked δ) (alloc : Nat → Alloc) (tmo : Int) (room : Nat) (s : Live δ S) :
    LinkQueue.Op → Live δ S
  | .send c taken =>
    let r := Executer.send (prepare (lp64 l) alloc tmo c) (sgSend (sgLinkQueue l room 0 taken)) (some s.next) s.ex s.world
    match r.out with
    | .ok () => ⟨r.st, r.os, s.next + 1, s.log ++ [.accepted s.next]⟩
    | .error e => if e = .nameError then ⟨r.st, r.os, s.next, s.log ++ [.refused]⟩ else ⟨r.st, r.os, s.next + 1, s.log ++ [.failed]⟩
  | .finish i direct => { s with world := sgLinkFinish l dev i direct s.world }
  | .receive i =>
    let r := process (sgReceive (lp64 l) parse (sgLinkQueue l room i true)) s.ex s.world
    match r.fired with
    | some (t, a) => ⟨r.st, r.os, s.next, s.log ++ [.told t a]⟩
    | none => ⟨r.st, r.os, s.next, s.log ++ [.nothing]⟩

def Live.runFrom (l : Bool) (parse : Bytes → Py (Option S)) (dev : Linked δ) (alloc : Nat → Alloc) (tmo : Int) (room : Nat) (s : Live δ S)
    (ops : List LinkQueue.Op) : Live δ S := ops.foldl (Live.step l parse dev alloc tmo room) s

/-- What the executer makes of the response to a command whose report is in its buffers. -/
theorem link_response (l : Bool) (parse : Bytes → Py (Option S)) (al : Alloc) (i : Nat) (c : Req) (t : Int) (m : Mem) (rep : Report)
    (getOs : Int → Option Handle) (hget : getOs i = some (create (lp64 l) al i c t))
    (hf : BlockFields l al i c t (create (lp64 l) al i c t).block) (hsep : Separate 64 (regions al c 88))
    (hh : Held (create (lp64 l) al i c t) al c m (filled c rep.answer))
    (hparse : rep.HasSense → ∃ sn, parse (padded 255 rep.answer.sense) = .ok sn) :
    ∃ o, toRecv (handleRawResponse (lp64 l) parse getOs (writeMem m al.sense (rep.answer.sense.take 255))
        (completed l (create (lp64 l) al i c t).block rep)) = .ok (o, i) ∧ cbArgs o = heard parse c rep := by
  obtain ⟨h1, h2, h3, h4, h5, h6⟩ := regions_apart hsep
  have hcd := create_data (lp64 l) al i c t
  have hba := create_blockAddr (lp64 l) al i c t
  generalize create (lp64 l) al i c t = h at *
  have hlen : 88 ≤ (completed l h.block rep).length := by rw [completed_length, hf.len]; exact Nat.le_refl _
  have e1 := completed_status l h.block rep hf.len
  have e2 := completed_host l h.block rep hf.len
  have e3 := completed_driver l h.block rep hf.len
  have e4 : sgPackId l (completed l h.block rep) = i := by
    rw [sgPackId, sword_lp64, load_completed _ _ _ _ _ _ (by omega), hf.packId]
  have e5 : sgSensePtr l (completed l h.block rep) = al.sense := by
    rw [sgSensePtr, word_lp64, load_completed _ _ _ _ _ _ (by omega), hf.sensePtr]; rfl
  rw [handle_eq l parse _ _ _ hlen, e1, e2, e3, e4, e5, hget]
  have F1 : readMem (writeMem m al.sense (rep.answer.sense.take 255)) al.sense 255 = padded 255 rep.answer.sense :=
    readMem_padded _ _ _ _ hh.sense
  have F2 : readMem (writeMem m al.sense (rep.answer.sense.take 255)) h.blockAddr 88 = h.block := by
    rw [hba, readMem_writeMem_other (by rw [List.length_take]; omega)]; exact hh.block
  have hsd := successData_eq l al i c t h _ hf hcd F2
  have hdb : dataBack c (writeMem m al.sense (rep.answer.sense.take 255)) al.data = delivered c rep.answer := by
    cases c with
    | read cdb n =>
      simp only [delivered, dataBack]
      by_cases hn : n > 0
      · rw [if_pos hn, if_pos hn]
        simp only [dataSize] at h5
        rw [readMem_writeMem_other (by rw [List.length_take]; omega), hh.data.1 cdb n rfl hn]; rfl
      · rw [if_neg hn, if_neg hn]
    | write cdb d => rfl
  rw [F1, hsd, hdb]
  have hmatch : rep.answer.status.toNat = 0 ↔ rep.answer.status = 0 := by
    constructor
    · intro hx; exact UInt8.toNat_inj.mp hx
    · intro hx; rw [hx]; rfl
  have hhost : ∀ n : Nat, n < 65536 → (rep.host.toNat = n ↔ rep.host = n.toUInt16) := by
    intro n hn
    rw [← UInt16.toNat_inj]
    simp [Nat.mod_eq_of_lt hn]
  have h7 := hhost 7 (by decide)
  have h18 := hhost 0x18 (by decide)
  have h00 := hhost 0 (by decide)
  simp only [Nat.toUInt16_eq, UInt16.reduceOfNat] at h7 h18 h00
  simp only [heard, told]
  simp only [and_2, and_8, and_15, ne_eq]
  by_cases c1 : rep.answer.status.toNat / 2 % 2 = 1 ∨ rep.driver.toNat / 8 % 2 = 1
  · obtain ⟨sn, hsn⟩ := hparse c1
    have c1' : rep.HasSense := c1
    simp only [c1, c1', if_true, checkCondition, hsn]
    exact ⟨.exc (.checkCondition (padded 255 rep.answer.sense) sn), by simp [toRecv], rfl⟩
  · have c1' : ¬ rep.HasSense := c1
    rw [if_neg c1, if_neg c1']
    by_cases c2 : rep.answer.status = 0
    · by_cases c3 : rep.driver.toNat % 16 = 0
      · by_cases c4 : rep.host = 0
        · simp only [hmatch.2 c2, c3, h00.2 c4, not_true_eq_false, if_false, Report.Fine, c2, c4, and_self, if_true]
          exact ⟨.data (delivered c rep.answer), by simp [toRecv], rfl⟩
        · simp only [hmatch.2 c2, c3, mt h00.1 c4, not_true_eq_false, not_false_eq_true, if_false, if_true, Report.Fine, c2, c4, and_true, and_false, false_and]
          exact ⟨.exc .scsi, by simp [toRecv], rfl⟩
      · simp only [hmatch.2 c2, c3, not_true_eq_false, not_false_eq_true, if_false, if_true, Report.Fine, c2, and_true, and_false, false_and]
        exact ⟨.exc .scsi, by simp [toRecv], rfl⟩
    · have c3 : ¬ rep.answer.status.toNat = 0 := fun hx => c2 (hmatch.1 hx)
      simp only [c2, c3, Report.Fine, false_and, if_false, not_false_eq_true, true_and, if_true, h7, h18]
      by_cases c5 : rep.host = 7
      · simp only [c5, if_true]
        exact ⟨.exc .queueFull, by simp [toRecv], rfl⟩
      · by_cases c6 : rep.host = 0x18
        · simp only [c6, show ¬ ((0x18 : UInt16) = 7) by decide, if_false, if_true]
          exact ⟨.exc .reservationConflict, by simp [toRecv], rfl⟩
        · simp only [c5, c6, if_false]
          exact ⟨.exc .scsi, by simp [toRecv], rfl⟩

/-! ## The invariant -/

/-- The outstanding commands: number, command, contents of the data buffer. -/
def opens (w : List (Nat × Req)) (d : List (Nat × Req × Report × Bool)) : List (Nat × Req × Bytes) :=
  d.map (fun e => (e.1, e.2.1, if e.2.2.2 then filled e.2.1 e.2.2.1.answer else initial e.2.1)) ++ w.map (fun e => (e.1, e.2, initial e.2))

section
variable (l : Bool) (parse : Bytes → Py (Option S)) (dev : Linked δ) (alloc : Nat → Alloc) (tmo : Int) (limit : Nat) (cmds : Req → Prop)

/-- The executer in its world agrees with the ideal queue. -/
structure Inv (a : LinkQueue.State δ (Told S)) (d : List (Nat × Req × Report × Bool)) (s : Live δ S) : Prop where
  next : s.next = a.next
  maxq : s.ex.maxq = limit
  index : s.ex.index = a.next % limit
  log : s.log = a.log
  dev : s.world.kernel.dev = a.dev
  done : a.done = d.map (fun e => (e.1, e.2.1, e.2.2.1))
  kwaiting : s.world.kernel.waiting = a.waiting.map (fun e => ((built l alloc tmo limit e.1 e.2).block, asked e.2))
  kdone : s.world.kernel.done = d.map (fun e => ((built l alloc tmo limit e.1 e.2.1).block, asked e.2.1, e.2.2.1, e.2.2.2))
  slots : ((opens a.waiting d).map (fun e => e.1 % limit)).Nodup
  keys : ((opens a.waiting d).map (fun e => e.1 % limit)).Perm (Dict.keys s.ex.pending)
  each : ∀ e ∈ opens a.waiting d, OpenOk l alloc tmo limit cmds s.ex.pending s.world.mem e
  le : (opens a.waiting d).length ≤ limit
  parses : ∀ e ∈ d, e.2.2.1.HasSense → ∃ sn, parse (padded 255 e.2.2.1.answer.sense) = .ok sn

theorem tickets_eq {a : LinkQueue.State δ (Told S)} {d : List (Nat × Req × Report × Bool)} {s : Live δ S}
    (h : Inv l parse alloc tmo limit cmds a d s) : a.tickets = (opens a.waiting d).map Prod.fst := by
  simp only [LinkQueue.State.tickets, h.done, opens, List.map_append, List.map_map]
  rfl

theorem inv_init (m : Mem) (k : δ) : Inv l parse alloc tmo limit cmds (LinkQueue.State.init k) [] (Live.init limit m k) := by
  refine ⟨rfl, rfl, ?_, rfl, rfl, rfl, rfl, rfl, ?_, ?_, ?_, ?_, ?_⟩
  · simp [Live.init, St.init, LinkQueue.State.init]
  · simp [LinkQueue.State.init, opens]
  · simp [LinkQueue.State.init, opens, Live.init, St.init, Dict.keys]
  · intro e he; simp [LinkQueue.State.init, opens] at he
  · simp [LinkQueue.State.init, opens]
  · intro e he; simp at he

variable {l parse dev alloc tmo limit cmds}
variable (hroom : Room alloc limit cmds) (hl : limit ≤ 2 ^ 31) (ht : 0 ≤ tmo ∧ tmo < 2 ^ 32)
include hroom hl ht

/-- A send. -/
theorem inv_send {a : LinkQueue.State δ (Told S)} {d : List (Nat × Req × Report × Bool)} {s : Live δ S} (room : Nat) (hr : limit ≤ room)
    (h : Inv l parse alloc tmo limit cmds a d s) (c : Req) (taken : Bool) (hc : cmds c)
    (hfresh : a.tickets.length < limit → ∀ t ∈ a.tickets, t % limit ≠ a.next % limit) :
    Inv l parse alloc tmo limit cmds (LinkQueue.step dev limit (heard parse) a (.send c taken)) d (Live.step l parse dev alloc tmo room s (.send c taken)) := by
  have htk := tickets_eq l parse alloc tmo limit cmds h
  have hlen : s.ex.pending.length = a.tickets.length := by
    have := h.keys.length_eq
    simp only [Dict.keys, List.length_map] at this
    rw [htk, List.length_map]; exact this.symm
  by_cases hfull : limit ≤ a.tickets.length
  · have hs : Live.step l parse dev alloc tmo room s (.send c taken) = { s with log := s.log ++ [.refused] } := by
      simp only [Live.step, Executer.send, nextPacketIndex, hlen, h.maxq, ge_iff_le, hfull, if_true]
    have ha : LinkQueue.step dev limit (heard parse) a (.send c taken) = { a with log := a.log ++ [.refused] } := by
      simp only [LinkQueue.step, hfull, if_true]
    rw [hs, ha]
    exact ⟨h.next, h.maxq, h.index, by simp only [h.log], h.dev, h.done, h.kwaiting, h.kdone, h.slots, h.keys, h.each, h.le, h.parses⟩
  · have hpos : 0 < limit := by omega
    have hfresh := hfresh (by omega)
    have hnk : a.next % limit ∉ Dict.keys s.ex.pending := by
      intro hk
      have := h.keys.mem_iff.2 hk
      obtain ⟨e, he, heq⟩ := List.mem_map.1 this
      exact hfresh e.1 (by rw [htk]; exact List.mem_map_of_mem he) heq
    have hheld := held_install l (alloc (a.next % limit)) (a.next % limit) c tmo s.world.mem (hroom.one c hc _ (Nat.mod_lt _ hpos))
    have hv := view_held l _ _ c tmo _ (built_fields hroom hl ht (l := l) hpos a.next c hc) hheld
    have hkl : s.world.kernel.waiting.length + s.world.kernel.done.length = a.tickets.length := by
      rw [h.kwaiting, h.kdone]
      simp only [LinkQueue.State.tickets, h.done, List.length_append, List.length_map]
      omega
    cases taken with
    | false =>
    have hs : Live.step l parse dev alloc tmo room s (.send c false) =
        ⟨{ s.ex with index := (s.ex.index + 1) % limit }, ⟨(built l alloc tmo limit a.next c).install s.world.mem, s.world.kernel⟩,
          s.next + 1, s.log ++ [.failed]⟩ := by
      have hsg : sgSend (sgLinkQueue l room 0 false) (built l alloc tmo limit a.next c) s.world =
          (.error .ioError, ⟨(built l alloc tmo limit a.next c).install s.world.mem, s.world.kernel⟩) := by
        simp only [sgSend, sgLinkQueue]
        unfold built at hv ⊢
        simp only [hv, true_or, if_true]
      simp only [Live.step, Executer.send, nextPacketIndex, hlen, h.maxq, ge_iff_le, hfull, if_false, prepare, h.index]
      unfold built at hsg ⊢
      simp only [hsg, Dict.set_fresh _ _ _ hnk, Dict.erase_append_fresh _ _ _ hnk, reduceCtorEq, if_false]
    have ha : LinkQueue.step dev limit (heard parse) a (.send c false) = { a with next := a.next + 1, log := a.log ++ [.failed] } := by
      simp only [LinkQueue.step, hfull, if_false, if_true]
    rw [hs, ha]
    refine ⟨by simp only [h.next], h.maxq, ?_, by simp only [h.log], h.dev, h.done, h.kwaiting, h.kdone, h.slots, h.keys, ?_, h.le, h.parses⟩
    · simp only [h.index, Nat.mod_add_mod]
    · intro e he
      have ho := h.each e he
      have hne : e.1 % limit ≠ a.next % limit := fun heq => hfresh e.1 (by rw [htk]; exact List.mem_map_of_mem he) heq
      exact ⟨ho.cmd, ho.get, ho.held.install l _ _ c tmo (clear_of_ne hroom hl ht hpos ho.cmd hc hne)⟩
    | true =>
    have hs : Live.step l parse dev alloc tmo room s (.send c true) =
        ⟨{ s.ex with index := (s.ex.index + 1) % limit, pending := s.ex.pending ++ [(a.next % limit, (built l alloc tmo limit a.next c, some a.next))] },
          ⟨(built l alloc tmo limit a.next c).install s.world.mem,
            { s.world.kernel with waiting := s.world.kernel.waiting ++ [((built l alloc tmo limit a.next c).block, asked c)] }⟩,
          s.next + 1, s.log ++ [.accepted s.next]⟩ := by
      have hsg : sgSend (sgLinkQueue l room 0 true) (built l alloc tmo limit a.next c) s.world = (.ok (), ⟨(built l alloc tmo limit a.next c).install s.world.mem,
            { s.world.kernel with waiting := s.world.kernel.waiting ++ [((built l alloc tmo limit a.next c).block, asked c)] }⟩) := by
        simp only [sgSend, sgLinkQueue]
        unfold built at hv ⊢
        simp only [hv, hkl, reduceCtorEq, false_or]
        rw [if_neg (by omega)]
      simp only [Live.step, Executer.send, nextPacketIndex, hlen, h.maxq, ge_iff_le, hfull, if_false, prepare, h.index]
      unfold built at hsg ⊢
      simp only [hsg, Dict.set_fresh _ _ _ hnk, h.next]
    have ha : LinkQueue.step dev limit (heard parse) a (.send c true) =
        { a with next := a.next + 1, waiting := a.waiting ++ [(a.next, c)], log := a.log ++ [.accepted a.next] } := by
      simp only [LinkQueue.step, hfull, if_false, reduceCtorEq]
    rw [hs, ha]
    have hop : opens (a.waiting ++ [(a.next, c)]) d = opens a.waiting d ++ [(a.next, c, initial c)] := by
      simp [opens]
    have hnot : a.next % limit ∉ (opens a.waiting d).map (fun e => e.1 % limit) := fun hm => hnk (h.keys.mem_iff.1 hm)
    refine ⟨by simp only [h.next], h.maxq, ?_, by simp only [h.log, h.next], h.dev, h.done, ?_, h.kdone, ?_, ?_, ?_, ?_, h.parses⟩
    · simp only [h.index, Nat.mod_add_mod]
    · simp only [h.kwaiting, List.map_append, List.map_cons, List.map_nil]
    · simp only [hop, List.map_append, List.map_cons, List.map_nil]
      rw [List.nodup_append]
      refine ⟨h.slots, by simp, ?_⟩
      intro x hx y hy e
      simp only [List.mem_singleton] at hy
      exact hnot (hy ▸ e ▸ hx)
    · simp only [hop, List.map_append, List.map_cons, List.map_nil, Dict.keys]
      exact h.keys.append_right _
    · intro e he
      simp only [hop, List.mem_append, List.mem_singleton] at he
      rcases he with he | rfl
      · have ho := h.each e he
        have hne : e.1 % limit ≠ a.next % limit := fun heq => hnot (List.mem_map.2 ⟨e, he, heq⟩)
        refine ⟨ho.cmd, ?_, ho.held.install l _ _ c tmo (clear_of_ne hroom hl ht hpos ho.cmd hc hne)⟩
        have hg := ho.get
        rw [← Dict.set_fresh _ _ _ hnk, dict_get_set, if_neg (fun hh => hne hh.symm)]
        exact hg
      · refine ⟨hc, ?_, hheld⟩
        simp only
        rw [← Dict.set_fresh _ _ _ hnk, dict_get_set, if_pos rfl]
    · simp only [hop, List.length_append, List.length_singleton]
      rw [htk, List.length_map] at hfull
      omega

/-- The device executes a command. -/
theorem inv_finish {a : LinkQueue.State δ (Told S)} {d : List (Nat × Req × Report × Bool)} {s : Live δ S} (room : Nat)
    (hparse : ∀ k q, (dev k q).1.HasSense → ∃ sn, parse (padded 255 (dev k q).1.answer.sense) = .ok sn)
    (h : Inv l parse alloc tmo limit cmds a d s) (i : Nat) (direct : Bool) :
    ∃ d', Inv l parse alloc tmo limit cmds (LinkQueue.step dev limit (heard parse) a (.finish i direct)) d'
      (Live.step l parse dev alloc tmo room s (.finish i direct)) := by
  cases hw : a.waiting[i]? with
  | none =>
    refine ⟨d, ?_⟩
    have hk : s.world.kernel.waiting[i]? = none := by rw [h.kwaiting, List.getElem?_map, hw]; rfl
    simp only [LinkQueue.step, hw, Live.step, sgLinkFinish, hk]
    exact h
  | some tc =>
    obtain ⟨t, c⟩ := tc
    have hk : s.world.kernel.waiting[i]? = some ((built l alloc tmo limit t c).block, asked c) := by
      rw [h.kwaiting, List.getElem?_map, hw]; rfl
    have hmem : (t, c) ∈ a.waiting := List.mem_of_getElem? hw
    have hopen : (t, c, initial c) ∈ opens a.waiting d := by
      simp only [opens, List.mem_append, List.mem_map]
      exact .inr ⟨(t, c), hmem, rfl⟩
    have ho := h.each _ hopen
    have hpos : 0 < limit := Nat.lt_of_lt_of_le (List.length_pos_of_mem hopen) h.le
    have hf := built_fields hroom hl ht (l := l) hpos t c ho.cmd
    have hsep := hroom.one c ho.cmd _ (Nat.mod_lt t hpos)
    have hv : sgView l (built l alloc tmo limit t c).block s.world.mem = some (asked c) := view_held l _ _ c tmo _ hf ho.held
    generalize hans : (dev a.dev (asked c)).1 = ans
    have hreq : (if direct = true then { asked c with toDevice := ((sgView l (built l alloc tmo limit t c).block s.world.mem).map OsRequest.toDevice).getD [] }
        else asked c) = asked c := by
      rw [hv]; cases direct <;> rfl
    have hlive : Live.step l parse dev alloc tmo room s (.finish i direct) =
        { s with world := ⟨if direct = true then writeMem s.world.mem (word l (built l alloc tmo limit t c).block 16 8) (ans.answer.data.take (asked c).fromDevice)
            else s.world.mem, ⟨(dev a.dev (asked c)).2, s.world.kernel.waiting.eraseIdx i,
              s.world.kernel.done ++ [((built l alloc tmo limit t c).block, asked c, ans, direct)]⟩⟩ } := by
      simp only [Live.step, sgLinkFinish, hk, hreq, h.dev, hans]
    have hid : LinkQueue.step dev limit (heard parse) a (.finish i direct) =
        { a with dev := (dev a.dev (asked c)).2, waiting := a.waiting.eraseIdx i, done := a.done ++ [(t, c, ans)] } := by
      simp only [LinkQueue.step, hw, hans]
    have hperm : (opens a.waiting d).Perm ((t, c, initial c) :: opens (a.waiting.eraseIdx i) d) := by
      unfold opens
      refine List.Perm.trans (List.Perm.append_left _ ((perm_eraseIdx hw).map _)) ?_
      simp only [List.map_cons]
      exact List.perm_middle
    have hperm' : (opens (a.waiting.eraseIdx i) (d ++ [(t, c, ans, direct)])).Perm
        ((t, c, if direct then filled c ans.answer else initial c) :: opens (a.waiting.eraseIdx i) d) := by
      unfold opens
      simp only [List.map_append, List.map_cons, List.map_nil, List.append_assoc, List.singleton_append]
      exact List.perm_middle
    have hsl : ((opens (a.waiting.eraseIdx i) (d ++ [(t, c, ans, direct)])).map (fun e => e.1 % limit)).Perm
        ((opens a.waiting d).map (fun e => e.1 % limit)) := by
      refine (hperm'.map _).trans (List.Perm.trans ?_ (hperm.map _).symm)
      exact List.Perm.refl _
    have hother : ∀ e ∈ opens (a.waiting.eraseIdx i) d, e.1 % limit ≠ t % limit := by
      intro e he heq
      have hnd := (hperm.map (fun e => e.1 % limit)).nodup h.slots
      simp only [List.map_cons, List.nodup_cons] at hnd
      exact hnd.1 (List.mem_map.2 ⟨e, he, heq⟩)
    refine ⟨d ++ [(t, c, ans, direct)], ?_⟩
    rw [hlive, hid]
    refine ⟨h.next, h.maxq, h.index, h.log, rfl, ?_, ?_, ?_, ?_, ?_, ?_, ?_, ?_⟩
    · simp only [h.done, List.map_append, List.map_cons, List.map_nil]
    · simp only [h.kwaiting, map_eraseIdx]
    · simp only [h.kdone, List.map_append, List.map_cons, List.map_nil]
    · exact hsl.symm.nodup h.slots
    · exact hsl.trans h.keys
    · intro e he
      replace he := hperm'.mem_iff.1 he
      simp only [List.mem_cons] at he
      rcases he with rfl | he
      · refine ⟨ho.cmd, ho.get, ?_⟩
        cases direct with
        | false => exact ho.held
        | true => exact ho.held.store hsep ans.answer _ (dataPtr_or l _ _ c tmo hf)
      · have hoe := h.each e (hperm.mem_iff.2 (List.mem_cons_of_mem _ he))
        refine ⟨hoe.cmd, hoe.get, ?_⟩
        cases direct with
        | false => exact hoe.held
        | true =>
          simp only [if_true]
          rcases dataPtr_or l _ _ c tmo hf with hp | hp
          · apply hoe.held.other
            intro r hr
            have hcl := clear_of_ne hroom hl ht hpos hoe.cmd ho.cmd (hother e he) r hr (_, dataSize c) (by simp only [regions, List.mem_cons]; exact .inr (.inr (.inr (.inl rfl))))
            have hfd := fromDevice_le c
            simp only [Clear, hp, List.length_take] at hcl ⊢
            omega
          · rw [hp, List.take_zero, writeMem_nil]; exact hoe.held
    · have h1 := hperm.length_eq
      have h2 := hperm'.length_eq
      have h3 := h.le
      simp only [List.length_cons] at h1 h2
      simp only; omega
    · intro e he
      simp only [List.mem_append, List.mem_singleton] at he
      rcases he with he | rfl
      · exact h.parses e he
      · rw [← hans]; exact hparse _ _

/-- A response is processed. -/
theorem inv_receive {a : LinkQueue.State δ (Told S)} {d : List (Nat × Req × Report × Bool)} {s : Live δ S} (room : Nat)
    (h : Inv l parse alloc tmo limit cmds a d s) (i : Nat) :
    ∃ d', Inv l parse alloc tmo limit cmds (LinkQueue.step dev limit (heard parse) a (.receive i)) d'
      (Live.step l parse dev alloc tmo room s (.receive i)) := by
  cases hw : d[i]? with
  | none =>
    refine ⟨d, ?_⟩
    have hk : s.world.kernel.done[i]? = none := by rw [h.kdone, List.getElem?_map, hw]; rfl
    have ha : a.done[i]? = none := by rw [h.done, List.getElem?_map, hw]; rfl
    simp only [LinkQueue.step, ha, Live.step, process, sgReceive, sgLinkQueue, hk]
    exact ⟨h.next, h.maxq, h.index, by simp only [h.log], h.dev, h.done, h.kwaiting, h.kdone, h.slots, h.keys, h.each, h.le, h.parses⟩
  | some x =>
    obtain ⟨t, c, ans, direct⟩ := x
    have hk : s.world.kernel.done[i]? = some ((built l alloc tmo limit t c).block, asked c, ans, direct) := by
      rw [h.kdone, List.getElem?_map, hw]; rfl
    have ha : a.done[i]? = some (t, c, ans) := by rw [h.done, List.getElem?_map, hw]; rfl
    have hmem : (t, c, ans, direct) ∈ d := List.mem_of_getElem? hw
    have hopen : (t, c, if direct then filled c ans.answer else initial c) ∈ opens a.waiting d := by
      simp only [opens, List.mem_append, List.mem_map]
      exact .inl ⟨_, hmem, rfl⟩
    have ho := h.each _ hopen
    have hpos : 0 < limit := Nat.lt_of_lt_of_le (List.length_pos_of_mem hopen) h.le
    have hf := built_fields hroom hl ht (l := l) hpos t c ho.cmd
    have hsep := hroom.one c ho.cmd _ (Nat.mod_lt t hpos)
    have hptr := dataPtr_or l _ _ c tmo hf
    have hsp : sgSensePtr l (built l alloc tmo limit t c).block = (alloc (t % limit)).sense := by
      rw [sgSensePtr, word_lp64, hf.sensePtr, Int.toNat_natCast]
    have hroomq : (asked c).senseRoom = 255 := by cases c <;> rfl
    generalize hm : (if direct = true then s.world.mem else writeMem s.world.mem (word l (built l alloc tmo limit t c).block 16 8)
      (ans.answer.data.take (asked c).fromDevice)) = m
    have hheld : Held (built l alloc tmo limit t c) (alloc (t % limit)) c m (filled c ans.answer) := by
      rw [← hm]
      cases direct with
      | true => exact ho.held
      | false => exact ho.held.store hsep ans.answer _ hptr
    have hget : getOs s.ex ((t % limit : Nat) : Int) = some (built l alloc tmo limit t c) := by
      have hg := ho.get
      simp only at hg
      rw [getOs, if_pos (Int.natCast_nonneg _), Int.toNat_natCast, getOsData, hg]; rfl
    obtain ⟨o, hr1, hr2⟩ := link_response l parse (alloc (t % limit)) (t % limit) c tmo m ans (getOs s.ex) hget hf hsep hheld
      (h.parses _ hmem)
    have htake : (completed l (built l alloc tmo limit t c).block ans).take 88 = completed l (built l alloc tmo limit t c).block ans :=
      List.take_of_length_le (by rw [completed_length, hf.len]; exact Nat.le_refl _)
    have hrecv : sgReceive (lp64 l) parse (sgLinkQueue l room i true) s.ex s.world =
        (.ok (o, t % limit), ⟨writeMem m (alloc (t % limit)).sense (ans.answer.sense.take 255), { s.world.kernel with done := s.world.kernel.done.eraseIdx i }⟩) := by
      simp only [sgReceive, sizeValue, sgLinkQueue, hk, hm, hsp, hroomq, htake]
      rw [← hr1]; rfl
    have hg := ho.get
    simp only at hg
    have hlive : Live.step l parse dev alloc tmo room s (.receive i) =
        ⟨{ s.ex with pending := Dict.erase s.ex.pending (t % limit) },
          ⟨writeMem m (alloc (t % limit)).sense (ans.answer.sense.take 255), { s.world.kernel with done := s.world.kernel.done.eraseIdx i }⟩,
          s.next, s.log ++ [.told t (heard parse c ans)]⟩ := by
      simp only [Live.step, process, hrecv, hg, hr2]
    have hid : LinkQueue.step dev limit (heard parse) a (.receive i) =
        { a with done := a.done.eraseIdx i, log := a.log ++ [.told t (heard parse c ans)] } := by
      simp only [LinkQueue.step, ha]
    have hperm : (opens a.waiting d).Perm ((t, c, if direct then filled c ans.answer else initial c) :: opens a.waiting (d.eraseIdx i)) := by
      unfold opens
      exact List.Perm.append_right _ ((perm_eraseIdx hw).map _)
    have hnd := (hperm.map (fun e => e.1 % limit)).nodup h.slots
    simp only [List.map_cons, List.nodup_cons] at hnd
    have hother : ∀ e ∈ opens a.waiting (d.eraseIdx i), e.1 % limit ≠ t % limit :=
      fun e he heq => hnd.1 (List.mem_map.2 ⟨e, he, heq⟩)
    have hkn : (Dict.keys s.ex.pending).Nodup := h.keys.nodup h.slots
    refine ⟨d.eraseIdx i, ?_⟩
    rw [hlive, hid]
    refine ⟨h.next, h.maxq, h.index, by simp only [h.log], h.dev, ?_, h.kwaiting, ?_, hnd.2, ?_, ?_, ?_, ?_⟩
    · simp only [h.done, map_eraseIdx]
    · simp only [h.kdone, map_eraseIdx]
    · rw [dict_keys_erase _ _ hkn]
      have := (((hperm.map (fun e => e.1 % limit)).symm.trans h.keys).erase (t % limit))
      simpa only [List.map_cons, List.erase_cons_head] using this
    · intro e he
      have hoe := h.each e (hperm.mem_iff.2 (List.mem_cons_of_mem _ he))
      have hne := hother e he
      have hcl := clear_of_ne hroom hl ht hpos hoe.cmd ho.cmd hne
      refine ⟨hoe.cmd, ?_, ?_⟩
      · simp only
        rw [dict_get_erase _ _ _ hkn, if_neg (fun hh => hne hh.symm)]
        exact hoe.get
      · apply Held.other
        · rw [← hm]
          cases direct with
          | true => exact hoe.held
          | false =>
            rcases hptr with hp | hp
            · apply hoe.held.other
              intro r hr
              have hcl := hcl r hr (_, dataSize c) (by simp only [regions, List.mem_cons]; exact .inr (.inr (.inr (.inl rfl))))
              have hfd := fromDevice_le c
              simp only [Clear, hp, List.length_take] at hcl ⊢
              omega
            · rw [hp, List.take_zero, writeMem_nil]; exact hoe.held
        · intro r hr
          have hcl := hcl r hr (_, 255) (by simp only [regions, List.mem_cons]; exact .inr (.inl rfl))
          simp only [Clear, List.length_take] at hcl ⊢
          omega
    · have h1 := hperm.length_eq
      have h3 := h.le
      simp only [List.length_cons] at h1
      simp only; omega
    · intro e he
      exact h.parses e (List.mem_of_mem_eraseIdx he)

theorem inv_run {room : Nat} (hr : limit ≤ room)
    (hparse : ∀ k q, (dev k q).1.HasSense → ∃ sn, parse (padded 255 (dev k q).1.answer.sense) = .ok sn)
    (ops : List LinkQueue.Op) (hops : ∀ op ∈ ops, LinkQueue.Sends cmds op) (a : LinkQueue.State δ (Told S)) (d : List (Nat × Req × Report × Bool)) (s : Live δ S)
    (h : Inv l parse alloc tmo limit cmds a d s) (hnw : LinkQueue.NoWrap dev limit (heard parse) a ops) :
    ∃ d', Inv l parse alloc tmo limit cmds (LinkQueue.runFrom dev limit (heard parse) a ops) d' (Live.runFrom l parse dev alloc tmo room s ops) := by
  induction ops generalizing a d s with
  | nil => exact ⟨d, h⟩
  | cons op ops ih =>
    obtain ⟨h1, h2⟩ := hnw
    have hop := hops op List.mem_cons_self
    have hrest := fun o ho => hops o (List.mem_cons_of_mem _ ho)
    cases op with
    | send c taken => exact ih hrest _ _ _ (inv_send hroom hl ht room hr h c taken hop h1) h2
    | finish i direct =>
      obtain ⟨d', h'⟩ := inv_finish hroom hl ht room hparse h i direct
      exact ih hrest _ _ _ h' h2
    | receive i =>
      obtain ⟨d', h'⟩ := inv_receive hroom hl ht (dev := dev) room h i
      exact ih hrest _ _ _ h' h2

/-- **C112** (partial: no packet number is reused while in use, cf. `C112_false`, `C112_lost_false`). Any number of commands, up to the queue size, outstanding
together on the sg executer, any of them not taken by the driver, the others executed by any device in any order, with any errors of the device, of the host adapter and of the driver,
responses read in any order: every user observes exactly what the ideal queue shows. So every callback gets the report of its own command; a command that was not taken shows as an
error of its own `send` and leaves the others alone; the device executes exactly the commands taken, each once and exactly as asked; and the executer lists as pending exactly the
commands outstanding, never more than the queue size. -/
theorem C112_partial {room : Nat} (hr : limit ≤ room)
    (hparse : ∀ k q, (dev k q).1.HasSense → ∃ sn, parse (padded 255 (dev k q).1.answer.sense) = .ok sn)
    (ops : List LinkQueue.Op) (hops : ∀ op ∈ ops, LinkQueue.Sends cmds op) (m : Mem) (k : δ)
    (hnw : LinkQueue.NoWrap dev limit (heard parse) (LinkQueue.State.init k) ops) :
    let live := Live.runFrom l parse dev alloc tmo room (Live.init limit m k) ops
    let ideal := LinkQueue.run dev limit (heard parse) k ops
    live.log = ideal.log ∧ live.world.kernel.dev = ideal.dev ∧
    live.ex.pending.length = ideal.tickets.length ∧ ideal.tickets.length ≤ limit := by
  intro live ideal
  obtain ⟨d, h⟩ := inv_run (l := l) hroom hl ht hr hparse ops hops _ [] _ (inv_init l parse alloc tmo limit cmds m k) hnw
  have htk := tickets_eq l parse alloc tmo limit cmds h
  refine ⟨h.log, h.dev, ?_, ?_⟩
  · have := h.keys.length_eq
    simp only [Dict.keys, List.length_map] at this
    show _ = ideal.tickets.length
    rw [show ideal.tickets = _ from htk, List.length_map]; exact this.symm
  · rw [show ideal.tickets = _ from htk, List.length_map]; exact h.le

end

/-! ## Devices that answer in order -/

/-- When the device executes in order and responses are read in order, the outstanding commands are the most recent ones. -/
theorem noWrap_inOrder {A : Type} (dev : Linked δ) (limit : Nat) (hear : Req → Report → A) (ops : List LinkQueue.Op) (ho : ∀ op ∈ ops, LinkQueue.InOrder op)
    (htakes : ∀ op ∈ ops, LinkQueue.Takes op) (a : LinkQueue.State δ A) (b n : Nat) (htk : a.tickets = List.range' b n) (hn : b + n = a.next) : LinkQueue.NoWrap dev limit hear a ops := by
  induction ops generalizing a b n with
  | nil => trivial
  | cons op ops ih =>
    have hrest := fun o ho' => ho o (List.mem_cons_of_mem _ ho')
    have hop := ho op List.mem_cons_self
    refine ⟨?_, ?_⟩
    · cases op with
      | send c taken =>
        intro hlt t ht
        rw [htk] at ht hlt
        rw [List.length_range'] at hlt
        exact range'_mod hn hlt ht
      | finish i direct => trivial
      | receive i => trivial
    · cases op with
      | send c taken =>
        have hta : taken = true := htakes _ List.mem_cons_self
        subst hta
        simp only [LinkQueue.step, reduceCtorEq, if_false]
        split
        · exact ih hrest (fun o ho' => htakes o (List.mem_cons_of_mem _ ho')) _ b n htk hn
        · refine ih hrest (fun o ho' => htakes o (List.mem_cons_of_mem _ ho')) _ b (n + 1) ?_ (by simp only; omega)
          simp only [LinkQueue.State.tickets, List.map_append, List.map_cons, List.map_nil, ← List.append_assoc]
          simp only [LinkQueue.State.tickets] at htk
          rw [htk, List.range'_concat, ← hn, Nat.one_mul]
      | finish i direct =>
        have hi : i = 0 := hop
        subst hi
        cases hw : a.waiting with
        | nil => simp only [LinkQueue.step, hw, List.getElem?_nil]; exact ih hrest (fun o ho' => htakes o (List.mem_cons_of_mem _ ho')) _ b n htk hn
        | cons x r =>
          simp only [LinkQueue.step, hw, List.getElem?_cons_zero, List.eraseIdx_cons_zero]
          refine ih hrest (fun o ho' => htakes o (List.mem_cons_of_mem _ ho')) _ b n ?_ hn
          simp only [LinkQueue.State.tickets, hw, List.map_cons] at htk
          simp only [LinkQueue.State.tickets, List.map_append, List.map_cons, List.map_nil, List.append_assoc, List.singleton_append]
          exact htk
      | receive i =>
        have hi : i = 0 := hop
        subst hi
        cases hw : a.done with
        | nil =>
          simp only [LinkQueue.step, hw, List.getElem?_nil]
          exact ih hrest (fun o ho' => htakes o (List.mem_cons_of_mem _ ho')) _ b n (by rw [← htk]; simp only [LinkQueue.State.tickets, hw]) hn
        | cons x r =>
          simp only [LinkQueue.step, hw, List.getElem?_cons_zero, List.eraseIdx_cons_zero]
          simp only [LinkQueue.State.tickets, hw, List.map_cons, List.cons_append] at htk
          cases n with
          | zero => simp at htk
          | succ n =>
            rw [List.range'_succ] at htk
            simp only [List.cons.injEq] at htk
            refine ih hrest (fun o ho' => htakes o (List.mem_cons_of_mem _ ho')) _ (b + 1) n ?_ (by simp only; omega)
            simp only [LinkQueue.State.tickets]
            exact htk.2

/-- **C112 for devices that answer in order and drivers that take every command**: no further condition. (That the driver takes every command is needed: `C112_false`.) -/
theorem C112_in_order {l : Bool} {parse : Bytes → Py (Option S)} {dev : Linked δ} {alloc : Nat → Alloc} {tmo : Int} {limit room : Nat}
    {cmds : Req → Prop} (hroom : Room alloc limit cmds) (hl : limit ≤ 2 ^ 31) (ht : 0 ≤ tmo ∧ tmo < 2 ^ 32) (hr : limit ≤ room)
    (hparse : ∀ k q, (dev k q).1.HasSense → ∃ sn, parse (padded 255 (dev k q).1.answer.sense) = .ok sn)
    (ops : List LinkQueue.Op) (hops : ∀ op ∈ ops, LinkQueue.Sends cmds op) (ho : ∀ op ∈ ops, LinkQueue.InOrder op)
    (htakes : ∀ op ∈ ops, LinkQueue.Takes op) (m : Mem) (k : δ) :
    let live := Live.runFrom l parse dev alloc tmo room (Live.init limit m k) ops
    let ideal := LinkQueue.run dev limit (heard parse) k ops
    live.log = ideal.log ∧ live.world.kernel.dev = ideal.dev :=
  have h := C112_partial hroom hl ht hr hparse ops hops m k (noWrap_inOrder dev limit (heard parse) ops ho htakes _ 0 0 rfl rfl)
  ⟨h.1, h.2.1⟩

/-! ## The hypotheses can be met; and the condition is needed -/

/-- A device that answers a read with the second byte of its descriptor block, out of reach (`DID_NO_CONNECT`) for the byte 66. -/
def echoLink : Linked Unit := fun k q => (⟨(echo () q).1, if (q.cdb.drop 1).take 1 = [66] then 1 else 0, 0⟩, k)

/-- A history with completion out of order, an error of the host adapter and a command not taken, that meets the condition; and what is observed in it. -/
example : LinkQueue.NoWrap echoLink 4 (heard (S := Unit) (fun _ => .ok none)) (LinkQueue.State.init ())
    [.send (.read [8, 65] 1) true, .send (.read [8, 66] 1) true, .send (.read [8, 67] 1) false, .finish 1 true, .finish 0 false, .receive 0,
      .send (.read [8, 68] 1) true, .receive 0, .finish 0 true, .receive 0, .receive 0] ∧
    (LinkQueue.run echoLink 4 (heard (S := Unit) (fun _ => .ok none)) ()
    [.send (.read [8, 65] 1) true, .send (.read [8, 66] 1) true, .send (.read [8, 67] 1) false, .finish 1 true, .finish 0 false, .receive 0,
      .send (.read [8, 68] 1) true, .receive 0, .finish 0 true, .receive 0, .receive 0]).log =
      [.accepted 0, .accepted 1, .failed, .told 1 ⟨none, some .scsi⟩, .accepted 3, .told 0 ⟨some (some [65]), none⟩,
        .told 3 ⟨some (some [68]), none⟩, .nothing] := by
  constructor
  · simp [LinkQueue.NoWrap, LinkQueue.step, LinkQueue.State.init, LinkQueue.State.tickets]
  · decide

/-- **C112 is false in general, even for devices that answer in order**: a command that the driver did not take has used up a packet number. With one command outstanding and one not taken
at a queue size of two, the next command gets the packet number of the outstanding one, and its callback gets the outstanding one's data. -/
theorem C112_false : ∃ ops : List LinkQueue.Op, (∀ op ∈ ops, LinkQueue.Sends Small op) ∧ (∀ op ∈ ops, LinkQueue.InOrder op) ∧
    (Live.runFrom true (S := Unit) (fun _ => .ok none) echoLink pages 30000 16 (Live.init 2 (fun _ => 0) ()) ops).log =
      [.accepted 0, .failed, .accepted 2, .told 2 ⟨some (some [65]), none⟩] ∧
    (LinkQueue.run echoLink 2 (heard (S := Unit) (fun _ => .ok none)) () ops).log =
      [.accepted 0, .failed, .accepted 2, .told 0 ⟨some (some [65]), none⟩] :=
  ⟨[.send (.read [8, 65] 1) true, .send (.read [8, 68] 1) false, .send (.read [8, 67] 1) true, .finish 0 false, .receive 0],
    by simp [LinkQueue.Sends, Small, dataSize, Req.cdb], by simp [LinkQueue.InOrder], by decide +kernel, by decide⟩

/-- **C112 is false in general**: when the driver does not take a command whose packet number is that of one still outstanding, the executer forgets the outstanding one. Its callback is
never called, though the device executed it and its response was read; the executer says nothing is pending. -/
theorem C112_lost_false : ∃ ops : List LinkQueue.Op, (∀ op ∈ ops, LinkQueue.Sends Small op) ∧ (∀ op ∈ ops, LinkQueue.InOrder op) ∧
    (Live.runFrom true (S := Unit) (fun _ => .ok none) echoLink pages 30000 16 (Live.init 2 (fun _ => 0) ()) ops).log =
      [.accepted 0, .failed, .failed, .nothing] ∧
    (Live.runFrom true (S := Unit) (fun _ => .ok none) echoLink pages 30000 16 (Live.init 2 (fun _ => 0) ()) ops).ex.pending = [] ∧
    (Live.runFrom true (S := Unit) (fun _ => .ok none) echoLink pages 30000 16 (Live.init 2 (fun _ => 0) ()) ops).world.kernel.done.length = 0 ∧
    (LinkQueue.run echoLink 2 (heard (S := Unit) (fun _ => .ok none)) () ops).log =
      [.accepted 0, .failed, .failed, .told 0 ⟨some (some [65]), none⟩] :=
  ⟨[.send (.read [8, 65] 1) true, .send (.read [8, 68] 1) false, .send (.read [8, 67] 1) false, .finish 0 false, .receive 0],
    by simp [LinkQueue.Sends, Small, dataSize, Req.cdb], by simp [LinkQueue.InOrder], by decide +kernel, by decide +kernel, by decide +kernel, by decide⟩

end Verif.Platform.Linux.Linked
