import Verif.Spec.Queue
import Verif.Props.LinuxDevice
import Verif.Props.Reactor
set_option linter.unusedSimpArgs false
set_option linter.unusedSectionVars false
/-!
# C67: commands outstanding together on Linux get their own answers

The executer of linux.py in front of a model of the sg driver that keeps a queue: `os.write` enqueues a request, the device executes the
queued requests in any order, `os.read` hands over any finished one and stores its sense data and (unless the device did so itself) its data
through the pointers in its header. Memory, request blocks and packet numbers are all there.
-/

namespace Verif.Platform.Linux
open Verif.Executer Verif.Spec
open Verif.Reactor (dict_get_set dict_get_erase dict_keys_erase)

variable {S δ : Type}

/-- The sg driver's own state: the device, the requests not executed yet (header as written, and what it asks for), the executed ones
(with the answer, and whether the data already is in the user's buffer). -/
structure Kernel (δ : Type) where
  dev : δ
  waiting : List (Bytes × OsRequest)
  done : List (Bytes × OsRequest × Answer × Bool)

/-- The sg driver (Linux `drivers/scsi/sg.c`, version 3 interface). `room` is the number of requests it accepts (`SG_MAX_QUEUE`, 16); `pick`
says which of the finished requests a read hands over. -/
def sgQueue (l : Bool) (room pick : Nat) : SgDriver (Kernel δ) :=
  { write := fun raw w =>
      match sgView l raw w.mem with
      | none => (.error .ioError, w)
      | some req =>
        if room ≤ w.kernel.waiting.length + w.kernel.done.length then (.error .ioError, w)
        else (.ok (), { w with kernel := { w.kernel with waiting := w.kernel.waiting ++ [(raw, req)] } })
    read := fun n w =>
      match w.kernel.done[pick]? with
      | none => (.error .ioError, w)
      | some (raw, req, ans, direct) =>
        let m := if direct then w.mem else writeMem w.mem (word l raw 16 8) (ans.data.take req.fromDevice)
        let m := writeMem m (sgSensePtr l raw) (ans.sense.take req.senseRoom)
        (.ok ((splice raw 64 [ans.status]).take n), { mem := m, kernel := { w.kernel with done := w.kernel.done.eraseIdx pick } }) }

/-- The device executes one of the queued requests. -/
def sgFinish (l : Bool) (dev : Device δ) (i : Nat) (direct : Bool) (w : World (Kernel δ)) : World (Kernel δ) :=
  match w.kernel.waiting[i]? with
  | none => w
  | some (raw, req) =>
    let req := if direct then { req with toDevice := ((sgView l raw w.mem).map OsRequest.toDevice).getD [] } else req
    let r := dev w.kernel.dev req
    let m := if direct then writeMem w.mem (word l raw 16 8) (r.1.data.take req.fromDevice) else w.mem
    { mem := m, kernel := { dev := r.2, waiting := w.kernel.waiting.eraseIdx i, done := w.kernel.done ++ [(raw, req, r.1, direct)] } }

/-- What a callback gets. -/
abbrev Told (S : Type) := CbArgs (Option Bytes) (DevErr S)

/-- The executer in its world. The callback of the `t`-th accepted command is called `t`. -/
structure Live (δ S : Type) where
  ex : St Handle Nat
  world : World (Kernel δ)
  next : Nat
  log : List (Queue.Ev (Told S))

def Live.init (limit : Nat) (m : Mem) (k : δ) : Live δ S := ⟨St.init _ _ limit, ⟨m, ⟨k, [], []⟩⟩, 0, []⟩

/-- One thing that happens, with the methods of the executer doing the work: `send` (__init__.py:99-110) and `_process_pending_response`
(123-138). -/
def Live.step (l : Bool) (parse : Bytes → Py (Option S)) (dev : Device δ) (alloc : Nat → Alloc) (tmo : Int) (room : Nat) (s : Live δ S) :
    Queue.Op → Live δ S
  | .send c =>
    let r := Executer.send (prepare (lp64 l) alloc tmo c) (sgSend (sgQueue l room 0)) (some s.next) s.ex s.world
    match r.out with
    | .ok () => ⟨r.st, r.os, s.next + 1, s.log ++ [.accepted s.next]⟩
    | .error _ => ⟨r.st, r.os, s.next, s.log ++ [.refused]⟩
  | .finish i direct => { s with world := sgFinish l dev i direct s.world }
  | .receive i =>
    let r := process (sgReceive (lp64 l) parse (sgQueue l room i)) s.ex s.world
    match r.fired with
    | some (t, a) => ⟨r.st, r.os, s.next, s.log ++ [.told t a]⟩
    | none => ⟨r.st, r.os, s.next, s.log ++ [.nothing]⟩

def Live.runFrom (l : Bool) (parse : Bytes → Py (Option S)) (dev : Device δ) (alloc : Nat → Alloc) (tmo : Int) (room : Nat) (s : Live δ S)
    (ops : List Queue.Op) : Live δ S := ops.foldl (Live.step l parse dev alloc tmo room) s

/-- What the sender of `c` should be told when the device answers `ans`. -/
def hear (parse : Bytes → Py (Option S)) (c : Req) (ans : Answer) : Told S :=
  if ans.status.toNat / 2 % 2 = 1 then
    match parse (padded 255 ans.sense) with
    | .ok sn => ⟨none, some (.checkCondition (padded 255 ans.sense) sn)⟩
    | .error _ => ⟨none, none⟩
  else if ans.status ≠ 0 then ⟨none, some .scsi⟩
  else ⟨some (delivered c ans), none⟩

/-- Two buffers that do not overlap. -/
def Clear (x y : Nat × Nat) : Prop := x.1 + x.2 ≤ y.1 ∨ y.1 + y.2 ≤ x.1

/-- The allocator keeps the buffers of commands that are outstanding together apart, and every command fits the request block. -/
structure Room (alloc : Nat → Alloc) (limit : Nat) (cmds : Req → Prop) : Prop where
  cdb : ∀ c, cmds c → c.cdb.length ≤ 255
  size : ∀ c, cmds c → dataSize c < 2 ^ 32
  one : ∀ c, cmds c → ∀ i, i < limit → Separate 64 (regions (alloc i) c 88)
  two : ∀ c c', cmds c → cmds c' → ∀ i j, i < limit → j < limit → i ≠ j →
    ∀ x ∈ regions (alloc i) c 88, ∀ y ∈ regions (alloc j) c' 88, Clear x y

/-! ## Memory -/

/-- The contents of the data buffer of a command. -/
def Filled (al : Alloc) (c : Req) (m : Mem) (d : Bytes) : Prop := readMem m al.data (dataSize c) = d

/-- What a command's data buffer holds before the device touched it. -/
def initial : Req → Bytes
  | .read _ n => zeros n.toNat
  | .write _ d => d

/-- The buffers of an outstanding command are as `create` left them, but for the data buffer which holds `d`. -/
structure Held (h : Handle) (al : Alloc) (c : Req) (m : Mem) (d : Bytes) : Prop where
  block : readMem m al.block 88 = h.block
  sense : readMem m al.sense 255 = zeros 255
  cmd : readMem m al.cmd c.cdb.length = c.cdb
  data : (∀ cdb n, c = .read cdb n → n > 0 → readMem m al.data n.toNat = d) ∧ (∀ cdb b, c = .write cdb b → readMem m al.data b.length = d)

/-- Writing elsewhere does not disturb the buffers of a command. -/
theorem Held.other {h : Handle} {al : Alloc} {c : Req} {m : Mem} {d : Bytes} (hh : Held h al c m d) (x : Nat) (bs : Bytes)
    (hx : ∀ r ∈ regions al c 88, Clear r (x, bs.length)) : Held h al c (writeMem m x bs) d := by
  simp only [regions, List.mem_cons, List.not_mem_nil, or_false, forall_eq_or_imp, forall_eq, Clear] at hx
  obtain ⟨h1, h2, h3, h4⟩ := hx
  refine ⟨?_, ?_, ?_, ?_, ?_⟩
  · rw [readMem_writeMem_other (by omega)]; exact hh.block
  · rw [readMem_writeMem_other (by omega)]; exact hh.sense
  · rw [readMem_writeMem_other (by omega)]; exact hh.cmd
  · intro cdb n hc hn
    rw [readMem_writeMem_other (by rw [hc] at h4; simp only [dataSize] at h4; omega)]
    exact hh.data.1 cdb n hc hn
  · intro cdb b hc
    rw [readMem_writeMem_other (by rw [hc] at h4; simp only [dataSize] at h4; omega)]
    exact hh.data.2 cdb b hc

theorem clear_symm {x y : Nat × Nat} (h : Clear x y) : Clear y x := h.symm

/-- A request that has just been built. -/
theorem held_install (l : Bool) (al : Alloc) (i : Nat) (c : Req) (t : Int) (m : Mem) (hsep : Separate 64 (regions al c 88)) :
    Held (create (lp64 l) al i c t) al c ((create (lp64 l) al i c t).install m) (initial c) := by
  have hap := handle_apart l al i c t hsep
  have hl := create_length l al i c t
  have hcd := create_data (lp64 l) al i c t
  refine ⟨?_, ?_, ?_, ?_, ?_⟩
  · have := install_block (create (lp64 l) al i c t) m
    rwa [hl, create_blockAddr] at this
  · have := install_sense hap m
    rwa [create_senseInit, create_senseAddr] at this
  · have := install_cmd hap m
    rwa [create_cmd, create_cmdAddr] at this
  · intro cdb n hc hn
    have := install_data hap m (x := al.data) (d := zeros n.toNat) (by rw [hcd, hc, bufOf, if_pos hn])
    rw [zeros_length] at this
    rw [hc]; rw [hc] at this; exact this
  · intro cdb b hc
    have := install_data hap m (x := al.data) (d := b) (by rw [hcd, hc, bufOf])
    rw [hc]; rw [hc] at this; exact this

/-- Building a request leaves the buffers of the others alone. -/
theorem Held.install {h : Handle} {al : Alloc} {c : Req} {m : Mem} {d : Bytes} (hh : Held h al c m d)
    (l : Bool) (al' : Alloc) (i : Nat) (c' : Req) (t : Int)
    (hx : ∀ r ∈ regions al c 88, ∀ r' ∈ regions al' c' 88, Clear r r') :
    Held h al c ((create (lp64 l) al' i c' t).install m) d := by
  have hm : ∀ r ∈ regions al c 88, Clear r (al'.block, 88) ∧ Clear r (al'.sense, 255) ∧ Clear r (al'.cmd, c'.cdb.length) ∧
      Clear r (al'.data, dataSize c') := by
    intro r hr
    have := hx r hr
    simpa only [regions, List.mem_cons, List.not_mem_nil, or_false, forall_eq_or_imp, forall_eq] using this
  have hl := create_length l al' i c' t
  have hcd := create_data (lp64 l) al' i c' t
  unfold Handle.install
  dsimp only
  have h1 : Held h al c (writeMem m (create (lp64 l) al' i c' t).senseAddr (create (lp64 l) al' i c' t).senseInit) d := by
    apply hh.other
    intro r hr
    rw [create_senseInit]; exact (hm r hr).2.1
  have h2 := h1.other (create (lp64 l) al' i c' t).cmdAddr (create (lp64 l) al' i c' t).cmd (fun r hr => (hm r hr).2.2.1)
  have h3 : Held h al c (match (create (lp64 l) al' i c' t).data with
      | some (x, d) => writeMem (writeMem (writeMem m (create (lp64 l) al' i c' t).senseAddr (create (lp64 l) al' i c' t).senseInit)
          (create (lp64 l) al' i c' t).cmdAddr (create (lp64 l) al' i c' t).cmd) x d
      | none => writeMem (writeMem m (create (lp64 l) al' i c' t).senseAddr (create (lp64 l) al' i c' t).senseInit)
          (create (lp64 l) al' i c' t).cmdAddr (create (lp64 l) al' i c' t).cmd) d := by
    split
    · rename_i x b hb
      have hx : x = al'.data ∧ b.length = dataSize c' := by
        rw [hcd] at hb
        cases c' with
        | read cdb n =>
          simp only [bufOf] at hb
          split at hb
          · simp only [Option.some.injEq, Prod.mk.injEq] at hb
            obtain ⟨rfl, rfl⟩ := hb
            exact ⟨rfl, by rw [zeros_length]; rfl⟩
          · cases hb
        | write cdb dd =>
          simp only [bufOf, Option.some.injEq, Prod.mk.injEq] at hb
          obtain ⟨rfl, rfl⟩ := hb
          exact ⟨rfl, rfl⟩
      apply h2.other
      intro r hr
      rw [hx.1, hx.2]; exact (hm r hr).2.2.2
    · exact h2
  apply h3.other
  intro r hr
  rw [hl]; exact (hm r hr).1

/-- While the buffers are intact the driver reads in them what the command asks for. -/
theorem view_held (l : Bool) (al : Alloc) (i : Nat) (c : Req) (t : Int) (m : Mem) {b : Bytes} (hf : BlockFields l al i c t b)
    {h : Handle} (hh : Held h al c m (initial c)) : sgView l b m = some (asked c) := by
  unfold sgView
  simp only [word_lp64, sword_lp64, hf.len, hf.iface, hf.iovec, hf.flags, hf.dir, hf.cmdLen, hf.senseMax, hf.dataLen, hf.dataPtr, hf.cmdPtr,
    Int.toNat_natCast, hh.cmd]
  cases c with
  | read cdb n =>
    by_cases hn : n > 0
    · simp [dirOf, hn, asked, dataSize, Req.cdb]
    · have : n.toNat = 0 := by omega
      simp [dirOf, hn, asked, dataSize, Req.cdb, this]
  | write cdb d =>
    have := hh.data.2 cdb d rfl
    simp only [initial] at this
    simp [dirOf, asked, dataSize, Req.cdb, this]

/-- The data the device sends goes to the data buffer. -/
theorem dataPtr_or (l : Bool) (al : Alloc) (i : Nat) (c : Req) (t : Int) {b : Bytes} (hf : BlockFields l al i c t b) :
    word l b 16 8 = al.data ∨ (asked c).fromDevice = 0 := by
  rw [word_lp64, hf.dataPtr]
  cases c with
  | read cdb n =>
    by_cases hn : n > 0
    · left; simp [dirOf, hn]
    · right; simp only [asked]; omega
  | write cdb d => right; rfl

/-- What the data buffer holds once the device wrote its data there. -/
def filled (c : Req) (ans : Answer) : Bytes :=
  match c with
  | .read _ n => padded n.toNat ans.data
  | .write _ d => d

/-- The device stores its data in the data buffer: nothing else changes. -/
theorem Held.store {h : Handle} {al : Alloc} {c : Req} {m : Mem} (hh : Held h al c m (initial c)) (hsep : Separate 64 (regions al c 88))
    (ans : Answer) (p : Nat) (hp : p = al.data ∨ (asked c).fromDevice = 0) :
    Held h al c (writeMem m p (ans.data.take (asked c).fromDevice)) (filled c ans) := by
  obtain ⟨h1, h2, h3, h4, h5, h6⟩ := regions_apart hsep
  have hfd := fromDevice_le c
  cases c with
  | read cdb n =>
    rcases hp with rfl | hp
    · refine ⟨?_, ?_, ?_, ?_, ?_⟩
      · rw [readMem_writeMem_other (by rw [List.length_take]; omega)]; exact hh.block
      · rw [readMem_writeMem_other (by rw [List.length_take]; omega)]; exact hh.sense
      · rw [readMem_writeMem_other (by rw [List.length_take]; omega)]; exact hh.cmd
      · intro cdb' n' hc hn
        cases hc
        exact readMem_padded _ _ _ _ (hh.data.1 cdb n rfl hn)
      · intro _ _ hc; cases hc
    · have hn : n.toNat = 0 := hp
      rw [hp, List.take_zero, writeMem_nil]
      refine ⟨hh.block, hh.sense, hh.cmd, ?_, ?_⟩
      · intro cdb' n' hc hn'
        cases hc; omega
      · intro _ _ hc; cases hc
  | write cdb d =>
    rw [show (asked (.write cdb d)).fromDevice = 0 from rfl, List.take_zero, writeMem_nil]
    exact hh

/-- What the executer makes of the response to a command whose answer is in its buffers. -/
theorem response (l : Bool) (parse : Bytes → Py (Option S)) (al : Alloc) (i : Nat) (c : Req) (t : Int) (m : Mem) (ans : Answer)
    (getOs : Int → Option Handle) (hget : getOs i = some (create (lp64 l) al i c t))
    (hf : BlockFields l al i c t (create (lp64 l) al i c t).block) (hsep : Separate 64 (regions al c 88))
    (hh : Held (create (lp64 l) al i c t) al c m (filled c ans))
    (hparse : ans.status.toNat / 2 % 2 = 1 → ∃ sn, parse (padded 255 ans.sense) = .ok sn) :
    ∃ o, toRecv (handleRawResponse (lp64 l) parse getOs (writeMem m al.sense (ans.sense.take 255))
        (splice (create (lp64 l) al i c t).block 64 [ans.status])) = .ok (o, i) ∧ cbArgs o = hear parse c ans := by
  obtain ⟨h1, h2, h3, h4, h5, h6⟩ := regions_apart hsep
  have hcd := create_data (lp64 l) al i c t
  have hba := create_blockAddr (lp64 l) al i c t
  generalize create (lp64 l) al i c t = h at *
  have hlen : 88 ≤ (splice h.block 64 [ans.status]).length := by rw [splice_length, hf.len]; exact Nat.le_refl _
  have e1 := status_splice h.block ans.status hf.len
  have e2 : sgHostStatus l (splice h.block 64 [ans.status]) = 0 := by
    rw [sgHostStatus, word_lp64, load_splice_status _ _ _ _ _ _ (by omega), hf.host]; rfl
  have e3 : sgDriverStatus l (splice h.block 64 [ans.status]) = 0 := by
    rw [sgDriverStatus, word_lp64, load_splice_status _ _ _ _ _ _ (by omega), hf.driver]; rfl
  have e4 : sgPackId l (splice h.block 64 [ans.status]) = i := by
    rw [sgPackId, sword_lp64, load_splice_status _ _ _ _ _ _ (by omega), hf.packId]
  have e5 : sgSensePtr l (splice h.block 64 [ans.status]) = al.sense := by
    rw [sgSensePtr, word_lp64, load_splice_status _ _ _ _ _ _ (by omega), hf.sensePtr]; rfl
  rw [handle_eq l parse _ _ _ hlen, e1, e2, e3, e4, e5, hget]
  have F1 : readMem (writeMem m al.sense (ans.sense.take 255)) al.sense 255 = padded 255 ans.sense :=
    readMem_padded _ _ _ _ hh.sense
  have F2 : readMem (writeMem m al.sense (ans.sense.take 255)) h.blockAddr 88 = h.block := by
    rw [hba, readMem_writeMem_other (by rw [List.length_take]; omega)]; exact hh.block
  have hsd := successData_eq l al i c t h _ hf hcd F2
  have hdb : dataBack c (writeMem m al.sense (ans.sense.take 255)) al.data = delivered c ans := by
    cases c with
    | read cdb n =>
      simp only [delivered, dataBack]
      by_cases hn : n > 0
      · rw [if_pos hn, if_pos hn]
        simp only [dataSize] at h5
        rw [readMem_writeMem_other (by rw [List.length_take]; omega), hh.data.1 cdb n rfl hn]; rfl
      · rw [if_neg hn, if_neg hn]
    | write cdb d => rfl
  rw [F1, hsd, hdb]
  have hmatch : ans.status.toNat = 0 ↔ ans.status = 0 := by
    constructor
    · intro hx; exact UInt8.toNat_inj.mp hx
    · intro hx; rw [hx]; rfl
  unfold hear
  simp only [and_2, Nat.zero_and, ne_eq, not_true_eq_false, or_false, if_false]
  by_cases c1 : ans.status.toNat / 2 % 2 = 1
  · obtain ⟨sn, hsn⟩ := hparse c1
    simp only [c1, if_true, checkCondition, hsn]
    exact ⟨.exc (.checkCondition (padded 255 ans.sense) sn), by simp [toRecv], rfl⟩
  · by_cases c2 : ans.status = 0
    · have c3 := hmatch.2 c2
      simp only [c1, c2, c3, if_false, not_true_eq_false]
      exact ⟨.data (delivered c ans), by simp [toRecv], rfl⟩
    · have c3 : ¬ ans.status.toNat = 0 := fun hx => c2 (hmatch.1 hx)
      simp only [c1, c2, c3, if_false, not_false_eq_true, if_true]
      exact ⟨.exc .scsi, by simp [toRecv], rfl⟩

/-! ## The invariant -/

theorem perm_eraseIdx {α : Type} {l : List α} {i : Nat} {x : α} (h : l[i]? = some x) : l.Perm (x :: l.eraseIdx i) := by
  induction l generalizing i with
  | nil => simp at h
  | cons y l ih =>
    cases i with
    | zero => simp only [List.getElem?_cons_zero, Option.some.injEq] at h; subst h; exact List.Perm.refl _
    | succ i =>
      simp only [List.getElem?_cons_succ] at h
      exact ((ih h).cons y).trans (List.Perm.swap x y _)

theorem map_eraseIdx {α β : Type} (f : α → β) (l : List α) (i : Nat) : (l.map f).eraseIdx i = (l.eraseIdx i).map f := by
  induction l generalizing i with
  | nil => rfl
  | cons y l ih =>
    cases i with
    | zero => rfl
    | succ i => simp [List.eraseIdx, ih]

/-- The outstanding commands: number, command, contents of the data buffer. -/
def opens (w : List (Nat × Req)) (d : List (Nat × Req × Answer × Bool)) : List (Nat × Req × Bytes) :=
  d.map (fun e => (e.1, e.2.1, if e.2.2.2 then filled e.2.1 e.2.2.1 else initial e.2.1)) ++ w.map (fun e => (e.1, e.2, initial e.2))

section
variable (l : Bool) (parse : Bytes → Py (Option S)) (dev : Device δ) (alloc : Nat → Alloc) (tmo : Int) (limit : Nat) (cmds : Req → Prop)

/-- The request object of the `t`-th command. -/
def built (t : Nat) (c : Req) : Handle := create (lp64 l) (alloc (t % limit)) (t % limit) c tmo

/-- What holds of an outstanding command. -/
structure OpenOk (pend : Dict (Handle × Option Nat)) (m : Mem) (e : Nat × Req × Bytes) : Prop where
  cmd : cmds e.2.1
  get : Dict.get pend (e.1 % limit) = some (built l alloc tmo limit e.1 e.2.1, some e.1)
  held : Held (built l alloc tmo limit e.1 e.2.1) (alloc (e.1 % limit)) e.2.1 m e.2.2

/-- The executer in its world agrees with the ideal queue. -/
structure Inv (a : Queue.State δ (Told S)) (d : List (Nat × Req × Answer × Bool)) (s : Live δ S) : Prop where
  next : s.next = a.next
  maxq : s.ex.maxq = limit
  index : s.ex.index = a.next % limit
  log : s.log = a.log
  dev : s.world.kernel.dev = a.dev
  done : a.done = d.map (fun e => (e.1, e.2.1, e.2.2.1))
  kwaiting : s.world.kernel.waiting = a.waiting.map (fun e => ((built l alloc tmo limit e.1 e.2).block, asked e.2))
  kdone : s.world.kernel.done = d.map (fun e => ((built l alloc tmo limit e.1 e.2.1).block, asked e.2.1, e.2.2.1, e.2.2.2))
  slots : ((opens a.waiting d).map (fun e => e.1 % limit)).Nodup
  keys : ((opens a.waiting d).map (fun e => e.1 % limit)).Perm (Dict.keys s.ex.pending)
  each : ∀ e ∈ opens a.waiting d, OpenOk l alloc tmo limit cmds s.ex.pending s.world.mem e
  le : (opens a.waiting d).length ≤ limit
  parses : ∀ e ∈ d, e.2.2.1.status.toNat / 2 % 2 = 1 → ∃ sn, parse (padded 255 e.2.2.1.sense) = .ok sn

theorem tickets_eq {a : Queue.State δ (Told S)} {d : List (Nat × Req × Answer × Bool)} {s : Live δ S}
    (h : Inv l parse alloc tmo limit cmds a d s) : a.tickets = (opens a.waiting d).map Prod.fst := by
  simp only [Queue.State.tickets, h.done, opens, List.map_append, List.map_map]
  rfl

theorem inv_init (m : Mem) (k : δ) : Inv l parse alloc tmo limit cmds (Queue.State.init k) [] (Live.init limit m k) := by
  refine ⟨rfl, rfl, ?_, rfl, rfl, rfl, rfl, rfl, ?_, ?_, ?_, ?_, ?_⟩
  · simp [Live.init, St.init, Queue.State.init]
  · simp [Queue.State.init, opens]
  · simp [Queue.State.init, opens, Live.init, St.init, Dict.keys]
  · intro e he; simp [Queue.State.init, opens] at he
  · simp [Queue.State.init, opens]
  · intro e he; simp at he

variable {l parse dev alloc tmo limit cmds}
variable (hroom : Room alloc limit cmds) (hl : limit ≤ 2 ^ 31) (ht : 0 ≤ tmo ∧ tmo < 2 ^ 32)
include hroom hl ht

theorem built_fields (hpos : 0 < limit) (t : Nat) (c : Req) (hc : cmds c) :
    BlockFields l (alloc (t % limit)) (t % limit) c tmo (built l alloc tmo limit t c).block := by
  have hlt := Nat.mod_lt t hpos
  have hb := (hroom.one c hc _ hlt).2
  simp only [regions, List.mem_cons, List.not_mem_nil, or_false, forall_eq_or_imp, forall_eq] at hb
  obtain ⟨-, hb2, hb3, hb4⟩ := hb
  exact create_fields l _ _ c tmo (by omega) (hroom.cdb c hc) (hroom.size c hc) ht hb2 hb3 hb4

/-- The buffers of two outstanding commands with different packet numbers do not overlap. -/
theorem clear_of_ne (hpos : 0 < limit) {t t' : Nat} {c c' : Req} (hc : cmds c) (hc' : cmds c') (hne : t % limit ≠ t' % limit) :
    ∀ x ∈ regions (alloc (t % limit)) c 88, ∀ y ∈ regions (alloc (t' % limit)) c' 88, Clear x y :=
  hroom.two c c' hc hc' _ _ (Nat.mod_lt t hpos) (Nat.mod_lt t' hpos) hne

/-- A send. -/
theorem inv_send {a : Queue.State δ (Told S)} {d : List (Nat × Req × Answer × Bool)} {s : Live δ S} (room : Nat) (hr : limit ≤ room)
    (h : Inv l parse alloc tmo limit cmds a d s) (c : Req) (hc : cmds c)
    (hfresh : a.tickets.length < limit → ∀ t ∈ a.tickets, t % limit ≠ a.next % limit) :
    Inv l parse alloc tmo limit cmds (Queue.step dev limit (hear parse) a (.send c)) d (Live.step l parse dev alloc tmo room s (.send c)) := by
  have htk := tickets_eq l parse alloc tmo limit cmds h
  have hlen : s.ex.pending.length = a.tickets.length := by
    have := h.keys.length_eq
    simp only [Dict.keys, List.length_map] at this
    rw [htk, List.length_map]; exact this.symm
  by_cases hfull : limit ≤ a.tickets.length
  · have hs : Live.step l parse dev alloc tmo room s (.send c) = { s with log := s.log ++ [.refused] } := by
      simp only [Live.step, Executer.send, nextPacketIndex, hlen, h.maxq, ge_iff_le, hfull, if_true]
    have ha : Queue.step dev limit (hear parse) a (.send c) = { a with log := a.log ++ [.refused] } := by
      simp only [Queue.step, hfull, if_true]
    rw [hs, ha]
    exact ⟨h.next, h.maxq, h.index, by simp only [h.log], h.dev, h.done, h.kwaiting, h.kdone, h.slots, h.keys, h.each, h.le, h.parses⟩
  · have hpos : 0 < limit := by omega
    have hfresh := hfresh (by omega)
    have hnk : a.next % limit ∉ Dict.keys s.ex.pending := by
      intro hk
      have := h.keys.mem_iff.2 hk
      obtain ⟨e, he, heq⟩ := List.mem_map.1 this
      exact hfresh e.1 (by rw [htk]; exact List.mem_map_of_mem he) heq
    have hheld := held_install l (alloc (a.next % limit)) (a.next % limit) c tmo s.world.mem (hroom.one c hc _ (Nat.mod_lt _ hpos))
    have hv := view_held l _ _ c tmo _ (built_fields hroom hl ht (l := l) hpos a.next c hc) hheld
    have hkl : s.world.kernel.waiting.length + s.world.kernel.done.length = a.tickets.length := by
      rw [h.kwaiting, h.kdone]
      simp only [Queue.State.tickets, h.done, List.length_append, List.length_map]
      omega
    have hs : Live.step l parse dev alloc tmo room s (.send c) =
        ⟨{ s.ex with index := (s.ex.index + 1) % limit, pending := s.ex.pending ++ [(a.next % limit, (built l alloc tmo limit a.next c, some a.next))] },
          ⟨(built l alloc tmo limit a.next c).install s.world.mem,
            { s.world.kernel with waiting := s.world.kernel.waiting ++ [((built l alloc tmo limit a.next c).block, asked c)] }⟩,
          s.next + 1, s.log ++ [.accepted s.next]⟩ := by
      have hsg : sgSend (sgQueue l room 0) (built l alloc tmo limit a.next c) s.world = (.ok (), ⟨(built l alloc tmo limit a.next c).install s.world.mem,
            { s.world.kernel with waiting := s.world.kernel.waiting ++ [((built l alloc tmo limit a.next c).block, asked c)] }⟩) := by
        simp only [sgSend, sgQueue]
        unfold built at hv ⊢
        simp only [hv, hkl]
        rw [if_neg (by omega)]
      simp only [Live.step, Executer.send, nextPacketIndex, hlen, h.maxq, ge_iff_le, hfull, if_false, prepare, h.index]
      unfold built at hsg ⊢
      simp only [hsg, Dict.set_fresh _ _ _ hnk, h.next]
    have ha : Queue.step dev limit (hear parse) a (.send c) =
        { a with next := a.next + 1, waiting := a.waiting ++ [(a.next, c)], log := a.log ++ [.accepted a.next] } := by
      simp only [Queue.step, hfull, if_false]
    rw [hs, ha]
    have hop : opens (a.waiting ++ [(a.next, c)]) d = opens a.waiting d ++ [(a.next, c, initial c)] := by
      simp [opens]
    have hnot : a.next % limit ∉ (opens a.waiting d).map (fun e => e.1 % limit) := fun hm => hnk (h.keys.mem_iff.1 hm)
    refine ⟨by simp only [h.next], h.maxq, ?_, by simp only [h.log, h.next], h.dev, h.done, ?_, h.kdone, ?_, ?_, ?_, ?_, h.parses⟩
    · simp only [h.index, Nat.mod_add_mod]
    · simp only [h.kwaiting, List.map_append, List.map_cons, List.map_nil]
    · simp only [hop, List.map_append, List.map_cons, List.map_nil]
      rw [List.nodup_append]
      refine ⟨h.slots, by simp, ?_⟩
      intro x hx y hy e
      simp only [List.mem_singleton] at hy
      exact hnot (hy ▸ e ▸ hx)
    · simp only [hop, List.map_append, List.map_cons, List.map_nil, Dict.keys]
      exact h.keys.append_right _
    · intro e he
      simp only [hop, List.mem_append, List.mem_singleton] at he
      rcases he with he | rfl
      · have ho := h.each e he
        have hne : e.1 % limit ≠ a.next % limit := fun heq => hnot (List.mem_map.2 ⟨e, he, heq⟩)
        refine ⟨ho.cmd, ?_, ho.held.install l _ _ c tmo (clear_of_ne hroom hl ht hpos ho.cmd hc hne)⟩
        have hg := ho.get
        rw [← Dict.set_fresh _ _ _ hnk, dict_get_set, if_neg (fun hh => hne hh.symm)]
        exact hg
      · refine ⟨hc, ?_, hheld⟩
        simp only
        rw [← Dict.set_fresh _ _ _ hnk, dict_get_set, if_pos rfl]
    · simp only [hop, List.length_append, List.length_singleton]
      rw [htk, List.length_map] at hfull
      omega

/-- The device executes a command. -/
theorem inv_finish {a : Queue.State δ (Told S)} {d : List (Nat × Req × Answer × Bool)} {s : Live δ S} (room : Nat)
    (hparse : ∀ k q, (dev k q).1.status.toNat / 2 % 2 = 1 → ∃ sn, parse (padded 255 (dev k q).1.sense) = .ok sn)
    (h : Inv l parse alloc tmo limit cmds a d s) (i : Nat) (direct : Bool) :
    ∃ d', Inv l parse alloc tmo limit cmds (Queue.step dev limit (hear parse) a (.finish i direct)) d'
      (Live.step l parse dev alloc tmo room s (.finish i direct)) := by
  cases hw : a.waiting[i]? with
  | none =>
    refine ⟨d, ?_⟩
    have hk : s.world.kernel.waiting[i]? = none := by rw [h.kwaiting, List.getElem?_map, hw]; rfl
    simp only [Queue.step, hw, Live.step, sgFinish, hk]
    exact h
  | some tc =>
    obtain ⟨t, c⟩ := tc
    have hk : s.world.kernel.waiting[i]? = some ((built l alloc tmo limit t c).block, asked c) := by
      rw [h.kwaiting, List.getElem?_map, hw]; rfl
    have hmem : (t, c) ∈ a.waiting := List.mem_of_getElem? hw
    have hopen : (t, c, initial c) ∈ opens a.waiting d := by
      simp only [opens, List.mem_append, List.mem_map]
      exact .inr ⟨(t, c), hmem, rfl⟩
    have ho := h.each _ hopen
    have hpos : 0 < limit := Nat.lt_of_lt_of_le (List.length_pos_of_mem hopen) h.le
    have hf := built_fields hroom hl ht (l := l) hpos t c ho.cmd
    have hsep := hroom.one c ho.cmd _ (Nat.mod_lt t hpos)
    have hv : sgView l (built l alloc tmo limit t c).block s.world.mem = some (asked c) := view_held l _ _ c tmo _ hf ho.held
    generalize hans : (dev a.dev (asked c)).1 = ans
    have hreq : (if direct = true then { asked c with toDevice := ((sgView l (built l alloc tmo limit t c).block s.world.mem).map OsRequest.toDevice).getD [] }
        else asked c) = asked c := by
      rw [hv]; cases direct <;> rfl
    have hlive : Live.step l parse dev alloc tmo room s (.finish i direct) =
        { s with world := ⟨if direct = true then writeMem s.world.mem (word l (built l alloc tmo limit t c).block 16 8) (ans.data.take (asked c).fromDevice)
            else s.world.mem, ⟨(dev a.dev (asked c)).2, s.world.kernel.waiting.eraseIdx i,
              s.world.kernel.done ++ [((built l alloc tmo limit t c).block, asked c, ans, direct)]⟩⟩ } := by
      simp only [Live.step, sgFinish, hk, hreq, h.dev, hans]
    have hid : Queue.step dev limit (hear parse) a (.finish i direct) =
        { a with dev := (dev a.dev (asked c)).2, waiting := a.waiting.eraseIdx i, done := a.done ++ [(t, c, ans)] } := by
      simp only [Queue.step, hw, hans]
    have hperm : (opens a.waiting d).Perm ((t, c, initial c) :: opens (a.waiting.eraseIdx i) d) := by
      unfold opens
      refine List.Perm.trans (List.Perm.append_left _ ((perm_eraseIdx hw).map _)) ?_
      simp only [List.map_cons]
      exact List.perm_middle
    have hperm' : (opens (a.waiting.eraseIdx i) (d ++ [(t, c, ans, direct)])).Perm
        ((t, c, if direct then filled c ans else initial c) :: opens (a.waiting.eraseIdx i) d) := by
      unfold opens
      simp only [List.map_append, List.map_cons, List.map_nil, List.append_assoc, List.singleton_append]
      exact List.perm_middle
    have hsl : ((opens (a.waiting.eraseIdx i) (d ++ [(t, c, ans, direct)])).map (fun e => e.1 % limit)).Perm
        ((opens a.waiting d).map (fun e => e.1 % limit)) := by
      refine (hperm'.map _).trans (List.Perm.trans ?_ (hperm.map _).symm)
      exact List.Perm.refl _
    have hother : ∀ e ∈ opens (a.waiting.eraseIdx i) d, e.1 % limit ≠ t % limit := by
      intro e he heq
      have hnd := (hperm.map (fun e => e.1 % limit)).nodup h.slots
      simp only [List.map_cons, List.nodup_cons] at hnd
      exact hnd.1 (List.mem_map.2 ⟨e, he, heq⟩)
    refine ⟨d ++ [(t, c, ans, direct)], ?_⟩
    rw [hlive, hid]
    refine ⟨h.next, h.maxq, h.index, h.log, rfl, ?_, ?_, ?_, ?_, ?_, ?_, ?_, ?_⟩
    · simp only [h.done, List.map_append, List.map_cons, List.map_nil]
    · simp only [h.kwaiting, map_eraseIdx]
    · simp only [h.kdone, List.map_append, List.map_cons, List.map_nil]
    · exact hsl.symm.nodup h.slots
    · exact hsl.trans h.keys
    · intro e he
      replace he := hperm'.mem_iff.1 he
      simp only [List.mem_cons] at he
      rcases he with rfl | he
      · refine ⟨ho.cmd, ho.get, ?_⟩
        cases direct with
        | false => exact ho.held
        | true => exact ho.held.store hsep ans _ (dataPtr_or l _ _ c tmo hf)
      · have hoe := h.each e (hperm.mem_iff.2 (List.mem_cons_of_mem _ he))
        refine ⟨hoe.cmd, hoe.get, ?_⟩
        cases direct with
        | false => exact hoe.held
        | true =>
          simp only [if_true]
          rcases dataPtr_or l _ _ c tmo hf with hp | hp
          · apply hoe.held.other
            intro r hr
            have hcl := clear_of_ne hroom hl ht hpos hoe.cmd ho.cmd (hother e he) r hr (_, dataSize c) (by simp only [regions, List.mem_cons]; exact .inr (.inr (.inr (.inl rfl))))
            have hfd := fromDevice_le c
            simp only [Clear, hp, List.length_take] at hcl ⊢
            omega
          · rw [hp, List.take_zero, writeMem_nil]; exact hoe.held
    · have h1 := hperm.length_eq
      have h2 := hperm'.length_eq
      have h3 := h.le
      simp only [List.length_cons] at h1 h2
      simp only; omega
    · intro e he
      simp only [List.mem_append, List.mem_singleton] at he
      rcases he with he | rfl
      · exact h.parses e he
      · rw [← hans]; exact hparse _ _

/-- A response is processed. -/
theorem inv_receive {a : Queue.State δ (Told S)} {d : List (Nat × Req × Answer × Bool)} {s : Live δ S} (room : Nat)
    (h : Inv l parse alloc tmo limit cmds a d s) (i : Nat) :
    ∃ d', Inv l parse alloc tmo limit cmds (Queue.step dev limit (hear parse) a (.receive i)) d'
      (Live.step l parse dev alloc tmo room s (.receive i)) := by
  cases hw : d[i]? with
  | none =>
    refine ⟨d, ?_⟩
    have hk : s.world.kernel.done[i]? = none := by rw [h.kdone, List.getElem?_map, hw]; rfl
    have ha : a.done[i]? = none := by rw [h.done, List.getElem?_map, hw]; rfl
    simp only [Queue.step, ha, Live.step, process, sgReceive, sgQueue, hk]
    exact ⟨h.next, h.maxq, h.index, by simp only [h.log], h.dev, h.done, h.kwaiting, h.kdone, h.slots, h.keys, h.each, h.le, h.parses⟩
  | some x =>
    obtain ⟨t, c, ans, direct⟩ := x
    have hk : s.world.kernel.done[i]? = some ((built l alloc tmo limit t c).block, asked c, ans, direct) := by
      rw [h.kdone, List.getElem?_map, hw]; rfl
    have ha : a.done[i]? = some (t, c, ans) := by rw [h.done, List.getElem?_map, hw]; rfl
    have hmem : (t, c, ans, direct) ∈ d := List.mem_of_getElem? hw
    have hopen : (t, c, if direct then filled c ans else initial c) ∈ opens a.waiting d := by
      simp only [opens, List.mem_append, List.mem_map]
      exact .inl ⟨_, hmem, rfl⟩
    have ho := h.each _ hopen
    have hpos : 0 < limit := Nat.lt_of_lt_of_le (List.length_pos_of_mem hopen) h.le
    have hf := built_fields hroom hl ht (l := l) hpos t c ho.cmd
    have hsep := hroom.one c ho.cmd _ (Nat.mod_lt t hpos)
    have hptr := dataPtr_or l _ _ c tmo hf
    have hsp : sgSensePtr l (built l alloc tmo limit t c).block = (alloc (t % limit)).sense := by
      rw [sgSensePtr, word_lp64, hf.sensePtr, Int.toNat_natCast]
    have hroomq : (asked c).senseRoom = 255 := by cases c <;> rfl
    generalize hm : (if direct = true then s.world.mem else writeMem s.world.mem (word l (built l alloc tmo limit t c).block 16 8)
      (ans.data.take (asked c).fromDevice)) = m
    have hheld : Held (built l alloc tmo limit t c) (alloc (t % limit)) c m (filled c ans) := by
      rw [← hm]
      cases direct with
      | true => exact ho.held
      | false => exact ho.held.store hsep ans _ hptr
    have hget : getOs s.ex ((t % limit : Nat) : Int) = some (built l alloc tmo limit t c) := by
      have hg := ho.get
      simp only at hg
      rw [getOs, if_pos (Int.natCast_nonneg _), Int.toNat_natCast, getOsData, hg]; rfl
    obtain ⟨o, hr1, hr2⟩ := response l parse (alloc (t % limit)) (t % limit) c tmo m ans (getOs s.ex) hget hf hsep hheld
      (h.parses _ hmem)
    have htake : (splice (built l alloc tmo limit t c).block 64 [ans.status]).take 88 = splice (built l alloc tmo limit t c).block 64 [ans.status] :=
      List.take_of_length_le (by rw [splice_length, hf.len]; exact Nat.le_refl _)
    have hrecv : sgReceive (lp64 l) parse (sgQueue l room i) s.ex s.world =
        (.ok (o, t % limit), ⟨writeMem m (alloc (t % limit)).sense (ans.sense.take 255), { s.world.kernel with done := s.world.kernel.done.eraseIdx i }⟩) := by
      simp only [sgReceive, sizeValue, sgQueue, hk, hm, hsp, hroomq, htake]
      rw [← hr1]; rfl
    have hg := ho.get
    simp only at hg
    have hlive : Live.step l parse dev alloc tmo room s (.receive i) =
        ⟨{ s.ex with pending := Dict.erase s.ex.pending (t % limit) },
          ⟨writeMem m (alloc (t % limit)).sense (ans.sense.take 255), { s.world.kernel with done := s.world.kernel.done.eraseIdx i }⟩,
          s.next, s.log ++ [.told t (hear parse c ans)]⟩ := by
      simp only [Live.step, process, hrecv, hg, hr2]
    have hid : Queue.step dev limit (hear parse) a (.receive i) =
        { a with done := a.done.eraseIdx i, log := a.log ++ [.told t (hear parse c ans)] } := by
      simp only [Queue.step, ha]
    have hperm : (opens a.waiting d).Perm ((t, c, if direct then filled c ans else initial c) :: opens a.waiting (d.eraseIdx i)) := by
      unfold opens
      exact List.Perm.append_right _ ((perm_eraseIdx hw).map _)
    have hnd := (hperm.map (fun e => e.1 % limit)).nodup h.slots
    simp only [List.map_cons, List.nodup_cons] at hnd
    have hother : ∀ e ∈ opens a.waiting (d.eraseIdx i), e.1 % limit ≠ t % limit :=
      fun e he heq => hnd.1 (List.mem_map.2 ⟨e, he, heq⟩)
    have hkn : (Dict.keys s.ex.pending).Nodup := h.keys.nodup h.slots
    refine ⟨d.eraseIdx i, ?_⟩
    rw [hlive, hid]
    refine ⟨h.next, h.maxq, h.index, by simp only [h.log], h.dev, ?_, h.kwaiting, ?_, hnd.2, ?_, ?_, ?_, ?_⟩
    · simp only [h.done, map_eraseIdx]
    · simp only [h.kdone, map_eraseIdx]
    · rw [dict_keys_erase _ _ hkn]
      have := (((hperm.map (fun e => e.1 % limit)).symm.trans h.keys).erase (t % limit))
      simpa only [List.map_cons, List.erase_cons_head] using this
    · intro e he
      have hoe := h.each e (hperm.mem_iff.2 (List.mem_cons_of_mem _ he))
      have hne := hother e he
      have hcl := clear_of_ne hroom hl ht hpos hoe.cmd ho.cmd hne
      refine ⟨hoe.cmd, ?_, ?_⟩
      · simp only
        rw [dict_get_erase _ _ _ hkn, if_neg (fun hh => hne hh.symm)]
        exact hoe.get
      · apply Held.other
        · rw [← hm]
          cases direct with
          | true => exact hoe.held
          | false =>
            rcases hptr with hp | hp
            · apply hoe.held.other
              intro r hr
              have hcl := hcl r hr (_, dataSize c) (by simp only [regions, List.mem_cons]; exact .inr (.inr (.inr (.inl rfl))))
              have hfd := fromDevice_le c
              simp only [Clear, hp, List.length_take] at hcl ⊢
              omega
            · rw [hp, List.take_zero, writeMem_nil]; exact hoe.held
        · intro r hr
          have hcl := hcl r hr (_, 255) (by simp only [regions, List.mem_cons]; exact .inr (.inl rfl))
          simp only [Clear, List.length_take] at hcl ⊢
          omega
    · have h1 := hperm.length_eq
      have h3 := h.le
      simp only [List.length_cons] at h1
      simp only; omega
    · intro e he
      exact h.parses e (List.mem_of_mem_eraseIdx he)

theorem inv_run {room : Nat} (hr : limit ≤ room)
    (hparse : ∀ k q, (dev k q).1.status.toNat / 2 % 2 = 1 → ∃ sn, parse (padded 255 (dev k q).1.sense) = .ok sn)
    (ops : List Queue.Op) (hops : ∀ op ∈ ops, Queue.Sends cmds op) (a : Queue.State δ (Told S)) (d : List (Nat × Req × Answer × Bool)) (s : Live δ S)
    (h : Inv l parse alloc tmo limit cmds a d s) (hnw : Queue.NoWrap dev limit (hear parse) a ops) :
    ∃ d', Inv l parse alloc tmo limit cmds (Queue.runFrom dev limit (hear parse) a ops) d' (Live.runFrom l parse dev alloc tmo room s ops) := by
  induction ops generalizing a d s with
  | nil => exact ⟨d, h⟩
  | cons op ops ih =>
    obtain ⟨h1, h2⟩ := hnw
    have hop := hops op List.mem_cons_self
    have hrest := fun o ho => hops o (List.mem_cons_of_mem _ ho)
    cases op with
    | send c => exact ih hrest _ _ _ (inv_send hroom hl ht room hr h c hop h1) h2
    | finish i direct =>
      obtain ⟨d', h'⟩ := inv_finish hroom hl ht room hparse h i direct
      exact ih hrest _ _ _ h' h2
    | receive i =>
      obtain ⟨d', h'⟩ := inv_receive hroom hl ht (dev := dev) room h i
      exact ih hrest _ _ _ h' h2

/-- **C67** (partial: no packet number is reused while in use, cf. `C67_false`). Any number of commands, up to the queue size, outstanding
together on the sg executer, executed by any device in any order, with the data moved directly or through the driver, responses read in any
order: every user observes exactly what the ideal queue shows, so every callback gets the device's answer to its own command (its own data,
its own sense data); the device executes exactly the commands sent, each once and exactly as asked; and the executer lists as pending exactly
the commands outstanding, never more than the queue size. -/
theorem C67_partial {room : Nat} (hr : limit ≤ room)
    (hparse : ∀ k q, (dev k q).1.status.toNat / 2 % 2 = 1 → ∃ sn, parse (padded 255 (dev k q).1.sense) = .ok sn)
    (ops : List Queue.Op) (hops : ∀ op ∈ ops, Queue.Sends cmds op) (m : Mem) (k : δ)
    (hnw : Queue.NoWrap dev limit (hear parse) (Queue.State.init k) ops) :
    let live := Live.runFrom l parse dev alloc tmo room (Live.init limit m k) ops
    let ideal := Queue.run dev limit (hear parse) k ops
    live.log = ideal.log ∧ live.world.kernel.dev = ideal.dev ∧
    live.ex.pending.length = ideal.tickets.length ∧ ideal.tickets.length ≤ limit := by
  intro live ideal
  obtain ⟨d, h⟩ := inv_run (l := l) hroom hl ht hr hparse ops hops _ [] _ (inv_init l parse alloc tmo limit cmds m k) hnw
  have htk := tickets_eq l parse alloc tmo limit cmds h
  refine ⟨h.log, h.dev, ?_, ?_⟩
  · have := h.keys.length_eq
    simp only [Dict.keys, List.length_map] at this
    show _ = ideal.tickets.length
    rw [show ideal.tickets = _ from htk, List.length_map]; exact this.symm
  · rw [show ideal.tickets = _ from htk, List.length_map]; exact h.le

end

/-! ## Devices that answer in order -/

theorem range'_mod {a n limit t next : Nat} (hn : a + n = next) (hl : n < limit) (ht : t ∈ List.range' a n) : t % limit ≠ next % limit := by
  rw [List.mem_range'_1] at ht
  intro h
  have h1 : (next - t) % limit = 0 := Nat.sub_mod_eq_zero_of_mod_eq h.symm
  rw [Nat.mod_eq_of_lt (by omega)] at h1
  omega

/-- When the device executes in order and responses are read in order, the outstanding commands are the most recent ones. -/
theorem noWrap_inOrder {A : Type} (dev : Device δ) (limit : Nat) (hear : Req → Answer → A) (ops : List Queue.Op) (ho : ∀ op ∈ ops, Queue.InOrder op)
    (a : Queue.State δ A) (b n : Nat) (htk : a.tickets = List.range' b n) (hn : b + n = a.next) : Queue.NoWrap dev limit hear a ops := by
  induction ops generalizing a b n with
  | nil => trivial
  | cons op ops ih =>
    have hrest := fun o ho' => ho o (List.mem_cons_of_mem _ ho')
    have hop := ho op List.mem_cons_self
    refine ⟨?_, ?_⟩
    · cases op with
      | send c =>
        intro hlt t ht
        rw [htk] at ht hlt
        rw [List.length_range'] at hlt
        exact range'_mod hn hlt ht
      | finish i direct => trivial
      | receive i => trivial
    · cases op with
      | send c =>
        simp only [Queue.step]
        split
        · exact ih hrest _ b n htk hn
        · refine ih hrest _ b (n + 1) ?_ (by simp only; omega)
          simp only [Queue.State.tickets, List.map_append, List.map_cons, List.map_nil, ← List.append_assoc]
          simp only [Queue.State.tickets] at htk
          rw [htk, List.range'_concat, ← hn, Nat.one_mul]
      | finish i direct =>
        have hi : i = 0 := hop
        subst hi
        cases hw : a.waiting with
        | nil => simp only [Queue.step, hw, List.getElem?_nil]; exact ih hrest _ b n htk hn
        | cons x r =>
          simp only [Queue.step, hw, List.getElem?_cons_zero, List.eraseIdx_cons_zero]
          refine ih hrest _ b n ?_ hn
          simp only [Queue.State.tickets, hw, List.map_cons] at htk
          simp only [Queue.State.tickets, List.map_append, List.map_cons, List.map_nil, List.append_assoc, List.singleton_append]
          exact htk
      | receive i =>
        have hi : i = 0 := hop
        subst hi
        cases hw : a.done with
        | nil =>
          simp only [Queue.step, hw, List.getElem?_nil]
          exact ih hrest _ b n (by rw [← htk]; simp only [Queue.State.tickets, hw]) hn
        | cons x r =>
          simp only [Queue.step, hw, List.getElem?_cons_zero, List.eraseIdx_cons_zero]
          simp only [Queue.State.tickets, hw, List.map_cons, List.cons_append] at htk
          cases n with
          | zero => simp at htk
          | succ n =>
            rw [List.range'_succ] at htk
            simp only [List.cons.injEq] at htk
            refine ih hrest _ (b + 1) n ?_ (by simp only; omega)
            simp only [Queue.State.tickets]
            exact htk.2

/-- **C67 for devices that answer in order**: no further condition. -/
theorem C67_in_order {l : Bool} {parse : Bytes → Py (Option S)} {dev : Device δ} {alloc : Nat → Alloc} {tmo : Int} {limit room : Nat}
    {cmds : Req → Prop} (hroom : Room alloc limit cmds) (hl : limit ≤ 2 ^ 31) (ht : 0 ≤ tmo ∧ tmo < 2 ^ 32) (hr : limit ≤ room)
    (hparse : ∀ k q, (dev k q).1.status.toNat / 2 % 2 = 1 → ∃ sn, parse (padded 255 (dev k q).1.sense) = .ok sn)
    (ops : List Queue.Op) (hops : ∀ op ∈ ops, Queue.Sends cmds op) (ho : ∀ op ∈ ops, Queue.InOrder op) (m : Mem) (k : δ) :
    let live := Live.runFrom l parse dev alloc tmo room (Live.init limit m k) ops
    let ideal := Queue.run dev limit (hear parse) k ops
    live.log = ideal.log ∧ live.world.kernel.dev = ideal.dev :=
  have h := C67_partial hroom hl ht hr hparse ops hops m k (noWrap_inOrder dev limit (hear parse) ops ho _ 0 0 rfl rfl)
  ⟨h.1, h.2.1⟩

/-! ## The hypotheses can be met; and the condition is needed -/

/-- A page of memory for every packet number. -/
def pages (i : Nat) : Alloc := ⟨4096 * i + 4096, 4096 * i + 4352, 4096 * i + 4864, 4096 * i + 5376⟩

/-- Commands that fit such a page. -/
def Small (c : Req) : Prop := c.cdb.length ≤ 255 ∧ dataSize c ≤ 1024

/-- The hypotheses about memory are met, for the default queue size and any larger one that leaves the addresses in range. -/
theorem pages_room (limit : Nat) (h : limit ≤ 2 ^ 31) : Room pages limit Small := by
  refine ⟨fun c h => h.1, fun c h => Nat.lt_of_le_of_lt h.2 (by decide), ?_, ?_⟩
  · rintro c ⟨h1, h2⟩ i hi
    constructor
    · simp only [regions, pages, List.pairwise_cons, List.mem_cons, List.not_mem_nil, or_false, forall_eq_or_imp, forall_eq]
      refine ⟨⟨?_, ?_, ?_⟩, ⟨?_, ?_⟩, ?_, ?_, List.Pairwise.nil⟩
      all_goals first | omega | (intro a ha; simp at ha)
    · simp only [regions, pages, List.mem_cons, List.not_mem_nil, or_false, forall_eq_or_imp, forall_eq]
      omega
  · rintro c c' ⟨h1, h2⟩ ⟨h3, h4⟩ i j hi hj hne
    simp only [regions, pages, List.mem_cons, List.not_mem_nil, or_false, forall_eq_or_imp, forall_eq, Clear]
    have : i < j ∨ j < i := by omega
    rcases this with h | h
    · have : 4096 * i + 4096 ≤ 4096 * j := by omega
      omega
    · have : 4096 * j + 4096 ≤ 4096 * i := by omega
      omega

/-- A device that answers a read with the second byte of its descriptor block. -/
def echo : Device Unit := fun k q => (⟨0, [], (q.cdb.drop 1).take 1⟩, k)

/-- A history with completion out of order that meets the condition, and what is observed in it. -/
example : Queue.NoWrap echo 3 (hear (S := Unit) (fun _ => .ok none)) (Queue.State.init ())
    [.send (.read [8, 65] 1), .send (.read [8, 66] 1), .finish 1 true, .finish 0 false, .receive 0, .send (.read [8, 67] 1), .receive 0] ∧
    (Queue.run echo 3 (hear (S := Unit) (fun _ => .ok none)) ()
    [.send (.read [8, 65] 1), .send (.read [8, 66] 1), .finish 1 true, .finish 0 false, .receive 0, .send (.read [8, 67] 1), .receive 0]).log =
      [.accepted 0, .accepted 1, .told 1 ⟨some (some [66]), none⟩, .accepted 2, .told 0 ⟨some (some [65]), none⟩] := by
  constructor
  · simp [Queue.NoWrap, Queue.step, Queue.State.init, Queue.State.tickets]
  · decide

/-- **C67 is false in general**: with two commands in flight, the younger completing first, the next command gets the packet number of the one
still outstanding; when the old one's response arrives it is handed, with the old one's data, to the callback of the new one, which the device
has not even executed. Every buffer is where it should be and every answer is GOOD. -/
theorem C67_false : ∃ ops : List Queue.Op, (∀ op ∈ ops, Queue.Sends Small op) ∧
    (Live.runFrom true (S := Unit) (fun _ => .ok none) echo pages 30000 16 (Live.init 2 (fun _ => 0) ()) ops).log =
      [.accepted 0, .accepted 1, .told 1 ⟨some (some [66]), none⟩, .accepted 2, .told 2 ⟨some (some [65]), none⟩] ∧
    (Queue.run echo 2 (hear (S := Unit) (fun _ => .ok none)) () ops).log =
      [.accepted 0, .accepted 1, .told 1 ⟨some (some [66]), none⟩, .accepted 2, .told 0 ⟨some (some [65]), none⟩] ∧
    2 ∈ (Queue.run echo 2 (hear (S := Unit) (fun _ => .ok none)) () ops).waiting.map Prod.fst :=
  ⟨[.send (.read [8, 65] 1), .send (.read [8, 66] 1), .finish 1 false, .receive 0, .send (.read [8, 67] 1), .finish 0 false, .receive 0],
    by simp [Queue.Sends, Small, dataSize, Req.cdb], by decide +kernel, by decide, by decide⟩

end Verif.Platform.Linux
