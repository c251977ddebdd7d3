import Verif.Props.WindowsAsync
/-! # C61: one command at a time on an asynchronous Windows file, against the synchronous one -/
set_option linter.unusedSimpArgs false
set_option linter.unusedSectionVars false

namespace Verif.WindowsAsync
open Verif.Executer Verif.ExecuterGen Verif.Coroutine Verif.Platform Verif.Platform.Win32 Verif.Spec

variable {S R K κ δ : Type} [DecidableEq K]

/-- `_os_send` on an asynchronous file, run by `sync_wait` (win32.py:162-171, 140-150 and `Win32CommandExecuter._os_send`): the token is waited for,
what `get_result` returns is not looked at. -/
def asyncOsSend (a : Abi) (io : IoManager κ) (h : Spt) (w : AsyncWorld κ) : Py Unit × AsyncWorld κ :=
  match io.deviceIoControl ioctlCode h.blockAddr (sptSize a) w.events { w.world with mem := h.install w.world.mem } with
  | (.pending, w') => (.ok (), { world := (io.getOverlappedResult w.events w').2, incoming := h :: w.incoming, events := w.events + 1 })
  | (_, w') => (.error .asiOs, { w with world := w', events := w.events + 1 })

/-- `_os_receive` (win32.py, `Win32CommandExecuter._os_receive`): the request sent last, as it stands in memory now. -/
def asyncOsReceive (a : Abi) (parse : Bytes → Py (Option S)) (_ : St Spt (Option K)) (w : AsyncWorld κ) :
    Py (Outcome (Option Bytes) (DevErr S) × Nat) × AsyncWorld κ :=
  match w.incoming with
  | [] => (.error .indexError, w)
  | h :: r =>
    match classify a parse h w.world.mem with
    | .ok o => (.ok (o, h.packetId), { w with incoming := r })
    | .error e => (.error e, { w with incoming := r })

theorem asyncPlat_implements (a : Abi) (parse : Bytes → Py (Option S)) (io : IoManager κ) (m : Mode) :
    Implements m (asyncPlat a parse io : Plat AsyncGen Spt K (Option Bytes) (DevErr S) R Nat (AsyncWorld κ)) (asyncOsSend a io)
      (asyncOsReceive a parse) where
  send s h w r := by
    rcases hk : io.deviceIoControl ioctlCode h.blockAddr (sptSize a) w.events { w.world with mem := h.install w.world.mem } with ⟨o, w'⟩
    cases o with
    | pending =>
      simp only [asyncOsSend, hk]
      refine ⟨_, _, .call (child := .ioctl h) (g' := .sent h) rfl
        (.io (t := w.events) (g' := .ioctlEnd) (s1 := { w with world := w', events := w.events + 1 })
          (i' := .send (.num (io.getOverlappedResult w.events w').1.2))
          (s2 := { w with world := (io.getOverlappedResult w.events w').2, events := w.events + 1 })
          ?_ rfl (.ret rfl)) (i' := .send (.num (io.getOverlappedResult w.events w').1.2)) rfl (.ret rfl), _, rfl⟩
      simp only [Plat.machine, asyncPlat, asyncResume, hk]
    | completed =>
      simp only [asyncOsSend, hk]
      refine ⟨_, _, .call (child := .ioctl h) (g' := .sent h) (fc := .raised (.py .asiOs)) rfl (.raises ?_) (i' := .throw (.py .asiOs)) rfl (.raises rfl), rfl⟩
      simp only [Plat.machine, asyncPlat, asyncResume, hk]
    | failed =>
      simp only [asyncOsSend, hk]
      refine ⟨_, _, .call (child := .ioctl h) (g' := .sent h) (fc := .raised (.py .asiOs)) rfl (.raises ?_) (i' := .throw (.py .asiOs)) rfl (.raises rfl), rfl⟩
      simp only [Plat.machine, asyncPlat, asyncResume, hk]
  recv s w r := by
    cases hw : w.incoming with
    | nil =>
      simp only [asyncOsReceive, hw]
      exact ⟨_, _, .raises (by simp only [Plat.machine, asyncPlat, asyncResume, hw]), rfl⟩
    | cons h rest =>
      simp only [asyncOsReceive, hw]
      cases hc : classify a parse h w.world.mem with
      | error e => exact ⟨_, _, .raises (by simp only [Plat.machine, asyncPlat, asyncResume, hw, hc]), rfl⟩
      | ok o =>
        exact ⟨_, _, .plain (g' := .recvEnd) (v := .resp o h.packetId) (by simp only [Plat.machine, asyncPlat, asyncResume, hw, hc]) (.ret rfl), rfl⟩

/-- `call` on an idle executer when the request was submitted. -/
theorem call_async (a : Abi) (parse : Bytes → Py (Option S)) (io : IoManager κ) (alloc : Nat → Alloc) (c : Req) (s : St Spt (Option K))
    (w : AsyncWorld κ) (hs : s.pending = []) (hq : 0 < s.maxq) (h : Spt) (hc : create a (alloc s.index) s.index c = .ok h)
    (hid : h.packetId = s.index) {w1 : AsyncWorld κ} (hsend : asyncOsSend a io h w = (.ok (), w1)) (hinc : w1.incoming = h :: w.incoming) :
    let x := call (prepare a alloc c) (asyncOsSend a io) (asyncOsReceive a parse) s w
    x.out = clsOut (classify a parse h w1.world.mem) ∧ x.os = { w1 with incoming := w.incoming } ∧
      ((∀ e, x.out ≠ .error (.py e)) → x.st = { s with index := (s.index + 1) % s.maxq }) := by
  intro x
  have hx := call_idle (prepare a alloc c) (asyncOsSend a io) (asyncOsReceive a parse) s w hs hq h hc
  rw [hsend] at hx
  simp only [oneFlight, asyncOsReceive, hinc] at hx
  cases hcl : classify a parse h w1.world.mem with
  | error e =>
    rw [hcl] at hx
    simp only at hx
    have hx' : x = _ := hx
    rw [hx']
    exact ⟨rfl, rfl, fun h => absurd rfl (h e)⟩
  | ok o =>
    rw [hcl] at hx
    simp only [hid, if_true] at hx
    have hx' : x = _ := hx
    rw [hx']
    refine ⟨?_, rfl, fun _ => ?_⟩
    · cases o <;> rfl
    · simp only [hs]

/-- An executer on an asynchronous file, at rest in front of the device in state `k`. -/
def FileIdle (s : St Spt (Option K)) (o : AsyncWorld (IoKernel δ)) (k : δ) : Prop :=
  s.pending = [] ∧ 0 < s.maxq ∧ o.world.kernel.flying = [] ∧ o.world.kernel.dev = k

theorem async_faithful (b : Bool) (parse : Bytes → Py (Option S)) (dev : Device δ) (alloc : Nat → Alloc) :
    Faithful (K := K) (prepare (Win32.W b) alloc) (asyncOsSend (Win32.W b) (ioDevice b dev)) (asyncOsReceive (Win32.W b) parse)
      dev (winOutcome parse) (WindowsOk b alloc) FileIdle := by
  rintro c s ⟨⟨m, k', fl, ld⟩, inc, ev⟩ k ⟨h1, h2, h3⟩ ⟨hs, hq, hfl, hk⟩
  simp only at hk hfl
  subst hk hfl
  obtain ⟨-, hx⟩ := win_apart (h3 s.index)
  obtain ⟨h, hc, hb⟩ := create_built b (alloc s.index) s.index c h1 h2 hx
  obtain ⟨m', hio, -, hcls⟩ := device_serves parse dev h1 h2 (h3 s.index) hc (h.install m) k' (install_install hb m)
  have hland : Spec.land b dev (ev, h.blockAddr) { mem := h.install m, kernel := { dev := k', flying := [(ev, h.blockAddr)], landed := ld } } =
      { mem := m', kernel := { dev := (dev k' (asked c)).2, flying := [], landed := (ev, true) :: ld } } := by
    simp only [Spec.land, hio]
    simp [Except.isOk, Except.toBool]
  have hsend : asyncOsSend (Win32.W b) (ioDevice b dev) h { world := { mem := m, kernel := { dev := k', flying := [], landed := ld } }, incoming := inc, events := ev } =
      (.ok (), { world := { mem := m', kernel := { dev := (dev k' (asked c)).2, flying := [], landed := (ev, true) :: ld } },
                 incoming := h :: inc, events := ev + 1 }) := by
    simp only [asyncOsSend, ioDevice, AsyncInv.sptSize_W]
    rw [if_neg (by simp [ioctlCode])]
    simp only [List.nil_append, landNow, List.find?_cons, beq_self_eq_true]
    rw [hland]
  obtain ⟨r1, r2, r3⟩ := call_async (Win32.W b) parse (ioDevice b dev) alloc c s _ hs hq h hc hb.id hsend rfl
  refine ⟨r1.trans hcls, fun hne => ?_⟩
  rw [r3 hne, r2]
  exact ⟨hs, hq, rfl, rfl⟩

/-- **C61 (partial)**: on an asynchronous file whose requests are pended and then completed by the device, any sequence of commands, each run
with `sync_wait(cmd.execute(executer))`, behaves as on a synchronous file (C51 on Windows): the device gets exactly the requests that can be
built, in order, and every caller gets its own command's answer. Missing: requests that the operating system completes at once, or that
complete with an error (`C61_completed_at_once_false`, `C61_error_lost_false`). -/
theorem C61_device_partial (b : Bool) (parse : Bytes → Py (Option S)) (dev : Device δ) (alloc : Nat → Alloc)
    (hparse : ∀ k q, (dev k q).1.status = 2 → ∃ sn, parse (padded 255 (dev k q).1.sense) = .ok sn)
    (cmds : List (Command Req (Option Bytes) R)) (hok : ∀ c ∈ cmds, ∀ q, c.request = .ok q → WindowsOk b alloc q)
    (w : ExecuterGen.W Spt K (Option Bytes) (DevErr S) (AsyncWorld (IoKernel δ))) (k : δ) (hw : FileIdle w.st w.os k) :
    ∃ w', RunAll (machine (asyncPlat (Win32.W b) parse (ioDevice b dev)) (prepare (Win32.W b) alloc)) cmds w
        (askAll dev (winOutcome parse) cmds k).1 w' ∧
      FileIdle w'.st w'.os (askAll dev (winOutcome parse) cmds k).2 :=
  C51_session (asyncPlat_implements (R := R) (Win32.W b) parse (ioDevice b dev) .actual) (async_faithful b parse dev alloc)
    (fun c k _ => winOutcome_ne parse c _ (hparse k (asked c))) cmds hok w k hw

/-- What a caller makes of a request block and buffer nobody touched: as many zeros as it asked to read. -/
def untouched (c : Req) : Option Bytes :=
  match c with
  | .read _ n => if n > 0 then some (zeros n.toNat) else none
  | .write _ _ => none

theorem classify_untouched {b : Bool} {h : Spt} {al : Alloc} {id : Nat} {c : Req} (hb : Built b h al id c) (parse : Bytes → Py (Option S))
    (hsep : al.block + (osz b + 255) ≤ al.data ∨ al.data + dataSize c ≤ al.block) (m : Mem) :
    classify (Win32.W b) parse h (h.install m) = .ok (.data (untouched c)) := by
  have hf := hb.fields
  have hraw : readMem (h.install m) h.blockAddr h.block.length = h.block := by
    unfold Spt.install
    exact readMem_writeMem_same ..
  rw [classify_eq]
  simp only [hraw]
  have e1 : word true h.block 2 1 = 0 := by rw [word_W b, hf.status]; rfl
  have e2 : word true h.block 8 1 = (dirOf c).toNat := by rw [word_W b, hf.dir]
  have e3 : word true h.block 12 4 = dataSize c := by rw [word_W b, hf.dataLen]; rfl
  rw [e1, e2, e3, if_neg (by decide), if_neg (by simp)]
  cases c with
  | write cdb d =>
    rw [if_neg (by simp only [dirOf]; split <;> simp)]
    rfl
  | read cdb n =>
    by_cases hn : n > 0
    · rw [if_pos ⟨by simp [dirOf, hn], by simp only [dataSize]; omega⟩]
      have hd : h.data = some (al.data, zeros n.toNat) := by rw [hb.data]; simp [bufOf, hn]
      simp only [cutData, hd, untouched, hn, if_true]
      have : readMem (h.install m) al.data (zeros n.toNat).length = zeros n.toNat := by
        unfold Spt.install
        rw [hd, hb.blockAddr]
        simp only [dataSize] at hsep
        simp only
        rw [readMem_writeMem_other (by rw [hf.len]; simp only [zeros, List.length_replicate]; omega), readMem_writeMem_same]
      rw [this]
      simp [dataSize, zeros]
    · rw [if_neg (by simp [dirOf, hn])]
      simp [untouched, hn]

/-- **C61 is false (a)**: `WinAsyncIOToken.get_result` does not look at what `GetOverlappedResult` returns. Whenever an overlapped request
fails without having transferred anything, the command is reported a success all the same: a write as done, a read with as many zeros as were
asked for, handed to the command's decoding like data from the device. -/
theorem C61_error_lost_false (b : Bool) (parse : Bytes → Py (Option S)) (io : IoManager κ) (alloc : Nat → Alloc) (cmd : Command Req (Option Bytes) R)
    (c : Req) (hreq : cmd.request = .ok c) (hok : WindowsOk b alloc c)
    (w : ExecuterGen.W Spt K (Option Bytes) (DevErr S) (AsyncWorld κ)) (hidle : w.st.pending = []) (hq : 0 < w.st.maxq)
    (hfail : ∀ addr size m, ∃ w1 w2 n, io.deviceIoControl 0x4D014 addr size w.os.events { w.os.world with mem := m } = (.pending, w1) ∧
      io.getOverlappedResult w.os.events w1 = ((false, n), w2) ∧ w2.mem = m) :
    ∃ f, SyncWait (machine (asyncPlat (Win32.W b) parse io) (prepare (Win32.W b) alloc)) (.execute cmd) w f ∧
      answer f = decoded cmd (.ok (some (untouched c))) ∧ (world f).st.pending = [] := by
  obtain ⟨h1, h2, h3⟩ := hok
  obtain ⟨ha, hx⟩ := win_apart (h3 w.st.index)
  obtain ⟨h, hc, hb⟩ := create_built b (alloc w.st.index) w.st.index c h1 h2 hx
  obtain ⟨w1, w2, n, hd, hg, hm⟩ := hfail h.blockAddr (sptSize (Win32.W b)) (h.install w.os.world.mem)
  have hsend : asyncOsSend (Win32.W b) io h w.os = (.ok (), { world := w2, incoming := h :: w.os.incoming, events := w.os.events + 1 }) := by
    simp only [asyncOsSend, ioctlCode, hd, hg]
  obtain ⟨f, hf, r1, r2, -, -⟩ := execute_ok (asyncPlat_implements (R := R) (Win32.W b) parse io .actual) cmd (prepare (Win32.W b) alloc) w hreq
  obtain ⟨q1, -, q3⟩ := call_async (Win32.W b) parse io alloc c w.st w.os hidle hq h hc hb.id hsend rfl
  simp only [hm] at q1
  rw [classify_untouched hb parse ha] at q1
  simp only [clsOut] at q1
  refine ⟨f, hf, ?_, ?_⟩
  · rw [r1, q1]
  · rw [r2, q3 (by rw [q1]; simp)]
    exact hidle

/-- **C61 is false (b)**: a request that the operating system completes at once (`DeviceIoControl` returns TRUE) raises `AsiWin32OSError`,
whatever the device did and answered: it is left as after executing the command. -/
theorem C61_completed_at_once_false (b : Bool) (parse : Bytes → Py (Option S)) (io : IoManager κ) (alloc : Nat → Alloc) (cmd : Command Req (Option Bytes) R)
    (c : Req) (hreq : cmd.request = .ok c) (hok : WindowsOk b alloc c)
    (w : ExecuterGen.W Spt K (Option Bytes) (DevErr S) (AsyncWorld κ)) (hidle : w.st.pending = []) (hq : 0 < w.st.maxq)
    (after : World κ → World κ)
    (hdone : ∀ addr size w', io.deviceIoControl 0x4D014 addr size w.os.events w' = (.completed, after w')) :
    ∃ f h, create (Win32.W b) (alloc w.st.index) w.st.index c = .ok h ∧
      SyncWait (machine (asyncPlat (Win32.W b) parse io) (prepare (Win32.W b) alloc)) (.execute cmd) w f ∧
      answer f = .error (.py .asiOs) ∧ (world f).os.world = after { w.os.world with mem := h.install w.os.world.mem } := by
  obtain ⟨h1, h2, h3⟩ := hok
  obtain ⟨ha, hx⟩ := win_apart (h3 w.st.index)
  obtain ⟨h, hc, hb⟩ := create_built b (alloc w.st.index) w.st.index c h1 h2 hx
  obtain ⟨f, hf, -, hr⟩ := C51_execute (asyncPlat_implements (R := R) (Win32.W b) parse io .actual) (prepare (Win32.W b) alloc) cmd w hidle hq
  have hp : prepare (Win32.W b) alloc c w.st.index = .ok h := hc
  simp only [hreq, hp] at hr
  obtain ⟨-, hr⟩ := hr
  have hsend : asyncOsSend (Win32.W b) io h w.os =
      (.error .asiOs, { w.os with world := after { w.os.world with mem := h.install w.os.world.mem }, events := w.os.events + 1 }) := by
    simp only [asyncOsSend, ioctlCode, hdone]
  rw [hsend] at hr
  refine ⟨f, h, hc, hf, hr.1, ?_⟩
  rw [hr.2.1]

/-- An I/O manager in front of a device that was unplugged: every request is accepted, fails later, and moves no data. -/
def unplugged : IoManager Nat where
  deviceIoControl _ _ _ _ w := (.pending, { w with kernel := w.kernel + 1 })
  getOverlappedResult _ w := ((false, 0), w)

/-- An I/O manager that serves requests at once; the kernel state counts those executed. -/
def prompt : IoManager Nat where
  deviceIoControl _ _ _ _ w := (.completed, { w with kernel := w.kernel + 1 })
  getOverlappedResult _ w := ((true, 0), w)

/-- A placement of requests in memory; one command at a time reuses it. -/
def onePlace (_ : Nat) : Alloc := { block := 4096, sense := 0, cmd := 0, data := 8192 }

def restWorld {κ : Type} (k : κ) : ExecuterGen.W Spt Nat (Option Bytes) (DevErr Bytes) (AsyncWorld κ) :=
  { st := { pending := [], index := 0, maxq := 1 }, os := { world := { mem := fun _ => 0xEE, kernel := k }, incoming := [], events := 0 },
    fired := [], box := fun _ => [] }

/-- READ(10) of one block, giving the data to the caller. -/
def readBlock : Command Req (Option Bytes) (Option Bytes) :=
  { request := .ok (.read [0x28, 0, 0, 0, 0, 7, 0, 0, 1, 0] 512), decode := fun d => .ok (d.getD none) }

theorem readBlock_ok (b : Bool) : WindowsOk b onePlace (.read [0x28, 0, 0, 0, 0, 7, 0, 0, 1, 0] 512) := by
  refine ⟨by decide, by decide, fun i => ⟨?_, ?_⟩⟩
  · cases b <;> simp [winRegions, onePlace, dataSize]
  · cases b <;> simp [winRegions, onePlace, dataSize, bits]

/-- A block read from an unplugged device: 512 zeros, and no exception. -/
example (b : Bool) : ∃ f, SyncWait (machine (asyncPlat (Win32.W b) (fun s => .ok (some s)) unplugged) (prepare (Win32.W b) onePlace))
    (.execute readBlock) (restWorld 0) f ∧ answer f = .ok (some (.obj (some (zeros 512)))) := by
  obtain ⟨f, h, ha, -⟩ := C61_error_lost_false b (fun s => .ok (some s)) unplugged onePlace readBlock _ rfl (readBlock_ok b) (restWorld 0) rfl (by decide)
    (fun addr size m => ⟨_, _, _, rfl, rfl, rfl⟩)
  exact ⟨f, h, by rw [ha]; rfl⟩

/-- A request completed at once: executed (the count is one), and reported as failed. -/
example (b : Bool) : ∃ f, SyncWait (machine (asyncPlat (Win32.W b) (fun s => .ok (some s)) prompt) (prepare (Win32.W b) onePlace))
    (.execute readBlock) (restWorld 0) f ∧ answer f = .error (.py .asiOs) ∧ (world f).os.world.kernel = 1 := by
  obtain ⟨f, h, -, hs, ha, hw⟩ := C61_completed_at_once_false b (fun s => .ok (some s)) prompt onePlace readBlock _ rfl (readBlock_ok b) (restWorld 0) rfl
    (by decide) (fun w => { w with kernel := w.kernel + 1 }) (fun _ _ _ => rfl)
  exact ⟨f, hs, ha, by rw [hw]; rfl⟩

/-- Three blocks read one after the other from a device that serves pended requests. -/
example (b : Bool) : ∃ w', RunAll (machine (asyncPlat (Win32.W b) (fun s => .ok (some s)) (ioDevice b Linux.toyDevice)) (prepare (Win32.W b) onePlace))
    [readBlock, readBlock, readBlock] (restWorld { dev := 0, flying := [], landed := [] })
    (askAll Linux.toyDevice (winOutcome fun s => .ok (some s)) [readBlock, readBlock, readBlock] 0).1 w' := by
  obtain ⟨w', h, -⟩ := C61_device_partial (R := Option Bytes) (K := Nat) b (fun s => .ok (some s)) Linux.toyDevice onePlace (fun _ _ _ => ⟨_, rfl⟩)
    [readBlock, readBlock, readBlock] (by
      intro c hc q hq
      simp only [List.mem_cons, List.not_mem_nil, or_false, or_self] at hc
      subst hc
      cases hq
      exact readBlock_ok b) (restWorld { dev := 0, flying := [], landed := [] }) 0 ⟨rfl, by decide, rfl, rfl⟩
  exact ⟨w', h⟩

end Verif.WindowsAsync
