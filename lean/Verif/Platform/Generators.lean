import Verif.ExecuterGenLemmas
import Verif.Platform.Linux
import Verif.Platform.Solaris
import Verif.Platform.Aix
import Verif.Platform.Win32
/-!
# The `_os_send` and `_os_receive` generators of the platforms

`Verif.Platform.*` model them as functions; here they are the generators they are in the code, and shown to compute those
functions.
-/
set_option linter.unusedSimpArgs false

namespace Verif.Platform

open Verif.Executer Verif.Coroutine Verif.ExecuterGen

variable {Q K D E R T ω : Type}

/-- The two generators of the Unix platforms. `_os_send`: `sendIo` happens, its value is yielded, and the generator ends.
`_os_receive`: `raw = yield <recvIo>`, then `yield self._handle_raw_response(raw)` (linux.py:225-226, 272-274, 285-293; solaris.py:196-205,
234-236; aix.py:372-384, 409-411). -/
structure Blocking (Q K D E ω : Type) where
  sendIo : Q → ω → Py Int × ω
  recvIo : St Q (Option K) → ω → Py Bytes × ω
  handle : St Q (Option K) → Bytes → ω → Py (Outcome D E × Nat)

/-- Where these generators are suspended. -/
inductive BlockingGen (Q : Type) where
  | send (q : Q)
  | sent
  | recv
  | recvRaw
  | recvEnd

def Blocking.resume (B : Blocking Q K D E ω) (g : BlockingGen Q) (i : Inp (Val D E R) (Exn E)) (s : St Q (Option K)) (w : ω) :
    ω × Out (BlockingGen Q) (Val D E R) (Exn E) T :=
  match g, i with
  | _, .throw e => (w, .raises e)
  | .send q, .send _ =>
    match B.sendIo q w with
    | (.error e, w') => (w', .raises (.py e))
    | (.ok n, w') => (w', .yields (.plain (.num n)) .sent)
  | .sent, .send _ => (w, .ret)
  | .recv, .send _ =>
    match B.recvIo s w with
    | (.error e, w') => (w', .raises (.py e))
    | (.ok raw, w') => (w', .yields (.plain (.raw raw)) .recvRaw)
  | .recvRaw, .send (.raw raw) =>
    match B.handle s raw w with
    | .error e => (w, .raises (.py e))
    | .ok (o, j) => (w, .yields (.plain (.resp o j)) .recvEnd)
  | .recvRaw, .send _ => (w, .raises (.py .typeError))
  | .recvEnd, .send _ => (w, .ret)

/-- These generators as a platform (they never yield an I/O token). -/
def Blocking.plat (B : Blocking Q K D E ω) : Plat (BlockingGen Q) Q K D E R T ω where
  resume := B.resume
  await _ w := (w, .error (.py .typeError))
  sendGen := .send
  recvGen := .recv

/-- What `_os_send` and `_os_receive` compute. -/
def Blocking.send (B : Blocking Q K D E ω) (q : Q) (w : ω) : Py Unit × ω :=
  match B.sendIo q w with
  | (.error e, w') => (.error e, w')
  | (.ok _, w') => (.ok (), w')

def Blocking.receive (B : Blocking Q K D E ω) (s : St Q (Option K)) (w : ω) : Py (Outcome D E × Nat) × ω :=
  match B.recvIo s w with
  | (.error e, w') => (.error e, w')
  | (.ok raw, w') => (B.handle s raw w', w')

theorem Blocking.implements (B : Blocking Q K D E ω) (m : Mode) :
    Implements m (B.plat : Plat (BlockingGen Q) Q K D E R T ω) B.send B.receive where
  send s q w r := by
    rcases h : B.sendIo q w with ⟨o, w'⟩
    cases o with
    | error e =>
      simp only [Blocking.send, h]
      exact ⟨_, _, .raises (by simp only [Plat.machine, Blocking.plat, Blocking.resume, h]), rfl⟩
    | ok n =>
      simp only [Blocking.send, h]
      exact ⟨_, _, .plain (g' := .sent) (v := .num n) (by simp only [Plat.machine, Blocking.plat, Blocking.resume, h])
        (.ret rfl), _, rfl⟩
  recv s w r := by
    rcases h : B.recvIo s w with ⟨o, w'⟩
    cases o with
    | error e =>
      simp only [Blocking.receive, h]
      exact ⟨_, _, .raises (by simp only [Plat.machine, Blocking.plat, Blocking.resume, h]), rfl⟩
    | ok raw =>
      simp only [Blocking.receive, h]
      cases h2 : B.handle s raw w' with
      | error e =>
        exact ⟨_, _, .plain (g' := .recvRaw) (v := .raw raw) (s1 := w') (by simp only [Plat.machine, Blocking.plat, Blocking.resume, h])
          (.raises (by simp only [Plat.machine, Blocking.plat, Blocking.resume, h2])), rfl⟩
      | ok p =>
        obtain ⟨o, j⟩ := p
        exact ⟨_, _, .plain (g' := .recvRaw) (v := .raw raw) (s1 := w') (by simp only [Plat.machine, Blocking.plat, Blocking.resume, h])
          (.plain (g' := .recvEnd) (v := .resp o j) (by simp only [Plat.machine, Blocking.plat, Blocking.resume, h2]) (.ret rfl)), rfl⟩

variable {S κ : Type}

namespace Linux

/-- The sg executer's generators (linux.py:225-226, 272-274). -/
def sgBlocking (a : Abi) (parse : Bytes → Py (Option S)) (k : SgDriver κ) :
    Blocking Handle K (Option Bytes) (DevErr S) (World κ) where
  sendIo h w :=
    match k.write h.block { w with mem := h.install w.mem } with
    | (.error e, w') => (.error e, w')
    | (.ok (), w') => (.ok h.block.length, w')
  recvIo _ w := k.read (sgioSize a) w
  handle s raw w := toRecv (handleRawResponse a parse (getOs s) w.mem raw)

theorem sgBlocking_send (a : Abi) (parse : Bytes → Py (Option S)) (k : SgDriver κ) :
    (sgBlocking (K := K) a parse k).send = sgSend k := by
  funext h w
  simp only [Blocking.send, sgBlocking, sgSend]
  rcases k.write h.block { w with mem := h.install w.mem } with ⟨o, w'⟩
  cases o <;> rfl

theorem sgBlocking_receive (a : Abi) (parse : Bytes → Py (Option S)) (k : SgDriver κ) :
    (sgBlocking (K := K) a parse k).receive = sgReceive a parse k := by
  funext s w
  simp only [Blocking.receive, sgBlocking, sgReceive]
  rcases k.read (sgioSize a) w with ⟨o, w'⟩
  cases o <;> rfl

/-- The ioctl executer's generators (linux.py:285-293). -/
def ioctlBlocking (a : Abi) (parse : Bytes → Py (Option S)) (k : IoctlDriver κ) :
    Blocking Handle K (Option Bytes) (DevErr S) (IoctlWorld κ) where
  sendIo h w :=
    match k.ioctl h.block { w.world with mem := h.install w.world.mem } with
    | (.error e, w') => (.error e, { world := w', buffer := some h.block })
    | (.ok _, w') => (.ok h.block.length, { world := w', buffer := some h.block })
  recvIo _ w := (match w.buffer with | none => .error .attribute | some raw => .ok raw, w)
  handle s raw w := toRecv (handleRawResponse a parse (getOs s) w.world.mem raw)

theorem ioctlBlocking_send (a : Abi) (parse : Bytes → Py (Option S)) (k : IoctlDriver κ) :
    (ioctlBlocking (K := K) a parse k).send = ioctlSend k := by
  funext h w
  simp only [Blocking.send, ioctlBlocking, ioctlSend]
  rcases k.ioctl h.block { w.world with mem := h.install w.world.mem } with ⟨o, w'⟩
  cases o <;> rfl

theorem ioctlBlocking_receive (a : Abi) (parse : Bytes → Py (Option S)) (k : IoctlDriver κ) :
    (ioctlBlocking (K := K) a parse k).receive = ioctlReceive a parse := by
  funext s w
  simp only [Blocking.receive, ioctlBlocking, ioctlReceive]
  cases w.buffer <;> rfl

end Linux

namespace Solaris

/-- The Solaris executer's generators (solaris.py:196-205, 234-236). -/
def solBlocking (a : Abi) (parse : Bytes → Py (Option S)) (k : TargetDriver κ) :
    Blocking Handle K (Option Bytes) (DevErr S) (SolWorld κ) where
  sendIo h w :=
    match k.ioctl uscsiCmd (h.block ++ [0]) { w.world with mem := h.install w.world.mem } with
    | (.error e, w') => (.error e, { world := w', buffer := some h.block })
    | (.ok raw, w') => (.ok raw.length, { world := w', buffer := some raw })
  recvIo _ w := (match w.buffer with | none => .error .attribute | some raw => .ok raw, w)
  handle s raw w := handleRawResponse a parse (getOsData s 0) w.world.mem raw

theorem solBlocking_send (a : Abi) (parse : Bytes → Py (Option S)) (k : TargetDriver κ) :
    (solBlocking (K := K) a parse k).send = osSend k := by
  funext h w
  simp only [Blocking.send, solBlocking, osSend]
  rcases k.ioctl uscsiCmd (h.block ++ [0]) { w.world with mem := h.install w.world.mem } with ⟨o, w'⟩
  cases o <;> rfl

theorem solBlocking_receive (a : Abi) (parse : Bytes → Py (Option S)) (k : TargetDriver κ) :
    (solBlocking (K := K) a parse k).receive = osReceive a parse := by
  funext s w
  simp only [Blocking.receive, solBlocking, osReceive]
  cases w.buffer <;> rfl

end Solaris

namespace Aix

/-- The AIX executer's generators (aix.py:372-384, 409-411). -/
def aixBlocking (a : Abi) (parse : Bytes → Py (Option S)) (b : Binding) (k : DiskDriver κ) :
    Blocking Handle K (Option Bytes) (DevErr S) (AixWorld κ) where
  sendIo h w :=
    match osSend a b k h w with
    | (.error e, w') => (.error e, w')
    | (.ok (), w') => (.ok h.block.length, w')
  recvIo _ w := (match w.buffer with | none => .error .attribute | some raw => .ok raw, w)
  handle s raw w := handleRawResponse a parse (getOsData s 0) w.world.mem raw

theorem aixBlocking_send (a : Abi) (parse : Bytes → Py (Option S)) (b : Binding) (k : DiskDriver κ) :
    (aixBlocking (K := K) a parse b k).send = osSend a b k := by
  funext h w
  simp only [Blocking.send, aixBlocking]
  rcases osSend a b k h w with ⟨o, w'⟩
  cases o <;> rfl

theorem aixBlocking_receive (a : Abi) (parse : Bytes → Py (Option S)) (b : Binding) (k : DiskDriver κ) :
    (aixBlocking (K := K) a parse b k).receive = osReceive a parse := by
  funext s w
  simp only [Blocking.receive, aixBlocking, osReceive]
  cases w.buffer <;> rfl

end Aix

namespace Win32

/-- Where the Windows executer's generators are suspended (win32.py:369-387): `_os_send` before and after its `yield`;
`_os_receive` before and after the one `yield` it reaches. -/
inductive Gen where
  | send (h : Spt)
  | sent (h : Spt)
  | recv
  | recvEnd

/-- The Windows executer's generators (win32.py:369-387). The completed packet is queued after the yield. -/
def resume (a : Abi) (parse : Bytes → Py (Option S)) (k : PortDriver κ) (g : Gen) (i : Inp (Val (Option Bytes) (DevErr S) R) (Exn (DevErr S)))
    (_ : St Spt (Option K)) (w : WinWorld κ) : WinWorld κ × Out Gen (Val (Option Bytes) (DevErr S) R) (Exn (DevErr S)) T :=
  match g, i with
  | _, .throw e => (w, .raises e)
  | .send h, .send _ =>
    match k.ioctl ioctlCode h.blockAddr (sptSize a) { w.world with mem := h.install w.world.mem } with
    | (.error e, w') => ({ w with world := w' }, .raises (.py e))
    | (.ok (), w') => ({ w with world := w' }, .yields (.plain (.num (sptSize a))) (.sent h))
  | .sent h, .send _ => ({ w with incoming := h :: w.incoming }, .ret)
  | .recv, .send _ =>
    match w.incoming with
    | [] => (w, .raises (.py .indexError))
    | h :: r =>
      match classify a parse h w.world.mem with
      | .ok o => ({ w with incoming := r }, .yields (.plain (.resp o h.packetId)) .recvEnd)
      | .error e => ({ w with incoming := r }, .raises (.py e))
  | .recvEnd, .send _ => (w, .ret)

def winPlat (a : Abi) (parse : Bytes → Py (Option S)) (k : PortDriver κ) :
    Plat Gen Spt K (Option Bytes) (DevErr S) R T (WinWorld κ) where
  resume := resume a parse k
  await _ w := (w, .error (.py .typeError))
  sendGen := .send
  recvGen := .recv

theorem winPlat_implements (a : Abi) (parse : Bytes → Py (Option S)) (k : PortDriver κ) (m : Mode) :
    Implements m (winPlat a parse k : Plat Gen Spt K (Option Bytes) (DevErr S) R T (WinWorld κ)) (osSend a k) (osReceive a parse) where
  send s h w r := by
    rcases hk : k.ioctl ioctlCode h.blockAddr (sptSize a) { w.world with mem := h.install w.world.mem } with ⟨o, w'⟩
    cases o with
    | error e =>
      simp only [osSend, hk]
      exact ⟨_, _, .raises (by simp only [Plat.machine, winPlat, resume, hk]), rfl⟩
    | ok u =>
      simp only [osSend, hk]
      exact ⟨_, _, .plain (g' := .sent h) (v := .num (sptSize a)) (by simp only [Plat.machine, winPlat, resume, hk]; rfl)
        (.ret rfl), _, rfl⟩
  recv s w r := by
    cases hw : w.incoming with
    | nil =>
      simp only [osReceive, hw]
      exact ⟨_, _, .raises (by simp only [Plat.machine, winPlat, resume, hw]), rfl⟩
    | cons h rest =>
      simp only [osReceive, hw]
      cases hc : classify a parse h w.world.mem with
      | error e => exact ⟨_, _, .raises (by simp only [Plat.machine, winPlat, resume, hw, hc]), rfl⟩
      | ok o =>
        exact ⟨_, _, .plain (g' := .recvEnd) (v := .resp o h.packetId) (by simp only [Plat.machine, winPlat, resume, hw, hc]) (.ret rfl), rfl⟩

end Win32

end Verif.Platform
