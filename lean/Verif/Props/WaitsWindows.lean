import Verif.Props.Waits
import Verif.Props.WindowsAsyncFile
/-!
# C77 on Windows: one command on each of more than 64 asynchronous files

`async_wait(cmd.execute(executer) ...)` with an executer, a file and a device for every command: the program of C60 under the reactor that calls
the real `WaitForMultipleObjects`.
-/
set_option linter.unusedSimpArgs false

namespace Verif.ReactorWaits
open Verif.Executer Verif.ExecuterGen Verif.Coroutine Verif.Platform Verif.Platform.Win32 Verif.Spec Verif.WindowsAsync
open Verif.Reactor (asyncLoop_det)

variable {S R δ : Type} {b : Bool} {parse : Bytes → Py (Option S)} {dev : Device δ} {alloc : Nat → Alloc}

/-- The code every command's coroutine runs (each in a world of its own). -/
abbrev onFile (b : Bool) (parse : Bytes → Py (Option S)) (dev : Device δ) (alloc : Nat → Alloc) :
    Machine (Frame Req Spt Nat (Option Bytes) R AsyncGen) (World' S δ) (Val (Option Bytes) (DevErr S) R) (Exn (DevErr S)) Nat :=
  machine (asyncPlat (Win32.W b) parse (ioDevice b dev)) (prepare (Win32.W b) alloc) none

/-- What one command on an executer at rest does: it comes to a token named by the next event handle, its request in flight; and there is no other
token. -/
theorem one_token {c : Command Req (Option Bytes) R} {q : Req} {w : World' S δ} {k : δ} (hw : AsyncIdle w k)
    (hq : c.request = .ok q) (hok : WindowsOk b alloc q) :
    (∃ cfg, AsyncLoop (onFile b parse dev alloc) (start (onFile b parse dev alloc) (Frame.execute c) w) (.blocked w.os.events cfg) ∧
      ∃ p, cfg.st.os.world.kernel.flying = [p] ∧ cfg.st.os.world.kernel.dev = k ∧
        (land b dev p cfg.st.os.world).kernel.dev = (dev k (asked q)).2) ∧
    ∀ t, Waits (onFile b parse dev alloc) (start (onFile b parse dev alloc) (Frame.execute c) w) t → t = w.os.events := by
  obtain ⟨hp, hlt, hinc, hfly, -, hdev⟩ := hw
  obtain ⟨h1, h2, h3⟩ := hok
  obtain ⟨-, hx⟩ := win_apart (h3 w.st.index)
  obtain ⟨h, hc, hb⟩ := create_built b (alloc w.st.index) w.st.index q h1 h2 hx
  obtain ⟨m', hio, -, -⟩ := device_serves parse dev h1 h2 (h3 w.st.index) hc (h.install w.os.world.mem) k (install_install hb w.os.world.mem)
  have hstart := AsyncRun.start_blocked (a := Win32.W b) (parse := parse) (io := ioDevice b dev) (alloc := alloc) (own := none) hq w
    (by rw [hp]; simp; omega) hc
    (w1 := { mem := h.install w.os.world.mem,
             kernel := { w.os.world.kernel with flying := w.os.world.kernel.flying ++ [(w.os.events, h.blockAddr)] } }) (by
      simp only [ioDevice, AsyncInv.sptSize_W]
      rw [if_neg (by simp [ioctlCode])])
  refine ⟨⟨_, hstart, (w.os.events, h.blockAddr), by simp [AsyncRun.submittedWorld, hfly], hdev, ?_⟩, ?_⟩
  · simp only [land, AsyncRun.submittedWorld]
    rw [hdev, hio]
  · rintro t ⟨x, y, hcome, hblk⟩
    have key : ∀ {a x}, Comes (onFile (R := R) b parse dev alloc) a x → a = start (onFile b parse dev alloc) (Frame.execute c) w →
        x = a ∨ ∀ t y, ¬ AsyncLoop (onFile b parse dev alloc) x (.blocked t y) := by
      intro a x hcome ha
      subst ha
      induction hcome with
      | refl => exact .inl rfl
      | @io x t y s' i _ hl haw ih =>
        rcases ih with rfl | hno
        · right
          intro t' y' hl'
          have := asyncLoop_det hl hstart; cases this
          simp only [onFile, machine, asyncPlat, getResult, Prod.mk.injEq, Except.ok.injEq] at haw
          obtain ⟨rfl, rfl⟩ := haw
          simp only at hl'
          generalize hw' : ({ AsyncRun.submittedWorld none h w _ with os := _ } : World' S δ) = w' at hl'
          have hst : w'.st = (AsyncRun.submittedWorld (S := S) none h w w.os.world).st := by rw [← hw']; rfl
          have hin' : w'.os.incoming = [] := by rw [← hw']; exact hinc
          have hbx : w'.box none = [] := by rw [← hw']; simp [AsyncRun.submittedWorld, setBox]
          have hpd : Dict.get w'.st.pending w.st.index = some (h, some none) := by
            rw [hst]; simp [AsyncRun.submittedWorld, hp, Dict.set, Dict.get]
          cases hd : decoded c (clsOut (classify (Win32.W b) parse h w'.os.world.mem)) with
          | error e =>
            obtain ⟨w2, hr, -⟩ := AsyncRun.finish_raised (io := ioDevice b dev) (alloc := alloc) w' hin' hbx hb.id hpd hd
            have := asyncLoop_det hl' hr; cases this
          | ok v =>
            obtain ⟨r', rfl⟩ := AsyncInv.decoded_ok hd
            obtain ⟨args, hr⟩ := AsyncRun.finish_done (io := ioDevice b dev) (alloc := alloc) w' hin' hbx hb.id hpd hd
            have := asyncLoop_det hl' hr; cases this
        · exact absurd hl (hno t y)
    rcases key hcome rfl with rfl | hno
    · have := asyncLoop_det hblk hstart; cases this; rfl
    · exact absurd hblk (hno t y)

/-- **C77 is false on Windows**: give `wait_for` one command for each of more than 64 devices, every executer at rest, every request one that
can be built, and no two open event handles the same. Then all requests are put in flight, `wait_for` raises `AsiWin32OSError`, whatever the devices and
the operating system do, and never returns. Each device carries out its command all the same, as soon as it gets to it. -/
theorem C77_windows_false {cmd : Nat → Command Req (Option Bytes) R} {cmds : List Nat} {w : Nat → World' S δ} {k : Nat → δ} {q : Nat → Req}
    (hn : cmds.Nodup) (hmany : 64 < cmds.length) (hw : ∀ c ∈ cmds, AsyncIdle (w c) (k c))
    (hev : ∀ c ∈ cmds, ∀ d ∈ cmds, c ≠ d → (w c).os.events ≠ (w d).os.events)
    (hq : ∀ c ∈ cmds, (cmd c).request = .ok (q c)) (hok : ∀ c ∈ cmds, WindowsOk b alloc (q c)) :
    (∀ n rs, ¬ WaitFor (onFile b parse dev alloc) (fun e => e) (fun c => Frame.execute (cmd c)) w cmds n rs) ∧
    (∃ st, Run (onFile b parse dev alloc) (fun e => e) (fun c => Frame.execute (cmd c)) w cmds 0 st) ∧
    ∀ n st, Run (onFile b parse dev alloc) (fun e => e) (fun c => Frame.execute (cmd c)) w cmds n st → n = 0 ∧
      (∀ ready r, WaitAny ready (handles (fun e => e) st.coroutines) r → waitForEvents (onFile b parse dev alloc) (fun e => e) st.coroutines r = .osError) ∧
      ∀ c ∈ cmds, ∃ cfg p, Dict.get st.coroutines c = some cfg ∧ cfg.st.os.world.kernel.flying = [p] ∧
        cfg.st.os.world.kernel.dev = k c ∧ (land b dev p cfg.st.os.world).kernel.dev = (dev (k c) (asked (q c))).2 := by
  have hone := fun c hc => one_token (parse := parse) (dev := dev) (hw c hc) (hq c hc) (hok c hc)
  have ha : Apart (onFile b parse dev alloc) (fun e => e) (fun c => Frame.execute (cmd c)) w cmds := by
    intro c hc d hd hcd t u ht hu
    rw [(hone c hc).2 t ht, (hone d hd).2 u hu]
    exact hev c hc d hd hcd
  obtain ⟨h1, h2⟩ := many_raise hn ha hn (fun _ h => h) hmany (fun c hc => by
    obtain ⟨⟨cfg, h, -⟩, -⟩ := hone c hc
    exact ⟨_, cfg, h⟩)
  refine ⟨h1, ?_, ?_⟩
  · obtain ⟨st, hf⟩ := forLoop_exists (M := onFile b parse dev alloc) cmds
      (Reactor.initial (onFile b parse dev alloc) (fun c => Frame.execute (cmd c)) w cmds) hn (fun c hc => by
        obtain ⟨⟨cfg, h, -⟩, -⟩ := hone c hc
        exact ⟨_, _, cfg, initial_get hn hc, h⟩)
    exact ⟨st, .first hf⟩
  · intro n st hst
    obtain ⟨h3, h4, h5⟩ := h2 n st hst
    refine ⟨h3, h4, fun c hc => ?_⟩
    obtain ⟨t, cfg, hb, hg⟩ := h5 c hc
    obtain ⟨⟨cfg', hb', p, hp⟩, -⟩ := hone c hc
    have := asyncLoop_det hb hb'; cases this
    exact ⟨_, p, hg, hp⟩

/-! ## The hypotheses are met -/

/-- The executer of the `c`-th device, the next event handle being `4 * (c + 1)`. -/
def fileWorld (c : Nat) : World' Bytes Nat :=
  { st := { pending := [], index := 0, maxq := 15 },
    os := { world := { mem := fun _ => 0, kernel := { dev := 0, flying := [], landed := [] } }, incoming := [], events := 4 * (c + 1) },
    fired := [], box := fun _ => [] }

def fileAlloc (_ : Nat) : Alloc := { block := 4096, sense := 0, cmd := 0, data := 8192 }

/-- 65 INQUIRY commands to 65 devices, 32 or 64 bit. -/
example (b : Bool) (n rs) : ¬ WaitFor (onFile (R := Nat) b (fun s => .ok (some s)) Linux.toyDevice fileAlloc) (fun e => e)
    (fun c => Frame.execute (toyCommand c)) fileWorld (List.range 65) n rs := by
  refine (C77_windows_false (q := fun c => .read [0x12, 0, 0, 0, (if c = 7 then 36 else 5 : Nat).toUInt8, 0] (if c = 7 then 36 else 5 : Nat)) (k := fun _ => 0)
    List.nodup_range (by simp) ?_ ?_ ?_ ?_).1 n rs
  · intro c _; exact ⟨rfl, by simp [fileWorld], rfl, rfl, by simp [fileWorld], rfl⟩
  · intro c _ d _ h; simp only [fileWorld]; omega
  · intro c _; rfl
  · intro c _
    have hsz : dataSize (.read [0x12, 0, 0, 0, (if c = 7 then 36 else 5 : Nat).toUInt8, 0] (if c = 7 then 36 else 5 : Nat)) ≤ 36 := by
      simp only [dataSize]; split <;> decide
    refine ⟨by simp [Req.cdb], by omega, fun i => ⟨?_, ?_⟩⟩
    · cases b <;> simp [winRegions, fileAlloc] <;> omega
    · cases b <;> simp [winRegions, fileAlloc, bits] <;> omega

end Verif.ReactorWaits
