import Verif.Props.Os
import Verif.Props.Linux
import Verif.Props.Solaris
import Verif.Props.Aix
import Verif.Props.Windows
/-!
# C72: how long a command may take

What `create_platform_command_executer(handle)` and `(handle, timeout=t)` (__init__.py:184-197) make of the time limit, followed into the
request block the driver gets, and set against the patience of `UnixFile.read` (unix.py:9, 60 seconds), which waits for the answer.
-/

namespace Verif.Timeouts

open Verif.Platform Verif.Spec Verif.Contexts

/-! ## Specification: the limit a driver reads in a request block, in milliseconds -/

/-- `sg_io_hdr.timeout` is in milliseconds (comment of linux.py:26). -/
def sgLimit (little : Bool) (block : Bytes) : Int := word little block 40 4

/-- `uscsi_timeout` is in seconds (uscsi(7I)). -/
def uscsiLimit (little : Bool) (block : Bytes) : Int := sword little block 6 2 * 1000

/-- `sc_passthru.timeout_value` is in seconds (comment of aix.py:141). -/
def scLimit (block : Bytes) : Int := word false block 20 4 * 1000

/-- `SCSI_PASS_THROUGH_DIRECT.TimeOutValue` is in seconds. -/
def sptLimit (block : Bytes) : Int := word true block 16 4 * 1000

/-- A command of at most sixteen bytes whose request object (a block of `size` bytes and three buffers) does not overlap itself. -/
structure Fits (size : Nat) (al : Alloc) (c : Req) : Prop where
  cdb : c.cdb.length ≤ 16
  data : dataSize c < 2 ^ 32
  apart : Separate 64 (regions al c size)

/-! ## Into the block -/

/-- **C72 on Linux**: the limit is the executer's `timeout` in milliseconds, thirty seconds unless given. -/
theorem C72_linux (l : Bool) (arg : Option Nat) (h : Nat) (x : Executer) (hx : createExecuter .linux arg h = .ok x) (harg : ∀ t ∈ arg, t < 2 ^ 32)
    (al : Alloc) (i : Nat) (c : Req) (hi : i < 2 ^ 31) (hf : Fits 88 al c) :
    ∃ t : Nat, x.timeout = some t ∧ sgLimit l (Linux.create (lp64 l) al i c t).block = arg.getD 30000 := by
  have : x = _ := (Except.ok.inj hx).symm
  subst this
  refine ⟨_, rfl, ?_⟩
  have hb : arg.getD 30000 < 2 ^ 32 := by
    cases arg with
    | none => decide
    | some t => exact harg t rfl
  exact (Linux.C18_linux l al i c (arg.getD 30000 : Nat) (fun _ => 0) hi (by have := hf.cdb; omega) hf.data ⟨by omega, by omega⟩ hf.apart).2.2.1

/-- The same behind `linux_dm`: always thirty seconds. -/
theorem C72_ioctl (l : Bool) (h : Nat) (x : Executer) (hx : createIoctlExecuter h = .ok x)
    (al : Alloc) (i : Nat) (c : Req) (hi : i < 2 ^ 31) (hf : Fits 88 al c) :
    ∃ t : Nat, x.timeout = some t ∧ sgLimit l (Linux.create (lp64 l) al i c t).block = 30000 := by
  have : x = _ := (Except.ok.inj hx).symm
  subst this
  exact ⟨30000, rfl, (Linux.C18_linux l al i c (30000 : Nat) (fun _ => 0) hi (by have := hf.cdb; omega) hf.data ⟨by omega, by omega⟩ hf.apart).2.2.1⟩

/-- **C72 on Solaris**, for limits below nine hours: the executer's `timeout` in seconds, thirty unless given. -/
theorem C72_solaris_partial (l : Bool) (arg : Option Nat) (h : Nat) (x : Executer) (hx : createExecuter .solaris arg h = .ok x)
    (harg : ∀ t ∈ arg, t < 2 ^ 15) (al : Alloc) (c : Req) (hf : Fits 64 al c) :
    ∃ t : Nat, x.timeout = some t ∧ uscsiLimit l ((Solaris.create (lp64 l) al c t).block ++ [0]) = arg.getD 30 * 1000 := by
  have : x = _ := (Except.ok.inj hx).symm
  subst this
  refine ⟨_, rfl, ?_⟩
  have hb : arg.getD 30 < 2 ^ 15 := by
    cases arg with
    | none => decide
    | some t => exact harg t rfl
  have := (Solaris.C18_solaris l al c (arg.getD 30 : Nat) (fun _ => 0) (by have := hf.cdb; omega) (by have := hf.data; omega) ⟨by omega, by omega⟩
    hf.apart).2.2.1
  rw [uscsiLimit, this]

/-- **C72 on AIX**: the executer's `timeout` in seconds, thirty unless given. -/
theorem C72_aix (arg : Option Nat) (h : Nat) (x : Executer) (hx : createExecuter .aix arg h = .ok x) (harg : ∀ t ∈ arg, t < 2 ^ 32)
    (al : Alloc) (c : Req) (hf : Fits 168 al c) :
    ∃ t : Nat, x.timeout = some t ∧ scLimit (Aix.create (lp64 false) al c t).block = arg.getD 30 * 1000 := by
  have : x = _ := (Except.ok.inj hx).symm
  subst this
  refine ⟨_, rfl, ?_⟩
  have hb : arg.getD 30 < 2 ^ 32 := by
    cases arg with
    | none => decide
    | some t => exact harg t rfl
  have := (Aix.C18_aix al c (arg.getD 30 : Nat) (fun _ => 0) (by have := hf.cdb; omega) (by have := hf.data; omega) ⟨by omega, by omega⟩
    hf.apart).2.2.1
  rw [scLimit, this]

/-! ## Where the platforms differ -/

/-- **"Thirty seconds unless given" is false on Windows**: every command has ten seconds, and another limit cannot be asked for. -/
theorem C72_windows_false (b : Bool) (t h : Nat) (al : Alloc) (id : Nat) (c : Req) (hcdb : c.cdb.length ≤ 16) (hd : dataSize c < 2 ^ 32)
    (hsep : Separate (Win32.bits b) (Win32.winRegions b al c)) :
    (∃ p, Win32.create (Win32.W b) al id c = .ok p ∧ sptLimit p.block = 10000 ∧ sptLimit p.block ≠ 30000) ∧
    createExecuter .windows (some t) h = .error .typeError := by
  obtain ⟨p, hp, -, -, -, -, hw⟩ := Win32.C18_windows b al id c (fun _ => 0) hcdb hd hsep
  exact ⟨⟨p, hp, by rw [sptLimit, hw]; rfl, by rw [sptLimit, hw]; decide⟩, rfl⟩

/-- **"A limit means the same everywhere" is false**: the same argument gives a limit a thousand times as long on Solaris and AIX as on
Linux, whatever the command. -/
theorem C72_unit_false (l l' : Bool) (t h : Nat) (ht : 0 < t) (hlt : t < 2 ^ 15) (al : Alloc) (i : Nat) (c : Req) (hi : i < 2 ^ 31)
    (h1 : Fits 88 al c) (h2 : Fits 64 al c) (h3 : Fits 168 al c) :
    ∃ (x y z : Executer) (tx ty tz : Nat),
      createExecuter .linux (some t) h = .ok x ∧ createExecuter .solaris (some t) h = .ok y ∧ createExecuter .aix (some t) h = .ok z ∧
      x.timeout = some tx ∧ y.timeout = some ty ∧ z.timeout = some tz ∧
      uscsiLimit l' ((Solaris.create (lp64 l') al c ty).block ++ [0]) = 1000 * sgLimit l (Linux.create (lp64 l) al i c tx).block ∧
      scLimit (Aix.create (lp64 false) al c tz).block = 1000 * sgLimit l (Linux.create (lp64 l) al i c tx).block ∧
      scLimit (Aix.create (lp64 false) al c tz).block ≠ sgLimit l (Linux.create (lp64 l) al i c tx).block := by
  obtain ⟨tx, hx, ex⟩ := C72_linux l (some t) h _ rfl (by intro u hu; cases hu; omega) al i c hi h1
  obtain ⟨ty, hy, ey⟩ := C72_solaris_partial l' (some t) h _ rfl (by intro u hu; cases hu; omega) al c h2
  obtain ⟨tz, hz, ez⟩ := C72_aix (some t) h _ rfl (by intro u hu; cases hu; omega) al c h3
  refine ⟨_, _, _, tx, ty, tz, rfl, rfl, rfl, hx, hy, hz, ?_, ?_, ?_⟩ <;> simp only [ex, ey, ez, Option.getD_some] <;> omega

/-- **"The limit given is the limit set" is false on Solaris**: the field is sixteen bits wide and ctypes drops the rest, for every
command. A limit of 65536 seconds is no limit of the driver's. -/
theorem C72_solaris_false (l : Bool) (al : Alloc) (c : Req) (hf : Fits 64 al c) :
    uscsiLimit l ((Solaris.create (lp64 l) al c (65536 : Nat)).block ++ [0]) = 0 ∧
    uscsiLimit l ((Solaris.create (lp64 l) al c (65566 : Nat)).block ++ [0]) = 30000 := by
  have wrap : ∀ (t : Nat), (Solaris.create (lp64 l) al c (t + 65536 : Nat)) = Solaris.create (lp64 l) al c t := by
    intro t
    have : ∀ raw, store (lp64 l) (Solaris.fld (lp64 l) "uscsi_timeout") ((t + 65536 : Nat) : Int) raw =
        store (lp64 l) (Solaris.fld (lp64 l) "uscsi_timeout") (t : Int) raw := by
      intro raw
      rw [Solaris.fld_uscsi_timeout, store, store, show ((t + 65536 : Nat) : Int) % 256 ^ 2 = (t : Int) % 256 ^ 2 by omega]
    simp only [Solaris.create, this]
  have key : ∀ t : Nat, t < 2 ^ 15 → uscsiLimit l ((Solaris.create (lp64 l) al c (t + 65536 : Nat)).block ++ [0]) = t * 1000 := by
    intro t ht
    rw [wrap, uscsiLimit, (Solaris.C18_solaris l al c t (fun _ => 0) (by have := hf.cdb; omega) (by have := hf.data; omega) ⟨by omega, by omega⟩
      hf.apart).2.2.1]
  exact ⟨key 0 (by decide), key 30 (by decide)⟩

/-! ## The library's own patience -/

/-- Milliseconds `UnixFile.read` polls before it gives up (unix.py:9: `READ_TIMEOUT = 60`, the default of `__init__`; nothing in the library
gives another). -/
def readTimeoutMs : Int := 60000

/-- **A driver that keeps a limit of up to sixty seconds is waited for.** The clock reads `clock k` after round `k` of the polling; the
response is there within the limit of the start, by the round `n` at whose end the clock first passes the limit at the latest. Then the read
returns what the driver has. -/
theorem C72_waited (env : Unix.Env) (limit : Int) (hlim : limit ≤ readTimeoutMs) (n : Nat) (hn : env.ready n = true)
    (hin : ∀ j, j < n → env.ready j = false ∧ env.clock j ≤ env.start + limit) : Unix.Reads env readTimeoutMs (env.osRead n) n :=
  Unix.C24_ready env _ n hn (fun j hj => ⟨(hin j hj).1, by have := (hin j hj).2; omega⟩)

/-- **"The library waits as long as the driver may take" is false** for every longer limit: the driver answers within it, the clock ticks
every ten milliseconds, and the read has already raised `IOError`. -/
theorem C72_waited_false (limit : Nat) (hlim : 60020 ≤ limit) (answer : Bytes) :
    ∃ (env : Unix.Env) (n : Nat), env.start = 0 ∧ (∀ k, env.clock k = 10 * (k + 1)) ∧ (∀ k, n ≤ k → env.ready k = true ∧ env.osRead k = .ok answer) ∧
      env.clock n ≤ limit ∧ ∃ m, Unix.Reads env readTimeoutMs (.error .ioError) m := by
  let env : Unix.Env := ⟨0, fun k => decide (6001 ≤ k), fun k => 10 * (k + 1), fun _ => .ok answer⟩
  refine ⟨env, 6001, rfl, fun _ => rfl, fun k hk => ⟨by simpa [env] using hk, rfl⟩, ?_, 6000, ⟨6000 - 0 + 1, ?_⟩⟩
  · show (10 : Int) * ((6001 : Nat) + 1) ≤ limit
    omega
  · rw [Unix.pollLoop_reaches env readTimeoutMs 6000 0 (by omega) (fun j _ hj => ⟨by simp [env]; omega, by simp only [env, readTimeoutMs]; omega⟩)]
    rw [Unix.pollLoop, if_neg (by simp [env]), if_pos (by simp only [env, readTimeoutMs]; omega)]

/-! ## The hypotheses can be met -/

/-- A READ(10) of 512 bytes. -/
def readReq : Req := .read [0x28, 0, 0, 0, 0, 7, 0, 0, 1, 0] 512

example : Fits 88 ⟨0x1000, 0x2000, 0x3000, 0x4000⟩ readReq ∧ Fits 64 ⟨0x1000, 0x2000, 0x3000, 0x4000⟩ readReq ∧
    Fits 168 ⟨0x1000, 0x2000, 0x3000, 0x4000⟩ readReq := by
  refine ⟨⟨by decide, by decide, ?_⟩, ⟨by decide, by decide, ?_⟩, ⟨by decide, by decide, ?_⟩⟩ <;>
    exact ⟨by decide, by decide⟩

end Verif.Timeouts
