import Verif.Base
/-!
# Model of the executer context managers (executers.py) and of the platform factories (__init__.py:180-210)

`contextmanager` comes from `infi.pyutils.contexts` (external); it is taken to behave as the standard library's: the code before the
`yield` runs on entry, the with-block's exception is raised at the `yield`, and what the generator raises in turn replaces it.

The operating system is given by what opening and closing the device return. Every run yields the trace of what happened and its result.
-/

namespace Verif.Contexts

/-- `get_platform_name()` (__init__.py:180-182); any other name is unsupported. -/
inductive Platform where
  | windows | linux | solaris | aix | unsupported
  deriving DecidableEq, Repr

/-- What the context manager runs on: the platform, the result of opening the device (`CreateFile`, `os.open`) and of closing it
(`CloseHandle`, `os.close`). -/
structure Env where
  platform : Platform
  opening : Py Nat
  closing : Py Unit

/-- What happens, in order; `β` is what the with-block does. -/
inductive Event (β : Type) where
  | opened (handle : Nat)
  | closed (handle : Nat)
  | inside (b : β)
  deriving DecidableEq, Repr

/-- An exception of the library, or of the with-block. -/
inductive Raised (ε : Type) where
  | lib (e : PyErr)
  | block (e : ε)
  deriving DecidableEq, Repr

/-- The classes of executers. -/
inductive Kind where
  | win32 | linux | linuxIoctl | solaris | aix
  deriving DecidableEq, Repr

/-- An executer object as constructed: class, `max_queue_size`, `timeout` (Windows has none). The queue starts empty. -/
structure Executer where
  kind : Kind
  handle : Nat
  maxq : Nat
  timeout : Option Nat
  deriving DecidableEq, Repr

/-- `AsiException("Platform %s is not yet supported.")` -/
def unsupported : PyErr := .other 1

/-- `create_os_file` (__init__.py:199-210) -/
def createOsFile (env : Env) : Py Nat :=
  match env.platform with
  | .unsupported => .error unsupported
  | _ => env.opening

/-- `create_platform_command_executer(handle)` or `(handle, timeout=t)` (__init__.py:184-197) with the constructors of
win32.py:361, linux.py:217, solaris.py:188, aix.py:364. The Windows constructor has no `timeout`: `TypeError`. -/
def createExecuter (p : Platform) (timeout : Option Nat) (h : Nat) : Py Executer :=
  match p with
  | .windows =>
    match timeout with
    | none => .ok { kind := .win32, handle := h, maxq := 15, timeout := none }
    | some _ => .error .typeError
  | .linux => .ok { kind := .linux, handle := h, maxq := 15, timeout := some (timeout.getD 30000) }
  | .solaris => .ok { kind := .solaris, handle := h, maxq := 1, timeout := some (timeout.getD 30) }
  | .aix => .ok { kind := .aix, handle := h, maxq := 1, timeout := some (timeout.getD 30) }
  | .unsupported => .error unsupported

/-- `LinuxIoctlCommandExecuter(handle)` (linux.py:280-283) -/
def createIoctlExecuter (h : Nat) : Py Executer := .ok { kind := .linuxIoctl, handle := h, maxq := 1, timeout := some 30000 }

variable {α β ε : Type}

/-- The five context managers differ only in how they build the executer. `body` is the with-block: what it does and how it ends. -/
def managed (make : Nat → Py Executer) (env : Env) (body : Executer → List β × Except ε α) :
    List (Event β) × Except (Raised ε) α :=
  match createOsFile env with
  | .error e => ([], .error (.lib e))                               -- handle = create_os_file(device)
  | .ok h =>
    match make h with
    | .error e => ([.opened h], .error (.lib e))                    -- executer = …: outside the try
    | .ok x =>
      let (evs, r) := body x                                        -- yield executer
      let trace := .opened h :: evs.map .inside ++ [.closed h]      -- finally: handle.close()
      match env.closing with
      | .error e => (trace, .error (.lib e))
      | .ok () =>
        match r with
        | .ok a => (trace, .ok a)
        | .error e => (trace, .error (.block e))

inductive Manager where
  | windows | linux_dm | linux_sg | solaris | aix
  deriving DecidableEq, Repr

/-- `SG_TIMEOUT_IN_MS` (executers.py:5-7) -/
def sgTimeoutMs : Nat := 3 * 1000

/-- `windows` (executers.py:10-17), `linux_dm` (20-29), `linux_sg` (32-39), `solaris` (42-49), `aix` (52-59) -/
def withExecuter (m : Manager) (env : Env) (body : Executer → List β × Except ε α) : List (Event β) × Except (Raised ε) α :=
  match m with
  | .windows => managed (createExecuter env.platform none) env body
  | .linux_dm => managed createIoctlExecuter env body
  | .linux_sg => managed (createExecuter env.platform (some sgTimeoutMs)) env body
  | .solaris => managed (createExecuter env.platform none) env body
  | .aix => managed (createExecuter env.platform none) env body

/-! ## `Win32File` handles (win32.py:112-127) -/

/-- A `Win32File`: its handle, -1 once closed. -/
structure Win32File where
  handle : Int
  deriving DecidableEq, Repr

/-- `close` (win32.py:122-127): tells whether `CloseHandle` was called; `closeHandle` is its result. -/
def Win32File.close (f : Win32File) (closeHandle : Bool) : Py Unit × Win32File × Bool :=
  if f.handle = -1 then (.ok (), f, false)
  else if closeHandle then (.ok (), { handle := -1 }, true)
  else (.error .asiOs, f, true)

end Verif.Contexts
