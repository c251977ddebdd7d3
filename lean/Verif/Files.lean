import Verif.Base
/-!
# Model of the file objects' use of descriptors and handles (unix.py:9-30, win32.py:112-134)

What is modelled is which open file of the operating system the methods of a `UnixFile` or a `Win32File` act on, in a process where other code opens and closes
files as well. What the operation does to the file is not (that is `Platform/*`), nor is its failing for another reason than that the number refers to nothing.
-/

namespace Verif.Files

/-- The numbers (descriptors, handles) in use in the process, and the open file each refers to. Open files are numbered in the order they are opened, and never
again. -/
structure Kernel where
  table : Int → Option Nat
  next : Nat

/-- The number the system gives to a file that is opened; `none`: it refuses. -/
abbrev Pick := (Int → Option Nat) → Option Int

/-- `os.open`, `CreateFile` -/
def Kernel.opening (pick : Pick) (k : Kernel) : Option Int × Kernel :=
  match pick k.table with
  | none => (none, k)
  | some n => (some n, { table := fun x => if x = n then some k.next else k.table x, next := k.next + 1 })

/-- The number refers to nothing any more. -/
def Kernel.without (k : Kernel) (n : Int) : Kernel := { k with table := fun x => if x = n then none else k.table x }

/-- What a method did: how it ended, the open file it acted on, the number the object has afterwards. -/
structure Did where
  out : Py Unit
  file : Option Nat
  num : Int
  kernel : Kernel

/-- The methods of a class of file objects; `use` is any of `read`, `write`, `ioctl`. They are given the number the object holds. -/
structure Cls where
  use : Int → Kernel → Did
  close : Int → Kernel → Did

/-- `UnixFile` (unix.py:15-30; executers also pass `io.fd` to `ioctl`, linux.py:288, solaris.py:199, aix.py:380): the descriptor is handed to the system as it is. -/
def unixFile : Cls where
  use fd k :=
    match k.table fd with
    | some f => ⟨.ok (), some f, fd, k⟩
    | none => ⟨.error .ioError, none, fd, k⟩
  close fd k :=
    match k.table fd with
    | some f => ⟨.ok (), some f, fd, k.without fd⟩
    | none => ⟨.error .ioError, none, fd, k⟩

/-- `Win32File` (win32.py:122-134), and `Win32AsyncFile`, which inherits `close`: the handle is forgotten when it was closed. The number -1 never refers to a file
(`INVALID_HANDLE_VALUE`). -/
def win32File : Cls where
  use h k :=
    match k.table h with
    | some f => ⟨.ok (), some f, h, k⟩
    | none => ⟨.error .asiOs, none, h, k⟩
  close h k :=
    if h = -1 then ⟨.ok (), none, -1, k⟩
    else
      match k.table h with
      | some f => ⟨.ok (), some f, -1, k.without h⟩
      | none => ⟨.error .asiOs, none, h, k⟩

/-- A file object: the number it holds; `file` is the open file it was made for (not known to the program). -/
structure Obj where
  num : Int
  file : Nat
  deriving DecidableEq, Repr

/-- A file of other code of the process (a log, a socket), and whether that code has it open. -/
structure Other where
  num : Int
  file : Nat
  isOpen : Bool
  deriving DecidableEq, Repr

/-- The process. -/
structure St where
  kernel : Kernel
  mine : List Obj
  others : List Other

/-- What the program does: `create_os_file`, a method of the i-th file object made, or something of the other code, which closes a file of its own once. -/
inductive Step where
  | make
  | use (i : Nat)
  | close (i : Nat)
  | otherOpen
  | otherClose (j : Nat)
  deriving DecidableEq, Repr

/-- A method of a file object ran. -/
structure Event where
  obj : Nat
  closing : Bool
  out : Py Unit
  file : Option Nat

/-- One step. -/
def step (cls : Cls) (pick : Pick) (st : St) : Step → St × List Event
  | .make =>
    match st.kernel.opening pick with
    | (none, _) => (st, [])
    | (some n, k) => ({ st with kernel := k, mine := st.mine ++ [{ num := n, file := st.kernel.next }] }, [])
  | .use i =>
    match st.mine[i]? with
    | none => (st, [])
    | some o =>
      let d := cls.use o.num st.kernel
      ({ st with kernel := d.kernel, mine := st.mine.set i { o with num := d.num } }, [⟨i, false, d.out, d.file⟩])
  | .close i =>
    match st.mine[i]? with
    | none => (st, [])
    | some o =>
      let d := cls.close o.num st.kernel
      ({ st with kernel := d.kernel, mine := st.mine.set i { o with num := d.num } }, [⟨i, true, d.out, d.file⟩])
  | .otherOpen =>
    match st.kernel.opening pick with
    | (none, _) => (st, [])
    | (some n, k) => ({ st with kernel := k, others := st.others ++ [{ num := n, file := st.kernel.next, isOpen := true }] }, [])
  | .otherClose j =>
    match st.others[j]? with
    | none => (st, [])
    | some o => if o.isOpen then ({ st with kernel := st.kernel.without o.num, others := st.others.set j { o with isOpen := false } }, []) else (st, [])

/-- A program: the state it leaves and what its file objects did, in order. -/
def run (cls : Cls) (pick : Pick) : St → List Step → St × List Event
  | st, [] => (st, [])
  | st, a :: p =>
    let r := step cls pick st a
    let rest := run cls pick r.1 p
    (rest.1, r.2 ++ rest.2)

end Verif.Files
