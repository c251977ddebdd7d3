import Verif.Options

/-!
# Several command objects in one program

`Verif.Options` follows one command object.  A program has many, and they are not separate by nature: the control byte of
nearly every command is declared as `Field("control", Control, DEFAULT_CONTROL)` or, for a `Buffer`, as
`buffer_field(type=ControlBuffer, default=DEFAULT_CONTROL_BUFFER)`, with one object each made when `cdb/control.py` is imported
(`cdb/control.py:14`, `21`).  Here command objects hold references to control objects, so that a change made through one of them
(`cmd.control.naca = 1`) reaches whoever else refers to the same control object.

LOG SENSE, RECEIVE DIAGNOSTIC RESULTS and PERSISTENT RESERVE declare `control` with `set_before_pack=DEFAULT_CONTROL_BUFFER`
instead: such an object has no `control` when it is made, and packing assigns the default to it, over whatever the caller
assigned.

What `infi.instruct` does with a declared default is not visible from `/repo`, so it is a parameter, `Default`.  The commands
without a control object, of which there is one (`Verif.Options.Cls.receiveCopy`), are left out.
-/

namespace Verif.Sharing

open Verif.Options

/-- A `Control` object: `cdb/control.py:6-12`. -/
structure Ctl where
  naca : Int
  vendor : Int
  deriving DecidableEq, Repr

/-- The members of a `Control` object. -/
inductive Member where
  | naca | vendor
  deriving DecidableEq, Repr

def Ctl.put (c : Ctl) : Member → Int → Ctl
  | .naca, v => { c with naca := v }
  | .vendor, v => { c with vendor := v }

/-- What becomes of a default control object when a command is made: every command refers to it, every command gets a copy of it, or
the command has no `control` until one is assigned and the default is looked up when it is packed.  Likewise for `set_before_pack`
when a command is packed: the attribute is the default itself from then on, or a copy of it, or it is left alone and only the
value packed is that of the default. -/
inductive Default where
  | shared | copied | late
  deriving DecidableEq, Repr

/-- A call to a constructor. -/
inductive Ctor where
  | read6 (lba n bs : Int) | read10 (lba n bs : Int) | read12 (lba n bs : Int) | read16 (lba n bs : Int)
  | write6 (lba : Int) (buf : Bytes) (bs : Int) | write10 (lba : Int) (buf : Bytes) (bs : Int)
  | write12 (lba : Int) (buf : Bytes) (bs : Int) | write16 (lba : Int) (buf : Bytes) (bs : Int)
  | writeSame10 (lba : Int) (buf : Bytes) (n bs : Int) | writeSame16 (lba : Int) (buf : Bytes) (n bs : Int)
  | compareAndWrite (lba : Int) (buf : Bytes) (n bs : Int) | unmap (ranges : List (Int × Int))
  | inquiry (evpd page alloc : Int) | readCapacity10 (lba pmi : Int) | readCapacity16 (lba pmi : Int)
  | reportLuns (select alloc : Int) | rtpg (fmt alloc : Int) | testUnitReady
  | logSense (page subpage alloc : Int) | receiveDiagnostic (pcv page alloc : Int)
  | reserve6 | release6 | reserve10 (id : Int) | release10 (id : Int)
  | prOut (a : Cdb.ProutArgs) | prIn (action alloc : Int)

/-- The object the constructor makes, or the exception it raises. -/
def Ctor.make (L : Lib) : Ctor → Py Obj
  | .read6 lba n bs => newRead6 lba n bs
  | .read10 lba n bs => newRead10 lba n bs
  | .read12 lba n bs => newRead12 lba n bs
  | .read16 lba n bs => newRead16 lba n bs
  | .write6 lba buf bs => newWrite6 lba buf bs
  | .write10 lba buf bs => newWrite10 lba buf bs
  | .write12 lba buf bs => newWrite12 lba buf bs
  | .write16 lba buf bs => newWrite16 lba buf bs
  | .writeSame10 lba buf n bs => newWriteSame10 lba buf n bs
  | .writeSame16 lba buf n bs => newWriteSame16 lba buf n bs
  | .compareAndWrite lba buf n bs => newCompareAndWrite lba buf n bs
  | .unmap ranges => newUnmap L ranges
  | .inquiry evpd page alloc => newInquiry evpd page alloc
  | .readCapacity10 lba pmi => newReadCapacity10 lba pmi
  | .readCapacity16 lba pmi => newReadCapacity16 lba pmi
  | .reportLuns select alloc => newReportLuns select alloc
  | .rtpg fmt alloc => newRtpg fmt alloc
  | .testUnitReady => newTestUnitReady
  | .logSense page subpage alloc => newLogSense page subpage alloc
  | .receiveDiagnostic pcv page alloc => newReceiveDiagnostic pcv page alloc
  | .reserve6 => newReserve6
  | .release6 => newRelease6
  | .reserve10 id => newReserve10 L id
  | .release10 id => newRelease10 L id
  | .prOut a => newPrOut L a
  | .prIn action alloc => newPrIn action alloc

/-- A statement of the caller's program; objects are numbered in the order they are made. -/
inductive Stmt where
  /-- `cmd = SomeCommand(...)`; a constructor that raises makes no object (the caller catches the exception). -/
  | new (c : Ctor)
  /-- `cmd.name = v` -/
  | set (i : Nat) (name : String) (v : Int)
  /-- `cmd.buffer = bs`, `cmd.parameter_list_datagram = bs` -/
  | buffer (i : Nat) (bs : Bytes)
  /-- `cmd.control = Control(naca=n, vendor_specific=v)`, or a `ControlBuffer` -/
  | assign (i : Nat) (n v : Int)
  /-- `cmd.control.naca = v`, `cmd.control.vendor_specific = v`; nothing happens when there is no `control` (the caller catches
  the `AttributeError`) -/
  | poke (i : Nat) (m : Member) (v : Int)
  /-- `cmd.execute(executer)` up to the request it hands over -/
  | execute (i : Nat)

/-- A command object: what `Verif.Options` follows, and the control object it refers to.  Attributes of the command that
happen to be called `naca` or `vendor_specific` have nothing to do with the control object. -/
structure Var where
  obj : Obj
  control : Option Nat
  deriving DecidableEq, Repr

/-- The control object a class declares: 0 is `DEFAULT_CONTROL` (`cdb/control.py:14`), 1 is `DEFAULT_CONTROL_BUFFER`
(`cdb/control.py:21`). -/
def home (c : Cls) : Nat := if c.positional then 1 else 0

/-- The objects of the program; the first two control objects are the defaults. -/
structure World where
  controls : List Ctl
  vars : List Var
  deriving DecidableEq, Repr

def World.start : World := ⟨[⟨0, 0⟩, ⟨0, 0⟩], []⟩

/-- The control object used to pack a command: its own reference, otherwise the declared default; always the default where that is
declared with `set_before_pack`. -/
def World.control (w : World) (v : Var) : Ctl :=
  w.controls.getD (if v.obj.cls.resets then home v.obj.cls else v.control.getD (home v.obj.cls)) ⟨0, 0⟩

/-- The request of an object whose control object is `c`: the control byte is packed from the members of `c`
(`cdb/control.py:6-12`, `17-19`), everything else as in `Verif.Options`. -/
def request (L : Lib) (o : Obj) (c : Ctl) : Py Req :=
  o.executeWith (((o.set "vendor_specific" c.vendor).set "naca" c.naca).packed L)

/-- One statement. -/
def step (d : Default) (L : Lib) (w : World) : Stmt → World × List (Nat × Py Req)
  | .new c => match c.make L with
    | .error _ => (w, [])
    | .ok o =>
      if o.cls.resets then ({ w with vars := w.vars ++ [⟨o, none⟩] }, [])
      else match d with
        | .shared => ({ w with vars := w.vars ++ [⟨o, some (home o.cls)⟩] }, [])
        | .copied => (⟨w.controls ++ [w.controls.getD (home o.cls) ⟨0, 0⟩], w.vars ++ [⟨o, some w.controls.length⟩]⟩, [])
        | .late => ({ w with vars := w.vars ++ [⟨o, none⟩] }, [])
  | .set i name v => ({ w with vars := w.vars.modify i fun x => { x with obj := x.obj.set name v } }, [])
  | .buffer i bs => ({ w with vars := w.vars.modify i fun x => { x with obj := x.obj.setBuffer bs } }, [])
  | .assign i n v => (⟨w.controls ++ [⟨n, v⟩], w.vars.modify i fun x => { x with control := some w.controls.length }⟩, [])
  | .poke i m v => match w.vars[i]? with
    | none => (w, [])
    | some x => match x.control with
      | none => (w, [])
      | some a => ({ w with controls := w.controls.modify a fun c => c.put m v }, [])
  | .execute i => match w.vars[i]? with
    | none => (w, [(i, .error .nameError)])
    | some x =>
      let out := [(i, request L x.obj (w.control x))]
      if x.obj.cls.resets then match d with
        | .shared => ({ w with vars := w.vars.modify i fun x => { x with control := some (home x.obj.cls) } }, out)
        | .copied => (⟨w.controls ++ [w.controls.getD (home x.obj.cls) ⟨0, 0⟩],
            w.vars.modify i fun x => { x with control := some w.controls.length }⟩, out)
        | .late => (w, out)
      else (w, out)

/-- A whole program: the requests it hands to executers, in order, each with the number of the command object. -/
def run (d : Default) (L : Lib) : World → List Stmt → List (Nat × Py Req)
  | _, [] => []
  | w, s :: r => (step d L w s).2 ++ run d L (step d L w s).1 r

end Verif.Sharing
