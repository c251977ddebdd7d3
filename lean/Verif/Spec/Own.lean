import Verif.Sharing

/-!
# A command object on its own

What one object sends, told from its own constructor and the statements addressed to it; no other object and no reference
appears here.  `leaky` tells the same for a library whose objects share their default control objects.
-/

namespace Verif.Spec.Own

open Verif.Options Verif.Sharing

/-- One object and the values of its control byte. -/
structure One where
  obj : Obj
  control : Ctl

/-- A control byte with one member changed and the other kept. -/
def changed (c : Ctl) : Member → Int → Ctl
  | .naca, v => ⟨v, c.vendor⟩
  | .vendor, v => ⟨c.naca, v⟩

/-- The commands whose control byte is always the default (`set_before_pack`). -/
def fixed : Cls → Bool
  | .logSense | .receiveDiagnostic | .prOut | .prIn => true
  | _ => false

/-- What a statement addressed to an object does to it. -/
def One.apply (o : One) : Stmt → One
  | .set _ name v => { o with obj := o.obj.set name v }
  | .buffer _ bs => { o with obj := o.obj.setBuffer bs }
  | .assign _ n v => if fixed o.obj.cls then o else { o with control := ⟨n, v⟩ }
  | .poke _ m v => if fixed o.obj.cls then o else { o with control := changed o.control m v }
  | _ => o

/-- The object a statement is addressed to. -/
def target : Stmt → Option Nat
  | .new _ => none
  | .set i _ _ | .buffer i _ | .assign i _ _ | .poke i _ _ | .execute i => some i

/-- Among numbered requests, those of object `i`. -/
def ofObject (i : Nat) (l : List (Nat × Py Req)) : List (Py Req) := l.filterMap fun p => if p.1 = i then some p.2 else none

/-- The requests object `i` sends; `made` objects exist already, `o` is object `i` once it exists. -/
def life (L : Lib) (i : Nat) : List Stmt → (made : Nat) → Option One → List (Py Req)
  | [], _, _ => []
  | .new c :: r, made, o => match c.make L with
    | .ok x => life L i r (made + 1) (if made = i then some ⟨x, ⟨0, 0⟩⟩ else o)
    | .error _ => life L i r made o
  | .execute j :: r, made, o =>
    if j = i then
      (match o with
        | some o => request L o.obj o.control
        | none => .error .nameError) :: life L i r made o
    else life L i r made o
  | s :: r, made, o => life L i r made (if target s = some i then o.map (·.apply s) else o)

/-- The program changes a control object in place only after assigning one to that command; for the commands whose control byte is
`fixed`, which are told by the list of objects `made` so far, after assigning one since the command was last executed. -/
def Careful (L : Lib) : List Stmt → (made : List Bool) → (assigned : List Nat) → Prop
  | [], _, _ => True
  | .new c :: r, made, l => match c.make L with
    | .ok o => Careful L r (made ++ [fixed o.cls]) l
    | .error _ => Careful L r made l
  | .assign i _ _ :: r, made, l => Careful L r made (if i < made.length then i :: l else l)
  | .poke i _ _ :: r, made, l => i ∈ l ∧ Careful L r made l
  | .execute i :: r, made, l => Careful L r made (if made[i]? = some true then l.filter (· ≠ i) else l)
  | _ :: r, made, l => Careful L r made l

/-- Where the `control` of a command comes from in a library that shares the defaults: assigned by the caller, the declared default, or
not there yet. -/
inductive From where
  | own | default | nowhere
  deriving DecidableEq, Repr

/-- What there is to know about a command of such a library: which default it declares (`buffer`: `DEFAULT_CONTROL_BUFFER`), whether its
control byte is fixed, and where its `control` comes from. -/
structure Slot where
  buffer : Bool
  fixed : Bool
  control : From
  deriving DecidableEq, Repr

/-- The two defaults. -/
structure Defaults where
  struct : Ctl
  buffer : Ctl
  deriving DecidableEq, Repr

def Defaults.of (d : Defaults) (b : Bool) : Ctl := if b then d.buffer else d.struct

def Defaults.change (d : Defaults) (b : Bool) (m : Member) (v : Int) : Defaults :=
  if b then { d with buffer := changed d.buffer m v } else { d with struct := changed d.struct m v }

/-- The commands declared as a `Buffer`. -/
def isBuffer : Cls → Bool
  | .logSense | .receiveCopy | .receiveDiagnostic | .reserve6 | .release6 | .reserve10 | .release10 | .prOut | .prIn => true
  | _ => false

/-- One object of a library that shares the defaults, with its own control object if it has one. -/
structure Leaky where
  obj : Obj
  own : Option Ctl

/-- The requests object `i` sends when all objects share the default control objects, now `d`.  An in-place change through any object
whose `control` is the declared default is a change of that default. -/
def leaky (L : Lib) (i : Nat) : List Stmt → List Slot → Defaults → Option Leaky → List (Py Req)
  | [], _, _, _ => []
  | .new c :: r, l, d, o => match c.make L with
    | .ok x => leaky L i r (l ++ [⟨isBuffer x.cls, fixed x.cls, if fixed x.cls then .nowhere else .default⟩]) d
        (if l.length = i then some ⟨x, none⟩ else o)
    | .error _ => leaky L i r l d o
  | .set j name v :: r, l, d, o =>
    leaky L i r l d (if j = i then o.map fun o => { o with obj := o.obj.set name v } else o)
  | .buffer j bs :: r, l, d, o =>
    leaky L i r l d (if j = i then o.map fun o => { o with obj := o.obj.setBuffer bs } else o)
  | .assign j n v :: r, l, d, o =>
    leaky L i r (l.modify j fun s => { s with control := .own }) d (if j = i then o.map fun o => { o with own := some ⟨n, v⟩ } else o)
  | .poke j m v :: r, l, d, o =>
    leaky L i r l (match l[j]? with
        | some ⟨b, _, .default⟩ => d.change b m v
        | _ => d)
      (if j = i then o.map fun o => { o with own := o.own.map (changed · m v) } else o)
  | .execute j :: r, l, d, o =>
    let l' := l.modify j fun s => if s.fixed then { s with control := .default } else s
    if j = i then
      match o with
      | none => .error .nameError :: leaky L i r l' d o
      | some o =>
        if fixed o.obj.cls then request L o.obj (d.of (isBuffer o.obj.cls)) :: leaky L i r l' d (some { o with own := none })
        else request L o.obj (o.own.getD (d.of (isBuffer o.obj.cls))) :: leaky L i r l' d (some o)
    else leaky L i r l' d o

/-- The objects a program executes, in order. -/
def executed : List Stmt → List Nat
  | [] => []
  | .execute i :: r => i :: executed r
  | _ :: r => executed r

/-- How many objects a program makes. -/
def made (L : Lib) : List Stmt → Nat
  | [] => 0
  | .new c :: r => (match c.make L with | .ok _ => 1 | .error _ => 0) + made L r
  | _ :: r => made L r

/-- The request of a command that is executed as its constructor left it, by the model of each command in `Verif.Cdb`. -/
def plain (L : Lib) : Ctor → Py Req
  | .read6 lba n bs => Cdb.read6 L lba n bs
  | .read10 lba n bs => Cdb.read10 L lba n bs
  | .read12 lba n bs => Cdb.read12 L lba n bs
  | .read16 lba n bs => Cdb.read16 L lba n bs
  | .write6 lba buf bs => Cdb.write6 L lba buf bs
  | .write10 lba buf bs => Cdb.write10 L lba buf bs
  | .write12 lba buf bs => Cdb.write12 L lba buf bs
  | .write16 lba buf bs => Cdb.write16 L lba buf bs
  | .writeSame10 lba buf n bs => Cdb.writeSame10 L lba buf n bs
  | .writeSame16 lba buf n bs => Cdb.writeSame16 L lba buf n bs
  | .compareAndWrite lba buf n bs => Cdb.compareAndWrite L lba buf n bs
  | .unmap ranges => Cdb.unmap L ranges
  | .inquiry evpd page alloc => Cdb.inquiry L evpd page alloc
  | .readCapacity10 lba pmi => Cdb.readCapacity10 L lba pmi
  | .readCapacity16 lba pmi => Cdb.readCapacity16 L lba pmi
  | .reportLuns select alloc => Cdb.reportLuns L select alloc
  | .rtpg fmt alloc => Cdb.rtpg L fmt alloc
  | .testUnitReady => Cdb.testUnitReady L
  | .logSense page subpage alloc => Cdb.logSense L page subpage alloc
  | .receiveDiagnostic pcv page alloc => Cdb.receiveDiagnostic L pcv page alloc
  | .reserve6 => Cdb.reserve6 L
  | .release6 => Cdb.release6 L
  | .reserve10 id => Cdb.reserve10 L id
  | .release10 id => Cdb.release10 L id
  | .prOut a => Cdb.persistentReserveOut L a
  | .prIn action alloc => Cdb.persistentReserveIn L action alloc

end Verif.Spec.Own
