import Verif.Parse.Inquiry
/-!
# Packing designators and VPD pages

`Buffer.pack` of the classes in `cdb/inquiry/vpd_pages`. An object is given by its attributes. What is used of the external library besides
`packAt`: `set_before_pack` replaces the value of a field before anything is packed; an integer over joined references is cut into the parts
in the order in which `readCat` joins them; a byte string that is as long as its place is stored as it is, what happens to others is the parameter
`blob`; a list of objects is packed by packing them one after the other. Packing an object with a field left out fails (as `typeError`).
-/

namespace Verif.Parse

/-- The bits of `v` over the parts, least significant first. -/
def splitLow : List Ref → Nat → List (String × Ref × Int)
  | [], _ => []
  | r :: rs, v => ("", r, ((v % 2 ^ r.width : Nat) : Int)) :: splitLow rs (v / 2 ^ r.width)

def splitParts (L : BufLib) (rs : List Ref) (v : Nat) : List (String × Ref × Int) :=
  if L.lowFirst then splitLow rs v else (splitLow rs.reverse v).reverse

def refsWidth : List Ref → Nat
  | [] => 0
  | r :: rs => r.width + refsWidth rs

/-- The value of an attribute. -/
def fieldOf (env : List (String × Int)) (name : String) : Py Int :=
  match env.lookup name with
  | some v => .ok v
  | none => .error .typeError

/-- The integer fields with their values. -/
def fieldValues (env : List (String × Int)) : List UField → Py (List (String × Ref × Int))
  | [] => .ok []
  | f :: fs => do
    let v ← fieldOf env f.name
    let vs ← fieldValues env fs
    .ok ((f.name, f.ref, v) :: vs)

/-- The parts of the fields over joined references with their values. -/
def catValues (L : BufLib) (Lb : Lib) (env : List (String × Int)) : List (String × List Ref) → Py (List (String × Ref × Int))
  | [] => .ok []
  | (n, rs) :: cs => do
    let v ← fieldOf env n
    let x ← Lb.enc (refsWidth rs) v
    let vs ← catValues L Lb env cs
    .ok (splitParts L rs x ++ vs)

def bytesOf (o : Designator) (name : String) : Py Bytes :=
  match o.data.lookup name with
  | some v => .ok v
  | none => .error .typeError

/-- `designator_length` before packing: the length of the attribute named in `set_before_pack`, or what was assigned. -/
def lengthBefore (c : DesignatorClass) (o : Designator) : Py Int :=
  match c.lengthOf with
  | none => fieldOf o.attrs "designator_length"
  | some n =>
    match o.data.lookup n with
    | some b => .ok b.length
    | none => .error .attribute

/-- A `bytearray_field` from byte `lo` to `hi`, the bytes stored. -/
def packBlob (blob : Nat → Bytes → Py Bytes) (lo hi : Nat) (b : Bytes) : Py Bytes :=
  if lo ≤ hi ∧ b.length = hi - lo then .ok b else blob (hi - lo) b

def DField.pack (L : BufLib) (blob : Nat → Bytes → Py Bytes) (stop : Nat) (o : Designator) (buf : Bytes) : DField → Py Bytes
  | .text n lo hi => do
    let t ← bytesOf o n
    let b ← packText L 0 (hi.getD stop - lo) t
    .ok (putBytes buf lo b)
  | .blob n lo hi => do
    let t ← bytesOf o n
    let b ← packBlob blob lo (hi.getD stop) t
    .ok (putBytes buf lo b)

def packData (L : BufLib) (blob : Nat → Bytes → Py Bytes) (stop : Nat) (o : Designator) : List DField → Bytes → Py Bytes
  | [], buf => .ok buf
  | f :: fs, buf => do
    let b ← f.pack L blob stop o buf
    packData L blob stop o fs b

/-- The classes a designator is decoded into — `cdb/inquiry/vpd_pages/designators.py:20-111`. -/
def allDesignators : List DesignatorClass :=
  [vendorSpecific, t10Vendor, eui64, eui64_12, eui64_16, naaExtended, naaLocal, naaRegistered, naaRegisteredExtended, relativePort, portGroup, unitGroup,
   md5, scsiName, reservedDesignator]

/-- The length of the byte string of a class that has exactly one. -/
def blobLength (dat : String → Bytes) (c : DesignatorClass) : Nat :=
  match c.data with
  | [.blob n _ _] => (dat n).length
  | _ => 0

/-- `pack` of the designator classes — `cdb/inquiry/vpd_pages/designators.py:8-111`. -/
def packDesignator (L : BufLib) (Lb : Lib) (blob : Nat → Bytes → Py Bytes) (c : DesignatorClass) (o : Designator) : Py Bytes := do
  let len ← lengthBefore c o
  let env := ("designator_length", len) :: o.attrs
  let fs ← fieldValues env (designatorHeader ++ c.ints)
  let cs ← catValues L Lb env c.cats
  let buf ← packAt Lb (fs ++ cs) []
  packData L blob (4 + len).toNat o c.data buf

def packDesignators (L : BufLib) (Lb : Lib) (blob : Nat → Bytes → Py Bytes) : List (DesignatorClass × Designator) → Py Bytes
  | [] => .ok []
  | (c, o) :: os => do
    let b ← packDesignator L Lb blob c o
    let bs ← packDesignators L Lb blob os
    .ok (b ++ bs)

/-- `DeviceIdentificationVPDPageBuffer.pack` — `cdb/inquiry/vpd_pages/device_identification.py:8-13`; `page_length` is not computed. -/
def packDeviceIdentification (L : BufLib) (Lb : Lib) (blob : Nat → Bytes → Py Bytes) (type qualifier pageCode pageLength : Int)
    (os : List (DesignatorClass × Designator)) : Py Bytes := do
  let h ← packAt Lb [("type", .bits 0 0 5, type), ("qualifier", .bits 0 5 8, qualifier), ("page_code", .bytes 1 2, pageCode),
    ("page_length", .bytes 2 4, pageLength)] []
  let d ← packDesignators L Lb blob os
  let d ← packBlob blob 4 (4 + pageLength).toNat d
  .ok (putBytes h 4 d)

/-- A page of fixed fields: `BlockLimitsVPDPageBuffer`, `VeritasVPDPageBuffer` — `cdb/inquiry/vpd_pages/block_limits.py:7-22`, `veritas.py:7-19`;
`LogicalBlockProvisioningVPDPageBuffer` without a group descriptor — `logical_block_provisioning.py:8-26`. -/
def packFixed (L : BufLib) (Lb : Lib) (fs : List UField) (cats : List (String × List Ref)) (p : Page) : Py Bytes := do
  let hs ← fieldValues p.peripheral peripheralFields
  let vs ← fieldValues p.attrs fs
  let cs ← catValues L Lb p.attrs cats
  packAt Lb (hs ++ vs ++ cs) []

end Verif.Parse
