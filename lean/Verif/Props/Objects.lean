import Verif.Commands
import Verif.Props.Cdb
import Verif.Props.Responses
/-!
# C29, C39 for the command objects a caller builds

`C29_decode` is about the CDB classes with all their fields; here the objects with the arguments their constructors take.
-/

namespace Verif.Commands

open Verif.Spec.Cdb

/-- What a command object is for, in terms of its constructor's arguments. The number of blocks of a WRITE is the number of blocks in its buffer, a
READ(6) of no blocks is one of 256, a reservation is for a third party if an identification is given. -/
def asks : Cmd → Meaning
  | .read6 lba n _ => .read lba.toNat (if n = 0 then 256 else n.toNat)
  | .read10 lba n _ | .read12 lba n _ | .read16 lba n _ => .read lba.toNat n.toNat
  | .write6 lba buf bs | .write10 lba buf bs | .write12 lba buf bs | .write16 lba buf bs => .write lba.toNat (buf.length / bs.toNat)
  | .writeSame10 lba _ n _ | .writeSame16 lba _ n _ => .writeSame lba.toNat n.toNat
  | .compareAndWrite lba _ n _ => .compareAndWrite lba.toNat n.toNat
  | .unmap ranges => .unmap (ranges.map fun r => (r.1.toNat, r.2.toNat))
  | .logSense page subpage alloc => .logSense page.toNat subpage.toNat alloc.toNat
  | .reserve6 => .reserve none
  | .release6 => .release none
  | .reserve10 id => .reserve (if id > 0 then some id.toNat else none)
  | .release10 id => .release (if id > 0 then some id.toNat else none)
  | .persistentReserveOut a => .persistentReserveOut a.serviceAction.toNat a.prType.toNat a.key.toNat a.saKey.toNat
  | .testUnitReady => .testUnitReady
  | .standardInquiry page evpd alloc => .inquiry evpd.toNat page.toNat alloc.toNat
  | .vpd .supported => .inquiry 1 0x00 252
  | .vpd .serial => .inquiry 1 0x80 252
  | .vpd .identification => .inquiry 1 0x83 252
  | .vpd .ata => .inquiry 1 0x89 1024
  | .vpd .limits => .inquiry 1 0xB0 252
  | .vpd .provisioning => .inquiry 1 0xB2 252
  | .vpd .veritas => .inquiry 1 0xC0 252
  | .vpd (.unknown page) => .inquiry 1 page.toNat 2048
  | .readCapacity10 lba pmi | .readCapacity16 lba pmi => .readCapacity lba.toNat pmi.toNat
  | .reportLuns select alloc _ => .reportLuns select.toNat alloc.toNat
  | .rtpg fmt alloc => .reportTargetPortGroups fmt.toNat alloc.toNat
  | .receiveCopy alloc _ => .receiveCopyOperatingParameters alloc.toNat
  | .ses .supported _ => .receiveDiagnosticResults 1 0x00 255
  | .ses .configuration _ => .receiveDiagnosticResults 1 0x01 65535
  | .ses .status _ => .receiveDiagnosticResults 1 0x02 65535
  | .ses .descriptors _ => .receiveDiagnosticResults 1 0x07 65535
  | .ses .vendor _ => .receiveDiagnosticResults 1 0x80 255
  | .ses (.unknown page) _ => .receiveDiagnosticResults 1 page.toNat 2048
  | .persistentReserveIn sa alloc => .persistentReserveIn sa.toNat alloc.toNat

/-- **C29** for command objects: what the target reads from the request of an object is what its arguments ask for. -/
theorem C29_objects (L : Lib) (B : Parse.BufLib) (other : Bytes → Py (List (String × Int))) (c : Cmd) (q : Req) (hc : InRange c.cdb)
    (h : (c.command L B other).request = .ok q) : decode q.cdb (dataOut q) = some (asks c) := by
  have := Cdb.C29_decode L c.cdb q hc h
  rw [this]
  cases c with
  | vpd v => cases v <;> rfl
  | ses v => cases v <;> rfl
  | _ => rfl

/-- Objects in range of each shape. -/
example : InRange (Cmd.reserve10 7).cdb ∧ InRange (Cmd.standardInquiry 0 0 36).cdb ∧ InRange (Cmd.vpd (.unknown 0xB1)).cdb ∧
    InRange (Cmd.persistentReserveOut { serviceAction := 1, key := 5, prType := 3 }).cdb := by
  simp [InRange, Cmd.cdb, Fits, VpdCommand.args]

/-- **C39** for command objects: the decoder is the one of the format asked for. The object for the length only format gives the groups, the one
for the extended format the header of that format and never the groups. -/
theorem C39_objects (L : Lib) (B : Parse.BufLib) (other : Bytes → Py (List (String × Int))) (alloc : Int) (groups : List Bytes) (rest : Bytes)
    (hg : ∀ d ∈ groups, Spec.IsTargetPortGroup d) (hsg : B.sg = true → ∀ d ∈ groups, Spec.byteAt d 5 < 128 ∧ Spec.byteAt d 7 < 128)
    (hl : groups.flatten.length + 4 < 2 ^ 31) :
    ((Cmd.rtpg 0 alloc).command L B other).decode (some (some (Spec.rtpgLengthOnly groups ++ rest))) =
      .ok (.groups { attrs := [("data_length", groups.flatten.length)], groups := groups.map Parse.groupObject }) ∧
    ∀ time r, ((Cmd.rtpg 1 alloc).command L B other).decode (some (some (Spec.rtpgExtended time groups ++ rest))) = .ok r →
      ∃ t, r = .groups t ∧ t.attrs = [("data_length", ((groups.flatten.length + 4 : Nat) : Int)), ("format_type", 1)] ∧ t.groups ≠ groups.map Parse.groupObject := by
  refine ⟨?_, fun time r h => ?_⟩
  · simp only [Cmd.command, Cmd.decode, Option.getD_some, withData, Parse.C39_length_only B.sg groups rest hg hsg (by omega)]
    rfl
  · simp only [Cmd.command, Cmd.decode, Option.getD_some, withData] at h
    cases h1 : Parse.rtpg B.sg 1 (Spec.rtpgExtended time groups ++ rest) with
    | error e => rw [h1] at h; cases h
    | ok t =>
      rw [h1] at h
      cases h
      exact ⟨t, rfl, Parse.C39_extended_partial B.sg time groups rest hl t h1, Parse.C39_extended_false B.sg time groups rest hg hl t h1⟩

end Verif.Commands
