import Verif.Props.PackFullStatus
import Verif.Props.Cdb
/-!
# C34, C114: a transport identifier the device reported is given back to it
-/

namespace Verif.Parse
open Verif Verif.Cdb

/-- What `transportId` makes of the bytes of a transport identifier. -/
theorem transportId_bytes (sg : Bool) (b : UInt8) (data : Bytes) :
    transportId sg (b :: data) = .ok ⟨[("protocol_identifier", ((b.toNat % 16 : Nat) : Int)), ("reserved_1", ((b.toNat / 16 % 4 : Nat) : Int)),
      ("format_code", ((b.toNat / 64 % 4 : Nat) : Int))], data⟩ := by
  simp [transportId, unpackFields, UField.value, UField.name, Ref.read, getBits, bind, Except.bind]

/-- **C114** (transports): one read from a device packs as the bytes the device sent, with the reserved bits cleared. -/
theorem C114_transport_back (L : BufLib) (Lb : Lib) (sg : Bool) (b : UInt8) (data : Bytes) :
    ∃ t, transportId sg (b :: data) = .ok t ∧ ∃ b' : UInt8, packTransport L Lb t = .ok (b' :: data) ∧ b'.toNat = b.toNat - 16 * (b.toNat / 16 % 4) := by
  refine ⟨_, transportId_bytes sg b data, ?_⟩
  obtain ⟨b', h1, h2, -⟩ := C114_transport L Lb (some (b.toNat % 16)) (some (b.toNat / 64 % 4)) (fun p h => by cases h; omega) (fun f h => by cases h; omega)
    [("reserved_1", ((b.toNat / 16 % 4 : Nat) : Int))] (.inr ⟨_, rfl⟩) data
  refine ⟨b', h1, ?_⟩
  have hb := b.toNat_lt
  simp only [Option.getD_some] at h2
  omega

/-- The object of `cdb/persist/transport.py:6-10` that was read, as the argument `transport_id` of REGISTER AND MOVE. -/
def TransportId.argument (t : TransportId) : Cdb.TransportId := ⟨get t.attrs "protocol_identifier", get t.attrs "format_code", t.specificData⟩

/-- **C34** (moving to a port the device reported): a program that reads the full status and gives the transport identifier of one of the descriptors to REGISTER AND
MOVE sends the device the bytes of the identifier it reported, provided their reserved bits are 0. -/
theorem C34_move_to_reported (L : Lib) (sg : Bool) (d rest : Bytes) (hd : Spec.IsFullStatus d) (hres : Spec.bitsAt d 24 5 4 = 0) (hlen : d.length < 2 ^ 32)
    (a : ProutArgs) (h : ProutOk a) (h7 : a.serviceAction = 7) :
    ∃ o n, fullStatus sg (d ++ rest) = .ok (o, n) ∧ (a.transportId = some o.transport.argument →
      persistentReserveOut L a = .ok (.write (Spec.Cdb.persistentReserveOut 7 a.prType.toNat d.length)
        (Spec.Cdb.proutRegisterAndMove a.key.toNat a.saKey.toNat (a.unregister = 1) (a.aptpl = 1) a.relPort.toNat (d.drop 24)))) := by
  refine ⟨_, _, fullStatus_at sg d rest hd, fun ht => ?_⟩
  obtain ⟨-, h25⟩ := hd
  obtain ⟨b, data, hb⟩ : ∃ b data, d.drop 24 = b :: data := by
    cases hc : d.drop 24 with
    | nil => have := congrArg List.length hc; simp at this; omega
    | cons b data => exact ⟨b, data, rfl⟩
  have hdata : d.drop 25 = data := by
    have := congrArg (List.drop 1) hb
    rwa [List.drop_drop] at this
  have hl : data.length + 25 = d.length := by rw [← hdata, List.length_drop]; omega
  have h24 : Spec.byteAt d 24 = b.toNat := by
    have h1 : (d.drop 24)[0]? = some b := by rw [hb]; rfl
    rw [List.getElem?_drop] at h1
    simp [Spec.byteAt, List.getD_eq_getElem?_getD, h1]
  have h0 : Spec.byteAt (b :: data) 0 = b.toNat := by simp [Spec.byteAt]
  have hlt := b.toNat_lt
  simp only [Spec.bitsAt, h24] at hres
  have hp : (fullStatusObject d).transport.argument = ⟨((b.toNat % 16 : Nat) : Int), ((b.toNat / 64 % 4 : Nat) : Int), data⟩ := by
    simp [fullStatusObject, TransportId.argument, Spec.transportId, hb, hdata, get, List.lookup, Spec.bitsAt, h0]
  rw [hp] at ht
  have f1 : Spec.Cdb.Fits 4 ((b.toNat % 16 : Nat) : Int) := by unfold Spec.Cdb.Fits; omega
  have f2 : Spec.Cdb.Fits 2 ((b.toNat / 64 % 4 : Nat) : Int) := by unfold Spec.Cdb.Fits; omega
  rw [C34_register_and_move L a _ h h7 ht f1 f2 (by simp only; omega)]
  simp only [hl, hb]
  have hbyte : byte (((b.toNat % 16 : Nat) : Int).toNat + ((b.toNat / 64 % 4 : Nat) : Int).toNat * 64) = b := by
    have : ((b.toNat % 16 : Nat) : Int).toNat + ((b.toNat / 64 % 4 : Nat) : Int).toNat * 64 = b.toNat := by omega
    rw [this]
    simp [byte]
  rw [hbyte]

/-- A registrant over iSCSI: the length of its TransportID is 24. -/
def reportedStatus : Bytes := be 8 0x1234 ++ zeros 12 ++ be 4 24 ++ ([5, 0, 0, 20] ++ List.replicate 19 0x61 ++ [0])

example : Spec.IsFullStatus reportedStatus ∧ Spec.bitsAt reportedStatus 24 5 4 = 0 ∧ reportedStatus.length < 2 ^ 32 := by decide

/-- The registration is moved there. -/
example (L : Lib) (sg : Bool) :
    let a : ProutArgs := { serviceAction := 7, key := 1, saKey := 2, relPort := 3, transportId := some ⟨5, 0, [0, 0, 20] ++ List.replicate 19 0x61 ++ [0]⟩ }
    ∃ o n, fullStatus sg reportedStatus = .ok (o, n) ∧ a.transportId = some o.transport.argument ∧
      persistentReserveOut L a = .ok (.write [0x5F, 7, 1, 0, 0, 0, 0, 0, 48, 0] (be 8 1 ++ be 8 2 ++ [0, 0, 0, 3, 0, 0, 0, 24] ++ reportedStatus.drop 24)) := by
  intro a
  obtain ⟨o, n, h1, h2⟩ := C34_move_to_reported L sg reportedStatus [] (by decide) (by decide) (by decide) a (by constructor <;> simp [a, Spec.Cdb.Fits]) rfl
  have h3 := fullStatus_at sg reportedStatus [] (by decide)
  have ho : o = fullStatusObject reportedStatus := by rw [h1] at h3; simp only [Except.ok.injEq, Prod.mk.injEq] at h3; exact h3.1
  have ha : a.transportId = some o.transport.argument := by rw [ho]; rfl
  rw [List.append_nil] at h1
  refine ⟨o, n, h1, ha, ?_⟩
  rw [h2 ha]
  simp only [a]
  decide

end Verif.Parse
