import Verif.Props.Options
import Verif.Parse.Core

set_option linter.unusedSimpArgs false

/-!
# C75 for the commands whose fields have positions

LOG SENSE, RECEIVE COPY RESULTS, RECEIVE DIAGNOSTIC RESULTS, RESERVE, RELEASE and PERSISTENT RESERVE, and TEST UNIT READY, which has
nothing but a control byte.  Two sorts of declaration make two sorts of behaviour: what is declared with `default=` follows
the assignments, what is declared with `set_before_pack=` does not (`C75_control_ignored`, `C75_reset_false`).
-/

namespace Verif.Options

open Verif.Cdb
open Verif.Spec.Options (last Unused Party)

/-! ## A new object, executed as it is -/

/-- Evaluate construction and execution of an object with positional fields. -/
macro "new_at" "[" ls:Lean.Parser.Tactic.simpLemma,* "]" : tactic => `(tactic| (
  simp only [$ls,*, bind_assoc', ok_bind, Obj.execute, Obj.executeWith, Obj.datagram, Obj.prepared, Obj.packed, Cls.positional,
    Cls.resets, Obj.set, Obj.get, if_true, Bool.false_eq_true, if_false, Cls.places, controlPlaces, thirdPartyPlaces, List.cons_append,
    List.nil_append, placed, attr, List.lookup]
  simp [Cdb.controlAt, bind_assoc', ok_bind, Cdb.thirdPartyFields, List.lookup]))

theorem C75_new_testUnitReady (L : Lib) : (newTestUnitReady >>= Obj.execute L) = testUnitReady L := by
  new_eq [newTestUnitReady, testUnitReady]

theorem C75_new_logSense (L : Lib) (page subpage alloc : Int) :
    (newLogSense page subpage alloc >>= Obj.execute L) = logSense L page subpage alloc := by
  new_at [newLogSense, logSense]

theorem C75_new_receiveCopy (L : Lib) (alloc ctrl : Int) :
    (newReceiveCopy alloc ctrl >>= Obj.execute L) = receiveCopyOperatingParameters L alloc ctrl := by
  new_at [newReceiveCopy, receiveCopyOperatingParameters]

theorem C75_new_receiveDiagnostic (L : Lib) (pcv page alloc : Int) :
    (newReceiveDiagnostic pcv page alloc >>= Obj.execute L) = receiveDiagnostic L pcv page alloc := by
  new_at [newReceiveDiagnostic, receiveDiagnostic]

theorem C75_new_reserve6 (L : Lib) : (newReserve6 >>= Obj.execute L) = reserve6 L := by
  new_at [newReserve6, reserve6]

theorem C75_new_release6 (L : Lib) : (newRelease6 >>= Obj.execute L) = release6 L := by
  new_at [newRelease6, release6]

theorem C75_new_reserve10 (L : Lib) (id : Int) : (newReserve10 L id >>= Obj.execute L) = reserve10 L id := by
  unfold newReserve10 reserve10
  by_cases h : id > 0
  · by_cases h' : id < 255
    · simp only [if_pos h, if_pos h']
      new_at [Cdb.thirdPartyFields]
    · simp only [if_pos h, if_neg h']
      new_at [Cdb.thirdPartyFields]
  · simp only [if_neg h]
    new_at [Cdb.thirdPartyFields]

theorem C75_new_release10 (L : Lib) (id : Int) : (newRelease10 L id >>= Obj.execute L) = release10 L id := by
  unfold newRelease10 release10
  by_cases h : id > 0
  · by_cases h' : id < 255
    · simp only [if_pos h, if_pos h']
      new_at [Cdb.thirdPartyFields]
    · simp only [if_pos h, if_neg h']
      new_at [Cdb.thirdPartyFields]
  · simp only [if_neg h]
    new_at [Cdb.thirdPartyFields]

theorem C75_new_prOut (L : Lib) (a : ProutArgs) : (newPrOut L a >>= Obj.execute L) = persistentReserveOut L a := by
  new_at [newPrOut, persistentReserveOut]

theorem C75_new_prIn (L : Lib) (action alloc : Int) : (newPrIn action alloc >>= Obj.execute L) = persistentReserveIn L action alloc := by
  new_at [newPrIn, persistentReserveIn]

/-! ## After assignments -/

theorem attr_prepared (o : Obj) (name : String) (d : Option Int) (h1 : name ≠ "naca") (h2 : name ≠ "vendor_specific") :
    attr o.prepared.attrs name d = attr o.attrs name d := by
  simp only [Obj.prepared]
  split
  · simp only [Obj.set]
    rw [attr_other _ _ _ _ _ (Ne.symm h1), attr_other _ _ _ _ _ (Ne.symm h2)]
  · rfl

theorem prepared_cls (o : Obj) : o.prepared.cls = o.cls := by
  simp only [Obj.prepared]; split <;> rfl

theorem prepared_same (o : Obj) (h : o.cls.resets = false) : o.prepared = o := by
  simp [Obj.prepared, h]

theorem prepared_control (o : Obj) (h : o.cls.resets = true) (d : Option Int) :
    attr o.prepared.attrs "naca" d = .ok 0 ∧ attr o.prepared.attrs "vendor_specific" d = .ok 0 := by
  simp [Obj.prepared, h, Obj.set, attr, List.lookup]

theorem datagram_at (L : Lib) (o : Obj) (h : o.cls.positional = true) :
    o.datagram L = (placed o.prepared.attrs o.cls.places >>= fun vs => packAt L vs []) := by
  simp only [Obj.datagram, Obj.packed, prepared_cls, h, if_true]

/-- Evaluate the datagram of a class with positional fields; the values of the attributes are among the arguments. -/
macro "places" "[" ls:Lean.Parser.Tactic.simpLemma,* "]" : tactic => `(tactic| (
  simp only [Cls.places, controlPlaces, thirdPartyPlaces, List.cons_append, List.nil_append, placed, $ls,*, ok_bind, packAt, Ref.width,
    Nat.reduceSub, Nat.reduceMul, Lib.enc_zero]))

/-- What the positions add up to. -/
macro "laid" "[" ls:Lean.Parser.Tactic.simpLemma,* "]" : tactic => `(tactic| (
  simp [Ref.write, grow, setRange, setBits, zeros, List.replicate, be_one, $ls,*]))

theorem control_bits (n v : Nat) (hn : n < 2) (_ : v < 4) :
    setBits (setBits 0 2 3 n) 6 8 v = Spec.Options.control n v := by
  simp only [setBits, Spec.Options.control, byte_toNat, UInt8.toNat_zero]
  apply byte_mod
  omega

/-- **C75** for LOG SENSE: SP, PC and the parameter pointer are sent as assigned; the control byte cannot be set. -/
theorem C75_logSense (L : Lib) (page subpage alloc : Int) (o : Obj) (sets : List (String × Int)) (sp pc pg sub ptr al : Nat)
    (hnew : newLogSense page subpage alloc = .ok o)
    (h1 : last sets "sp" 0 = sp) (h2 : last sets "pc" 0 = pc) (h3 : last sets "page_code" page = pg) (h4 : last sets "subpage_code" subpage = sub)
    (h5 : last sets "parameter_pointer" 0 = ptr) (h6 : last sets "allocation_length" alloc = al)
    (b1 : sp < 2) (b2 : pc < 4) (b3 : pg < 64) (b4 : sub < 256) (b5 : ptr < 65536) (b6 : al < 65536) :
    (o.sets sets).execute L = .ok (.read (Spec.Options.logSense sp pc pg sub ptr al) al) := by
  have ho := Except.ok.inj hnew
  have hc : (o.sets sets).cls = .logSense := by rw [sets_cls, ← ho]
  have e1 := attr_sets o sets "sp" none 0 (by known ho)
  have e2 := attr_sets o sets "pc" none 0 (by known ho)
  have e3 := attr_sets o sets "page_code" none page (by known ho)
  have e4 := attr_sets o sets "subpage_code" none subpage (by known ho)
  have e5 := attr_sets o sets "parameter_pointer" none 0 (by known ho)
  have e6 := attr_sets o sets "allocation_length" none alloc (by known ho)
  rw [h1] at e1; rw [h2] at e2; rw [h3] at e3; rw [h4] at e4; rw [h5] at e5; rw [h6] at e6
  have e7 := prepared_control (o.sets sets) (by rw [hc]; rfl) (some 0)
  have g0 := L.enc_ok 8 77 (by decide)
  simp only [Int.cast_ofNat_Int] at g0
  have hd : (o.sets sets).datagram L = .ok (Spec.Options.logSense sp pc pg sub ptr al) := by
    rw [datagram_at L _ (by rw [hc]; rfl), hc]
    places [attr_prepared, ne_eq, String.reduceEq, not_false_eq_true, e1, e2, e3, e4, e5, e6, e7.1, e7.2, g0, L.enc_ok 1 _ b1, L.enc_ok 2 _ b2,
      L.enc_ok 6 _ b3, L.enc_ok 8 _ b4, L.enc_ok 16 _ b5, L.enc_ok 16 _ b6]
    obtain ⟨x1, x2, hx⟩ : ∃ x y, be 2 ptr = [x, y] := ⟨_, _, rfl⟩
    obtain ⟨y1, y2, hy⟩ : ∃ x y, be 2 al = [x, y] := ⟨_, _, rfl⟩
    laid [Spec.Options.logSense, hx, hy, Nat.mod_eq_of_lt b1, Nat.mod_eq_of_lt b2, Nat.mod_eq_of_lt b3]
  simp only [Obj.execute, hd, Obj.executeWith, hc, Obj.get, e6, ok_bind]

/-- **C75** for TEST UNIT READY. -/
theorem C75_testUnitReady (L : Lib) (o : Obj) (sets : List (String × Int)) (c v : Nat) (hnew : newTestUnitReady = .ok o)
    (hs : Assigned sets (controlNames c v)) (hc1 : c < 2) (hv : v < 4) :
    (o.sets sets).execute L = .ok (.read (Spec.Options.testUnitReady c v) 0) := by
  have ho := Except.ok.inj hnew
  have hc : (o.sets sets).cls = .testUnitReady := by rw [sets_cls, ← ho]
  have e := fun name v hm => attr_assigned (o := o) hs name v hm
  have hp : pack L (o.sets sets).attrs (.const [0] :: Cls.fields .testUnitReady) = .ok (Spec.Options.testUnitReady c v) := by
    fields [control_pack L _ c v hc1 hv (e _ _ (by simp [controlNames]) (by known ho)) (e _ _ (by simp [controlNames]) (by known ho))]
    simp [Spec.Options.testUnitReady, zeros, List.replicate]
  simp only [Obj.execute, Obj.executeWith, hc, Obj.datagram, Obj.prepared, Obj.packed, Cls.positional, Cls.resets, Bool.false_eq_true,
    if_false, Cls.op, hp, ok_bind]

/-- **C75** for RECEIVE COPY RESULTS: the control byte is an integer of its own. -/
theorem C75_receiveCopy (L : Lib) (alloc ctrl : Int) (o : Obj) (sets : List (String × Int)) (al ct : Nat)
    (hnew : newReceiveCopy alloc ctrl = .ok o) (h1 : last sets "allocation_length" alloc = al) (h2 : last sets "control" ctrl = ct)
    (b1 : al < 2 ^ 32) (b2 : ct < 2 ^ 8) :
    (o.sets sets).execute L = .ok (.read (Spec.Options.receiveCopy al ct) al) := by
  have ho := Except.ok.inj hnew
  have hc : (o.sets sets).cls = .receiveCopy := by rw [sets_cls, ← ho]
  have e1 := attr_sets o sets "allocation_length" none alloc (by known ho)
  have e2 := attr_sets o sets "control" none ctrl (by known ho)
  rw [h1] at e1; rw [h2] at e2
  have g0 := L.enc_ok 8 0x84 (by decide)
  have g1 := L.enc_ok 5 3 (by decide)
  simp only [Int.cast_ofNat_Int] at g0 g1
  have hd : (o.sets sets).datagram L = .ok (Spec.Options.receiveCopy al ct) := by
    rw [datagram_at L _ (by rw [hc]; rfl), hc]
    places [attr_prepared, ne_eq, String.reduceEq, not_false_eq_true, e1, e2, g0, g1, L.enc_ok 32 _ b1, L.enc_ok 8 _ b2]
    obtain ⟨x1, x2, x3, x4, hx⟩ : ∃ x y z w, be 4 al = [x, y, z, w] := ⟨_, _, _, _, rfl⟩
    laid [Spec.Options.receiveCopy, hx]
  simp only [Obj.execute, hd, Obj.executeWith, hc, Obj.get, e1, ok_bind]

/-- **C75** for RECEIVE DIAGNOSTIC RESULTS; the control byte cannot be set. -/
theorem C75_receiveDiagnostic (L : Lib) (pcv page alloc : Int) (o : Obj) (sets : List (String × Int)) (pv pg al : Nat)
    (hnew : newReceiveDiagnostic pcv page alloc = .ok o) (h1 : last sets "pcv" pcv = pv) (h2 : last sets "page_code" page = pg)
    (h3 : last sets "allocation_length" alloc = al) (b1 : pv < 2) (b2 : pg < 2 ^ 8) (b3 : al < 2 ^ 16) :
    (o.sets sets).execute L = .ok (.read (Spec.Options.receiveDiagnostic pv pg al) al) := by
  have ho := Except.ok.inj hnew
  have hc : (o.sets sets).cls = .receiveDiagnostic := by rw [sets_cls, ← ho]
  have e1 := attr_sets o sets "pcv" none pcv (by known ho)
  have e2 := attr_sets o sets "page_code" none page (by known ho)
  have e3 := attr_sets o sets "allocation_length" none alloc (by known ho)
  rw [h1] at e1; rw [h2] at e2; rw [h3] at e3
  have e7 := prepared_control (o.sets sets) (by rw [hc]; rfl) (some 0)
  have g0 := L.enc_ok 8 0x1C (by decide)
  simp only [Int.cast_ofNat_Int] at g0
  have hd : (o.sets sets).datagram L = .ok (Spec.Options.receiveDiagnostic pv pg al) := by
    rw [datagram_at L _ (by rw [hc]; rfl), hc]
    places [attr_prepared, ne_eq, String.reduceEq, not_false_eq_true, e1, e2, e3, e7.1, e7.2, g0, L.enc_ok 1 _ b1, L.enc_ok 8 _ b2,
      L.enc_ok 16 _ b3]
    obtain ⟨y1, y2, hy⟩ : ∃ x y, be 2 al = [x, y] := ⟨_, _, rfl⟩
    laid [Spec.Options.receiveDiagnostic, hy, Nat.mod_eq_of_lt b1]
  simp only [Obj.execute, hd, Obj.executeWith, hc, Obj.get, e3, ok_bind]

/-- **C75** for PERSISTENT RESERVE OUT: service action, type and length are sent as assigned, the parameter list is the one built by the
constructor, scope and control byte cannot be set. -/
theorem C75_prOut (L : Lib) (a : ProutArgs) (params : Bytes) (o : Obj) (sets : List (String × Int)) (sa ty len : Nat)
    (hnew : newPrOut L a = .ok o) (hp : proutParams L a = .ok params) (h1 : last sets "service_action" a.serviceAction = sa)
    (h2 : last sets "pr_type" a.prType = ty) (h3 : last sets "parameter_list_length" params.length = len)
    (b1 : sa < 32) (b2 : ty < 16) (b3 : len < 2 ^ 32) :
    (o.sets sets).execute L = .ok (.write (Spec.Options.prOut sa ty len) params) := by
  simp only [newPrOut, hp, ok_bind] at hnew
  have ho := Except.ok.inj hnew
  have hc : (o.sets sets).cls = .prOut := by rw [sets_cls, ← ho]
  have hb : (o.sets sets).buffer = params := by rw [sets_buffer, ← ho]
  have e1 := attr_sets o sets "service_action" none a.serviceAction (by known ho)
  have e2 := attr_sets o sets "pr_type" none a.prType (by known ho)
  have e3 := attr_sets o sets "parameter_list_length" none params.length (by known ho)
  rw [h1] at e1; rw [h2] at e2; rw [h3] at e3
  have e7 := prepared_control (o.sets sets) (by rw [hc]; rfl) (some 0)
  have g0 := L.enc_ok 8 0x5F (by decide)
  simp only [Int.cast_ofNat_Int] at g0
  have hd : (o.sets sets).datagram L = .ok (Spec.Options.prOut sa ty len) := by
    rw [datagram_at L _ (by rw [hc]; rfl), hc]
    places [attr_prepared, ne_eq, String.reduceEq, not_false_eq_true, e1, e2, e3, e7.1, e7.2, g0, L.enc_ok 5 _ b1, L.enc_ok 4 _ b2,
      L.enc_ok 32 _ b3]
    obtain ⟨x1, x2, x3, x4, hx⟩ : ∃ x y z w, be 4 len = [x, y, z, w] := ⟨_, _, _, _, rfl⟩
    laid [Spec.Options.prOut, hx, Nat.mod_eq_of_lt b1, Nat.mod_eq_of_lt b2]
  simp only [Obj.execute, hd, Obj.executeWith, hc, hb, ok_bind]

/-- **C75** for PERSISTENT RESERVE IN; the control byte cannot be set. -/
theorem C75_prIn (L : Lib) (action alloc : Int) (o : Obj) (sets : List (String × Int)) (sa al : Nat)
    (hnew : newPrIn action alloc = .ok o) (h1 : last sets "service_action" action = sa) (h2 : last sets "allocation_length" alloc = al)
    (b1 : sa < 32) (b2 : al < 2 ^ 16) :
    (o.sets sets).execute L = .ok (.read (Spec.Options.prIn sa al) al) := by
  simp only [newPrIn, bind_eq_ok, pyAssert_eq_ok] at hnew
  obtain ⟨-, -, ho⟩ := hnew
  have ho := Except.ok.inj ho
  have hc : (o.sets sets).cls = .prIn := by rw [sets_cls, ← ho]
  have e1 := attr_sets o sets "service_action" none action (by known ho)
  have e2 := attr_sets o sets "allocation_length" none alloc (by known ho)
  rw [h1] at e1; rw [h2] at e2
  have e7 := prepared_control (o.sets sets) (by rw [hc]; rfl) (some 0)
  have g0 := L.enc_ok 8 0x5E (by decide)
  simp only [Int.cast_ofNat_Int] at g0
  have hd : (o.sets sets).datagram L = .ok (Spec.Options.prIn sa al) := by
    rw [datagram_at L _ (by rw [hc]; rfl), hc]
    places [attr_prepared, ne_eq, String.reduceEq, not_false_eq_true, e1, e2, e7.1, e7.2, g0, L.enc_ok 5 _ b1, L.enc_ok 16 _ b2]
    obtain ⟨y1, y2, hy⟩ : ∃ x y, be 2 al = [x, y] := ⟨_, _, rfl⟩
    laid [Spec.Options.prIn, hy, Nat.mod_eq_of_lt b1]
  simp only [Obj.execute, hd, Obj.executeWith, hc, Obj.get, e2, ok_bind]

/-! ## RESERVE and RELEASE -/

theorem attr_start (o : Obj) (sets : List (String × Int)) (name : String) (d v : Int) (h : attr o.attrs name (some d) = .ok v) :
    attr (o.sets sets).attrs name (some d) = .ok (last sets name v) := by
  cases hl : o.attrs.lookup name with
  | none =>
    simp only [attr, hl] at h
    cases h
    exact attr_sets_default o sets name d hl
  | some x =>
    simp only [attr, hl] at h
    cases h
    exact attr_sets o sets name _ _ hl

theorem six_bits (a b : Nat) (ha : a < 32) (_ : b < 8) : setBits (setBits 0 0 5 a) 5 8 b = byte (b * 32 + a) := by
  simp only [setBits, byte_toNat, UInt8.toNat_zero]
  apply byte_mod
  omega

/-- **C75** for RESERVE(6): the fields nobody uses, and the control byte. -/
theorem C75_reserve6 (L : Lib) (o : Obj) (sets : List (String × Int)) (u : Unused) (c v : Nat) (hnew : newReserve6 = .ok o)
    (hs : Assigned sets ([("obsolete_1", u.low), ("reserved_1", u.high), ("obsolete_2", u.second), ("obsolete_3", u.third * 256 + u.fourth)] ++
      controlNames c v)) (hu : u.Valid) (hc1 : c < 2) (hv : v < 4) :
    (o.sets sets).execute L = .ok (.write (Spec.Options.sixBytes 0x16 u c v) []) := by
  have ho := Except.ok.inj hnew
  have hc : (o.sets sets).cls = .reserve6 := by rw [sets_cls, ← ho]
  have e := fun name v hm => attr_assigned (o := o) hs name v hm
  obtain ⟨u1, u2, u3, u4, u5⟩ := hu
  have e1 := e "obsolete_1" u.low (by simp) (by known ho)
  have e2 := e "reserved_1" u.high (by simp) (by known ho)
  have e3 := e "obsolete_2" u.second (by simp) (by known ho)
  have e4 := e "obsolete_3" (u.third * 256 + u.fourth) (by simp) (by known ho)
  have e5 := e "naca" c (by simp [controlNames]) (by known ho)
  have e6 := e "vendor_specific" v (by simp [controlNames]) (by known ho)
  have g0 := L.enc_ok 8 0x16 (by decide)
  simp only [Int.cast_ofNat_Int] at g0
  have hd : (o.sets sets).datagram L = .ok (Spec.Options.sixBytes 0x16 u c v) := by
    rw [datagram_at L _ (by rw [hc]; rfl), prepared_same _ (by rw [hc]; rfl), hc]
    places [e1, e2, e3, e4, e5, e6, g0, L.enc_ok 5 _ u1, L.enc_ok 3 _ u2, L.enc_ok 8 _ u3, L.enc_ok 16 (u.third * 256 + u.fourth) (by omega),
      L.enc_ok 1 _ hc1, L.enc_ok 2 _ hv]
    have hx : be 2 (u.third * 256 + u.fourth) = [byte u.third, byte u.fourth] := by
      simp only [be, List.cons.injEq, and_true]
      refine ⟨byte_mod _ _ ?_, byte_mod _ _ ?_⟩ <;> simp only [Nat.reducePow] <;> omega
    simp [Ref.write, grow, setRange, zeros, List.replicate, be_one, hx, Spec.Options.sixBytes, six_bits _ _ u1 u2, control_bits _ _ hc1 hv]
  simp only [Obj.execute, hd, Obj.executeWith, hc, ok_bind]

/-- **C75** for RELEASE(6). -/
theorem C75_release6 (L : Lib) (o : Obj) (sets : List (String × Int)) (u : Unused) (c v : Nat) (hnew : newRelease6 = .ok o)
    (hs : Assigned sets ([("obsolete_1", u.low), ("reserved_1", u.high), ("obsolete_2", u.second), ("reserved_3", u.third),
      ("reserved_4", u.fourth)] ++ controlNames c v)) (hu : u.Valid) (hc1 : c < 2) (hv : v < 4) :
    (o.sets sets).execute L = .ok (.write (Spec.Options.sixBytes 0x17 u c v) []) := by
  have ho := Except.ok.inj hnew
  have hc : (o.sets sets).cls = .release6 := by rw [sets_cls, ← ho]
  have e := fun name v hm => attr_assigned (o := o) hs name v hm
  obtain ⟨u1, u2, u3, u4, u5⟩ := hu
  have e1 := e "obsolete_1" u.low (by simp) (by known ho)
  have e2 := e "reserved_1" u.high (by simp) (by known ho)
  have e3 := e "obsolete_2" u.second (by simp) (by known ho)
  have e4 := e "reserved_3" u.third (by simp) (by known ho)
  have e4' := e "reserved_4" u.fourth (by simp) (by known ho)
  have e5 := e "naca" c (by simp [controlNames]) (by known ho)
  have e6 := e "vendor_specific" v (by simp [controlNames]) (by known ho)
  have g0 := L.enc_ok 8 0x17 (by decide)
  simp only [Int.cast_ofNat_Int] at g0
  have hd : (o.sets sets).datagram L = .ok (Spec.Options.sixBytes 0x17 u c v) := by
    rw [datagram_at L _ (by rw [hc]; rfl), prepared_same _ (by rw [hc]; rfl), hc]
    places [e1, e2, e3, e4, e4', e5, e6, g0, L.enc_ok 5 _ u1, L.enc_ok 3 _ u2, L.enc_ok 8 _ u3, L.enc_ok 8 _ u4, L.enc_ok 8 _ u5,
      L.enc_ok 1 _ hc1, L.enc_ok 2 _ hv]
    simp [Ref.write, grow, setRange, zeros, List.replicate, be_one, Spec.Options.sixBytes, six_bits _ _ u1 u2, control_bits _ _ hc1 hv]
  simp only [Obj.execute, hd, Obj.executeWith, hc, ok_bind]

/-- The fields of RESERVE(10) and RELEASE(10) as the constructor and then the assignments leave them: the identifier goes to byte 3 when
it is below 255 and to an eight byte parameter list otherwise. -/
structure PartySets (sets : List (String × Int)) (id : Int) (p : Party) (c v : Nat) : Prop where
  third : last sets "third_party" (if 0 < id then 1 else 0) = p.thirdParty
  long : last sets "long_id" (if 255 ≤ id then 1 else 0) = p.longId
  ident : last sets "third_party_device_id" (if 0 < id ∧ id < 255 then id else 0) = p.id
  length : last sets "parameter_list_length" (if 255 ≤ id then 8 else 0) = p.length
  rest : Assigned sets ([("obsolete_1", p.bit0), ("reserved_1", p.bits2), ("reserved_2", p.bits5), ("obsolete_2", p.second),
    ("reserved_3", p.fourth)] ++ controlNames c v)

theorem ten_bits (a b c d e : Nat) (ha : a < 2) (hb : b < 2) (hc : c < 4) (hd : d < 2) (_ : e < 8) :
    setBits (setBits (setBits (setBits (setBits 0 0 1 a) 1 2 b) 2 4 c) 4 5 d) 5 8 e = byte (e * 32 + d * 16 + c * 4 + b * 2 + a) := by
  simp only [setBits, byte_toNat, UInt8.toNat_zero]
  apply byte_mod
  omega

theorem ten_packed (L : Lib) (e : Attrs) (src : Source) (op : Nat) (p : Party) (c v : Nat) (hp : p.Valid) (hc : c < 2) (hv : v < 4)
    (hop : op < 256) (h0 : ∀ d, src = .attr d → attr e "operation_code" d = .ok (op : Int)) (h0' : ∀ x, src = .fixed x → x = op)
    (h1 : attr e "obsolete_1" (some 0) = .ok (p.bit0 : Int)) (h2 : attr e "long_id" (some 0) = .ok (p.longId : Int))
    (h3 : attr e "reserved_1" (some 0) = .ok (p.bits2 : Int)) (h4 : attr e "third_party" (some 0) = .ok (p.thirdParty : Int))
    (h5 : attr e "reserved_2" (some 0) = .ok (p.bits5 : Int)) (h6 : attr e "obsolete_2" (some 0) = .ok (p.second : Int))
    (h7 : attr e "third_party_device_id" (some 0) = .ok (p.id : Int)) (h8 : attr e "reserved_3" (some 0) = .ok (p.fourth : Int))
    (h9 : attr e "parameter_list_length" (some 0) = .ok (p.length : Int)) (h10 : attr e "naca" (some 0) = .ok (c : Int))
    (h11 : attr e "vendor_specific" (some 0) = .ok (v : Int)) :
    (placed e (thirdPartyPlaces src) >>= fun vs => packAt L vs []) = .ok (Spec.Options.tenBytes op p c v) := by
  obtain ⟨u1, u2, u3, u4, u5, u6, u7, u8, u9⟩ := hp
  have g0 := L.enc_ok 8 op hop
  obtain ⟨x1, x2, hx⟩ : ∃ x y, be 2 p.length = [x, y] := ⟨_, _, rfl⟩
  obtain ⟨y1, y2, y3, hy⟩ : ∃ x y z, be 3 p.fourth = [x, y, z] := ⟨_, _, _, rfl⟩
  cases src with
  | fixed x =>
    have := h0' x rfl
    subst this
    places [h1, h2, h3, h4, h5, h6, h7, h8, h9, h10, h11, g0, L.enc_ok 1 _ u1, L.enc_ok 1 _ u2, L.enc_ok 8 _ u3, L.enc_ok 16 _ u4,
      L.enc_ok 1 _ u5, L.enc_ok 2 _ u6, L.enc_ok 3 _ u7, L.enc_ok 8 _ u8, L.enc_ok 24 _ u9, L.enc_ok 1 _ hc, L.enc_ok 2 _ hv]
    simp [Ref.write, grow, setRange, zeros, List.replicate, be_one, Spec.Options.tenBytes, ten_bits _ _ _ _ _ u5 u2 u6 u1 u7, hx, hy,
      control_bits _ _ hc hv]
  | attr d =>
    have h0 := h0 d rfl
    places [h0, h1, h2, h3, h4, h5, h6, h7, h8, h9, h10, h11, g0, L.enc_ok 1 _ u1, L.enc_ok 1 _ u2, L.enc_ok 8 _ u3, L.enc_ok 16 _ u4,
      L.enc_ok 1 _ u5, L.enc_ok 2 _ u6, L.enc_ok 3 _ u7, L.enc_ok 8 _ u8, L.enc_ok 24 _ u9, L.enc_ok 1 _ hc, L.enc_ok 2 _ hv]
    simp [Ref.write, grow, setRange, zeros, List.replicate, be_one, Spec.Options.tenBytes, ten_bits _ _ _ _ _ u5 u2 u6 u1 u7, hx, hy,
      control_bits _ _ hc hv]

theorem party_list (L : Lib) (id : Int) (h0 : 0 ≤ id) (h : id < 2 ^ 64) :
    packAt L [("third_party_device_id", .bytes 0 8, id)] [] = .ok (be 8 id.toNat) := by
  obtain ⟨n, rfl⟩ := Int.eq_ofNat_of_zero_le h0
  have g := L.enc_ok 64 n (by omega)
  have hl : (be 8 n).length = 8 := by simp [be]
  simp only [packAt, Ref.width, Nat.reduceSub, Nat.reduceMul, g, ok_bind, Ref.write, grow, setRange, zeros]
  simp [be]

/-- What the constructors have in common. -/
theorem party_new (L : Lib) (id : Int) (o : Obj) (hid : id < 2 ^ 64) (hnew : newReserve10 L id = .ok o ∨ newRelease10 L id = .ok o) :
    o.buffer = (if 255 ≤ id then be 8 id.toNat else []) ∧
    attr o.attrs "third_party" (some 0) = .ok (if 0 < id then 1 else 0) ∧
    attr o.attrs "long_id" (some 0) = .ok (if 255 ≤ id then 1 else 0) ∧
    attr o.attrs "third_party_device_id" (some 0) = .ok (if 0 < id ∧ id < 255 then id else 0) ∧
    attr o.attrs "parameter_list_length" (some 0) = .ok (if 255 ≤ id then 8 else 0) ∧
    ∀ name ∈ ["operation_code", "obsolete_1", "reserved_1", "reserved_2", "obsolete_2", "reserved_3", "naca", "vendor_specific"],
      o.attrs.lookup name = none := by
  by_cases h : 0 < id
  · by_cases h' : id < 255
    · have h2 : ¬ 255 ≤ id := by omega
      simp only [newReserve10, newRelease10, gt_iff_lt, h, h', if_true, Except.ok.injEq] at hnew
      rcases hnew with rfl | rfl <;> simp [h, h', h2, attr, List.lookup]
    · have h2 : 255 ≤ id := by omega
      simp only [newReserve10, newRelease10, gt_iff_lt, h, h', if_true, if_false, party_list L id (by omega) hid, ok_bind, Except.ok.injEq] at hnew
      rcases hnew with rfl | rfl <;> simp [h, h', h2, attr, List.lookup, be]
  · have h2 : ¬ 255 ≤ id := by omega
    simp only [newReserve10, newRelease10, gt_iff_lt, h, if_false, Except.ok.injEq] at hnew
    rcases hnew with rfl | rfl <;> simp [h, h2, attr, List.lookup]

/-- **C75** for RESERVE(10).  The operation code is declared with `default=` as well, so it follows the assignments like anything else. -/
theorem C75_reserve10 (L : Lib) (id : Int) (o : Obj) (sets : List (String × Int)) (p : Party) (op c v : Nat)
    (hnew : newReserve10 L id = .ok o) (hid : id < 2 ^ 64) (hs : PartySets sets id p c v) (hop : last sets "operation_code" 0x56 = op)
    (hp : p.Valid) (hc1 : c < 2) (hv : v < 4) (hop' : op < 256) :
    (o.sets sets).execute L = .ok (.write (Spec.Options.tenBytes op p c v) (if 255 ≤ id then be 8 id.toNat else [])) := by
  obtain ⟨hbuf, a1, a2, a3, a4, a5⟩ := party_new L id o hid (.inl hnew)
  have hcls : o.cls = .reserve10 := by
    simp only [newReserve10] at hnew
    split at hnew
    · split at hnew
      · rw [← Except.ok.inj hnew]
      · simp only [bind_eq_ok] at hnew
        obtain ⟨_, -, hn⟩ := hnew
        rw [← Except.ok.inj hn]
    · rw [← Except.ok.inj hnew]
  have hc : (o.sets sets).cls = .reserve10 := by rw [sets_cls, hcls]
  have e := fun name v hm => attr_assigned (o := o) hs.rest name v hm
  have hd : (o.sets sets).datagram L = .ok (Spec.Options.tenBytes op p c v) := by
    rw [datagram_at L _ (by rw [hc]; rfl), prepared_same _ (by rw [hc]; rfl), hc]
    refine ten_packed L _ _ op p c v hp hc1 hv hop' ?_ (by simp) (e _ _ (by simp) (a5 _ (by simp))) ?_ (e _ _ (by simp) (a5 _ (by simp))) ?_
      (e _ _ (by simp) (a5 _ (by simp))) (e _ _ (by simp) (a5 _ (by simp))) ?_ (e _ _ (by simp) (a5 _ (by simp))) ?_
      (e _ _ (by simp [controlNames]) (a5 _ (by simp))) (e _ _ (by simp [controlNames]) (a5 _ (by simp)))
    · rintro d ⟨rfl⟩
      rw [attr_sets_default o sets _ _ (a5 _ (by simp)), hop]
    · rw [attr_start o sets _ _ _ a2, hs.long]
    · rw [attr_start o sets _ _ _ a1, hs.third]
    · rw [attr_start o sets _ _ _ a3, hs.ident]
    · rw [attr_start o sets _ _ _ a4, hs.length]
  simp only [Obj.execute, hd, Obj.executeWith, hc, ok_bind, sets_buffer, hbuf]

/-- **C75** for RELEASE(10), whose operation code cannot be set. -/
theorem C75_release10 (L : Lib) (id : Int) (o : Obj) (sets : List (String × Int)) (p : Party) (c v : Nat)
    (hnew : newRelease10 L id = .ok o) (hid : id < 2 ^ 64) (hs : PartySets sets id p c v)
    (hp : p.Valid) (hc1 : c < 2) (hv : v < 4) :
    (o.sets sets).execute L = .ok (.write (Spec.Options.tenBytes 0x57 p c v) (if 255 ≤ id then be 8 id.toNat else [])) := by
  obtain ⟨hbuf, a1, a2, a3, a4, a5⟩ := party_new L id o hid (.inr hnew)
  have hcls : o.cls = .release10 := by
    simp only [newRelease10] at hnew
    split at hnew
    · split at hnew
      · rw [← Except.ok.inj hnew]
      · simp only [bind_eq_ok] at hnew
        obtain ⟨_, -, hn⟩ := hnew
        rw [← Except.ok.inj hn]
    · rw [← Except.ok.inj hnew]
  have hc : (o.sets sets).cls = .release10 := by rw [sets_cls, hcls]
  have e := fun name v hm => attr_assigned (o := o) hs.rest name v hm
  have hd : (o.sets sets).datagram L = .ok (Spec.Options.tenBytes 0x57 p c v) := by
    rw [datagram_at L _ (by rw [hc]; rfl), prepared_same _ (by rw [hc]; rfl), hc]
    refine ten_packed L _ _ 0x57 p c v hp hc1 hv (by decide) (by simp) ?_ (e _ _ (by simp) (a5 _ (by simp))) ?_ (e _ _ (by simp) (a5 _ (by simp)))
      ?_ (e _ _ (by simp) (a5 _ (by simp))) (e _ _ (by simp) (a5 _ (by simp))) ?_ (e _ _ (by simp) (a5 _ (by simp))) ?_
      (e _ _ (by simp [controlNames]) (a5 _ (by simp))) (e _ _ (by simp [controlNames]) (a5 _ (by simp)))
    · rintro x ⟨rfl⟩; rfl
    · rw [attr_start o sets _ _ _ a2, hs.long]
    · rw [attr_start o sets _ _ _ a1, hs.third]
    · rw [attr_start o sets _ _ _ a3, hs.ident]
    · rw [attr_start o sets _ _ _ a4, hs.length]
  simp only [Obj.execute, hd, Obj.executeWith, hc, ok_bind, sets_buffer, hbuf]

/-! ## What cannot be set, and what should not be -/

/-- The commands that declare their control byte with `set_before_pack=` ignore any control object assigned to them; so it is with the
operation codes declared that way and with the scope of PERSISTENT RESERVE OUT. -/
theorem C75_control_ignored (L : Lib) (o : Obj) (name : String) (v : Int)
    (h : (o.cls.resets = true ∧ name ∈ ["naca", "vendor_specific"]) ∨
      (o.cls.positional = true ∧ o.cls ≠ .reserve10 ∧ name ∈ ["operation_code", "opcode"]) ∨ (o.cls = .prOut ∧ name = "scope")) :
    (o.set name v).execute L = o.execute L := by
  apply C75_ignored
  · rcases h with ⟨h, hn⟩ | ⟨h, h', hn⟩ | ⟨h, rfl⟩
    · simp only [List.mem_cons, List.not_mem_nil, or_false] at hn
      cases hc : o.cls <;> simp [hc, Cls.resets] at h <;> rcases hn with rfl | rfl <;>
        simp [Cls.names, Cls.positional, Cls.resets, Cls.places, placeNames, controlPlaces]
    · simp only [List.mem_cons, List.not_mem_nil, or_false] at hn
      cases hc : o.cls <;> simp [hc, Cls.positional] at h h' <;> rcases hn with rfl | rfl <;>
        simp [Cls.names, Cls.positional, Cls.resets, Cls.places, placeNames, controlPlaces, thirdPartyPlaces]
    · simp [h, Cls.names, Cls.positional, Cls.resets, Cls.places, placeNames, controlPlaces]
  · rcases h with ⟨h, hn⟩ | ⟨h, h', hn⟩ | ⟨h, rfl⟩
    · simp only [List.mem_cons, List.not_mem_nil, or_false] at hn
      cases hc : o.cls <;> simp [hc, Cls.resets] at h <;> rcases hn with rfl | rfl <;> simp [Cls.reads]
    · simp only [List.mem_cons, List.not_mem_nil, or_false] at hn
      cases hc : o.cls <;> simp [hc, Cls.positional] at h <;> rcases hn with rfl | rfl <;> simp [Cls.reads]
    · simp [h, Cls.reads]

/-- It is not so that the control byte of every command can be set: PERSISTENT RESERVE IN with NACA assigned is sent without. -/
theorem C75_reset_false : ¬ ∀ (L : Lib) (action alloc : Int) (o : Obj) (r : Req), newPrIn action alloc = .ok o →
    (o.set "naca" 1).execute L = .ok r → r.cdb.getLast? = some (Spec.Options.control 1 0) := by
  intro h
  have h1 := C75_prIn .strict 0 520 _ [("naca", 1)] 0 520 rfl rfl rfl (by decide) (by decide)
  have h2 := h .strict 0 520 _ _ rfl h1
  exact absurd h2 (by decide)

/-- The operation code of RESERVE(10) can be assigned: with 57h the object reserves nothing and releases instead. -/
theorem C75_opcode_false (L : Lib) (id : Int) (o : Obj) (hnew : newReserve10 L id = .ok o) (hid : id < 2 ^ 64) :
    (o.set "operation_code" 0x57).execute L = release10 L id := by
  rw [← C75_new_release10]
  obtain ⟨q, hq⟩ : ∃ q, newRelease10 L id = .ok q := by
    simp only [newRelease10]
    split
    · split
      · exact ⟨_, rfl⟩
      · rw [party_list L id (by omega) hid]; exact ⟨_, rfl⟩
    · exact ⟨_, rfl⟩
  rw [hq, ok_bind]
  let p : Party := {
    thirdParty := if 0 < id then 1 else 0
    longId := if 255 ≤ id then 1 else 0
    id := (if 0 < id ∧ id < 255 then id else 0).toNat
    length := if 255 ≤ id then 8 else 0 }
  have hp : p.Valid := by
    refine ⟨?_, ?_, ?_, ?_, ?_, ?_, ?_, ?_, ?_⟩ <;> simp only [p] <;> (repeat' split) <;> omega
  have hz : ∀ l : List (String × Int), l = [("operation_code", 0x57)] ∨ l = [] → PartySets l id p 0 0 := by
    intro l hl
    rcases hl with rfl | rfl <;> refine ⟨?_, ?_, ?_, ?_, ?_⟩ <;> simp only [p, last, List.foldl, String.reduceEq, if_false]
    all_goals first
      | (intro x hx
         simp [controlNames] at hx
         rcases hx with rfl | rfl | rfl | rfl | rfl | rfl | rfl <;> simp [last])
      | (split <;> first | rfl | omega)
  have h1 := C75_reserve10 L id o [("operation_code", 0x57)] p 0x57 0 0 hnew hid (hz _ (.inl rfl)) rfl hp (by decide) (by decide) (by decide)
  have h2 := C75_release10 L id q [] p 0 0 hq hid (hz _ (.inr rfl)) hp (by decide) (by decide)
  exact h1.trans h2.symm

/-! ## Examples -/

/-- `cmd = Reserve10Command(third_party_device_id=7); cmd.control = ControlBuffer(naca=1, vendor_specific=0)`. -/
example : (newReserve10 .strict 7 >>= fun o => (o.sets [("naca", 1), ("vendor_specific", 0)]).execute .strict) =
    .ok (.write [0x56, 0x10, 0, 7, 0, 0, 0, 0, 0, 4] []) := by decide +kernel

/-- An identifier of 255 goes to the parameter list. -/
example : (newReserve10 .strict 255 >>= fun o => (o.sets [("operation_code", 0x57)]).execute .strict) =
    .ok (.write [0x57, 0x12, 0, 0, 0, 0, 0, 0, 8, 0] [0, 0, 0, 0, 0, 0, 0, 255]) := by decide +kernel

/-- `cmd.parameter_list_length = 4` on PERSISTENT RESERVE OUT: the device is told of four bytes and sent twenty-four. -/
example : (newPrOut .strict { serviceAction := 0, key := 1, saKey := 2 } >>= fun o => (o.sets [("parameter_list_length", 4)]).execute .strict) =
    .ok (.write [0x5F, 0, 1, 0, 0, 0, 0, 0, 4, 0] ([0, 0, 0, 0, 0, 0, 0, 1, 0, 0, 0, 0, 0, 0, 0, 2] ++ List.replicate 8 0)) := by decide +kernel

example : Assigned [("obsolete_3", 0x102), ("naca", 1)] ([("obsolete_1", 0), ("reserved_1", 0), ("obsolete_2", 0), ("obsolete_3", 1 * 256 + 2)] ++
    controlNames 1 0) := by
  intro p hp
  simp [controlNames] at hp
  rcases hp with rfl | rfl | rfl | rfl | rfl | rfl <;> rfl

example : (newReserve6 >>= fun o => (o.sets [("obsolete_3", 0x102), ("naca", 1)]).execute .strict) =
    .ok (.write [0x16, 0, 0, 1, 2, 4] []) := by decide +kernel

end Verif.Options
