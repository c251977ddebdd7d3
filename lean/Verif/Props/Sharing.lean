import Verif.SharingLemmas
import Verif.Parse.Core
import Verif.Props.OptionsBuffer

/-!
# C84: command objects do not influence each other

A program makes command objects, changes them and executes them, in any order.  The requests of each object are those its own
constructor and the statements addressed to it determine (`Spec.Own.life`):

* for every program, when the structure library gives each object a copy of the declared default (`C84_copied`);
* whatever the library does, for programs that assign a control object before changing one in place (`C84_careful`).

With a library that shares the default control objects the claim fails for other programs (`C84_shared_false`); `C84_shared`
tells exactly what is sent then.  `C84_untouched` is the special case of objects executed as they were made, `C84_fixed` that of
the commands whose control byte is replaced whenever they are packed.
-/

namespace Verif.Sharing

open Verif.Options Verif.Spec.Own

set_option linter.unusedSimpArgs false

/-! ## Statements -/

/-- Requests come in the order of the `execute` statements. -/
theorem C84_order (d : Default) (L : Lib) (prog : List Stmt) :
    (run d L World.start prog).map (·.1) = executed prog := by
  have key : ∀ w, (run d L w prog).map (·.1) = executed prog := by
    induction prog with
    | nil => intro w; rfl
    | cons s r ih =>
      intro w
      simp only [run, List.map_append, ih]
      cases s with
      | new c =>
        simp only [step, executed]
        cases c.make L with
        | error e => rfl
        | ok o =>
          simp only
          split
          · rfl
          · cases d <;> rfl
      | set i name v => rfl
      | buffer i bs => rfl
      | assign i n v => rfl
      | poke i m v =>
        simp only [step, executed]
        cases w.vars[i]? with
        | none => rfl
        | some x => simp only; cases x.control <;> rfl
      | execute i =>
        rw [execute_out]
        rfl
  exact key _

theorem clean_start : Clean World.start := ⟨Sep.start, by decide⟩

theorem shared_start : Shared World.start ⟨⟨0, 0⟩, ⟨0, 0⟩⟩ :=
  ⟨Sep.start, by decide, by decide, by simp [World.start], by simp [World.start]⟩

/-- Copied defaults: whatever the program does, each object sends what it would send alone. -/
theorem C84_copied (L : Lib) (prog : List Stmt) (i : Nat) :
    ofObject i (run .copied L World.start prog) = life L i prog 0 none :=
  run_copied L i prog World.start clean_start (by intro j x hx; simp [World.start] at hx)

/-- Any library: the same for programs that assign a control object to a command before changing it in place. -/
theorem C84_careful (d : Default) (L : Lib) (prog : List Stmt) (h : Careful L prog [] []) (i : Nat) :
    ofObject i (run d L World.start prog) = life L i prog 0 none :=
  run_careful d L i prog World.start clean_start [] (by intro j hj; cases hj) h

/-- Shared defaults, every program: an object without a control object of its own is sent with the default its class declares, as all
in-place changes through any such object have left it. -/
theorem C84_shared (L : Lib) (prog : List Stmt) (i : Nat) :
    ofObject i (run .shared L World.start prog) = leaky L i prog [] ⟨⟨0, 0⟩, ⟨0, 0⟩⟩ none :=
  run_shared L i prog World.start _ shared_start

/-! ## Objects executed as they were made -/

/-- No field of the group is called like a member of the control byte, unless it is one with default zero. -/
def fineBits : List BitDecl → Bool
  | [] => true
  | .field name _ d :: r => (!(name == "naca" || name == "vendor_specific") || d == some 0) && fineBits r
  | .pad _ :: r => fineBits r

def fine : List Decl → Bool
  | [] => true
  | .uint name _ :: r => !(name == "naca" || name == "vendor_specific") && fine r
  | .bits l :: r => fineBits l && fine r
  | _ :: r => fine r

theorem attr_other (e : Attrs) (name : String) (d : Option Int) (a b : Int) (h1 : name ≠ "naca") (h2 : name ≠ "vendor_specific") :
    attr (("naca", a) :: ("vendor_specific", b) :: e) name d = attr e name d := by
  have e1 : (name == "naca") = false := by simp [h1]
  have e2 : (name == "vendor_specific") = false := by simp [h2]
  simp only [attr, List.lookup, e1, e2]

theorem attr_zero (e : Attrs) (name : String) (h1 : e.lookup "naca" = none) (h2 : e.lookup "vendor_specific" = none) :
    attr (("naca", 0) :: ("vendor_specific", 0) :: e) name (some 0) = attr e name (some 0) := by
  by_cases n1 : name = "naca"
  · subst n1; simp [attr, h1, List.lookup]
  · by_cases n2 : name = "vendor_specific"
    · subst n2; simp [attr, h2, List.lookup]
    · exact attr_other e name _ 0 0 n1 n2

theorem packBits_zero (L : Lib) (e : Attrs) (h1 : e.lookup "naca" = none) (h2 : e.lookup "vendor_specific" = none)
    (l : List BitDecl) (h : fineBits l = true) :
    packBits L (("naca", 0) :: ("vendor_specific", 0) :: e) l = packBits L e l := by
  induction l with
  | nil => rfl
  | cons x l ih =>
    cases x with
    | pad w => simp only [fineBits] at h; simp only [packBits, ih h]
    | field name w d =>
      simp only [fineBits, Bool.and_eq_true, Bool.or_eq_true, Bool.not_eq_true', Bool.or_eq_false_iff, beq_iff_eq,
        beq_eq_false_iff_ne, ne_eq] at h
      have ha : attr (("naca", 0) :: ("vendor_specific", 0) :: e) name d = attr e name d := by
        rcases h.1 with hn | hd
        · exact attr_other e name d 0 0 hn.1 hn.2
        · subst hd; exact attr_zero e name h1 h2
      simp only [packBits, ih h.2, ha]

theorem pack_zero (L : Lib) (e : Attrs) (h1 : e.lookup "naca" = none) (h2 : e.lookup "vendor_specific" = none)
    (l : List Decl) (h : fine l = true) : pack L (("naca", 0) :: ("vendor_specific", 0) :: e) l = pack L e l := by
  induction l with
  | nil => rfl
  | cons x l ih =>
    cases x with
    | uint name n =>
      simp only [fine, Bool.and_eq_true, Bool.not_eq_true', Bool.or_eq_false_iff, beq_eq_false_iff_ne, ne_eq] at h
      simp only [pack, packDecl, ih h.2, attr_other e name none 0 0 h.1.1 h.1.2]
    | bits g =>
      simp only [fine, Bool.and_eq_true] at h
      simp only [pack, packDecl, ih h.2, packBits_zero L e h1 h2 g h.1]
    | pad n => simp only [fine] at h; simp only [pack, packDecl, ih h]
    | const bs => simp only [fine] at h; simp only [pack, packDecl, ih h]

/-- The same for fields with positions. -/
def finePlaces (l : List (String × Ref × Source)) : Bool :=
  l.all fun p => !(p.1 == "naca" || p.1 == "vendor_specific") || p.2.2 == .attr (some 0)

theorem placed_zero (e : Attrs) (h1 : e.lookup "naca" = none) (h2 : e.lookup "vendor_specific" = none)
    (l : List (String × Ref × Source)) (h : finePlaces l = true) :
    placed (("naca", 0) :: ("vendor_specific", 0) :: e) l = placed e l := by
  induction l with
  | nil => rfl
  | cons p l ih =>
    obtain ⟨name, r, s⟩ := p
    simp only [finePlaces, List.all_cons, Bool.and_eq_true, Bool.or_eq_true, Bool.not_eq_true', Bool.or_eq_false_iff, beq_iff_eq,
      beq_eq_false_iff_ne, ne_eq] at h
    have ih := ih (by simpa [finePlaces] using h.2)
    cases s with
    | fixed v => simp only [placed, ih]
    | attr d =>
      have ha : attr (("naca", 0) :: ("vendor_specific", 0) :: e) name d = attr e name d := by
        rcases h.1 with hn | hd
        · exact attr_other e name d 0 0 hn.1 hn.2
        · cases hd; exact attr_zero e name h1 h2
      simp only [placed, ih, ha]

theorem request_zero (L : Lib) (o : Obj) (h1 : o.attrs.lookup "naca" = none) (h2 : o.attrs.lookup "vendor_specific" = none) :
    request L o ⟨0, 0⟩ = o.execute L := by
  simp only [request, Obj.execute]
  congr 1
  simp only [Obj.datagram, Obj.prepared]
  split
  · rfl
  · simp only [Obj.packed, Obj.set]
    by_cases hp : o.cls.positional = true
    · simp only [hp, if_true]
      rw [placed_zero o.attrs h1 h2 o.cls.places (by cases o.cls <;> decide)]
    · simp only [hp, Bool.false_eq_true, if_false]
      exact pack_zero L _ h1 h2 _ (by cases o.cls <;> decide)

/-- Constructors assign neither member of the control byte. -/
theorem make_lookup (L : Lib) (c : Ctor) (o : Obj) (h : c.make L = .ok o) :
    o.attrs.lookup "naca" = none ∧ o.attrs.lookup "vendor_specific" = none := by
  have peel : ∀ {α β : Type} {p : Py β} {f : β → Py α} {x : α}, (p >>= f) = .ok x → ∃ y, f y = .ok x := by
    intro α β p f x h
    cases p with
    | error e => cases h
    | ok y => exact ⟨y, h⟩
  cases c <;> simp only [Ctor.make] at h
  all_goals simp only [newRead6, newRead10, newRead12, newRead16, newWrite6, newWrite10, newWrite12, newWrite16, newWriteSame10,
    newWriteSame16, newCompareAndWrite, newUnmap, newInquiry, newReadCapacity10, newReadCapacity16, newReportLuns, newRtpg,
    newTestUnitReady, newLogSense, newReceiveDiagnostic, newReserve6, newRelease6, newReserve10, newRelease10, newPrOut, newPrIn] at h
  case reserve10 | release10 =>
    repeat' split at h
    all_goals repeat obtain ⟨_, h⟩ := peel h
    all_goals cases h
    all_goals exact ⟨by simp [List.lookup], by simp [List.lookup]⟩
  all_goals repeat obtain ⟨_, h⟩ := peel h
  all_goals cases h
  all_goals exact ⟨by simp [List.lookup], by simp [List.lookup]⟩

theorem make_plain (L : Lib) (c : Ctor) : (c.make L >>= Obj.execute L) = plain L c := by
  cases c with
  | read6 lba n bs => exact C75_new_read6 L lba n bs
  | read10 lba n bs => exact C75_new_read10 L lba n bs
  | read12 lba n bs => exact C75_new_read12 L lba n bs
  | read16 lba n bs => exact C75_new_read16 L lba n bs
  | write6 lba buf bs => exact C75_new_write6 L lba buf bs
  | write10 lba buf bs => exact C75_new_write10 L lba buf bs
  | write12 lba buf bs => exact C75_new_write12 L lba buf bs
  | write16 lba buf bs => exact C75_new_write16 L lba buf bs
  | writeSame10 lba buf n bs => exact C75_new_writeSame10 L lba buf n bs
  | writeSame16 lba buf n bs => exact C75_new_writeSame16 L lba buf n bs
  | compareAndWrite lba buf n bs => exact C75_new_compareAndWrite L lba buf n bs
  | unmap ranges => exact C75_new_unmap L ranges
  | inquiry evpd page alloc => exact C75_new_inquiry L evpd page alloc
  | readCapacity10 lba pmi => exact C75_new_readCapacity10 L lba pmi
  | readCapacity16 lba pmi => exact C75_new_readCapacity16 L lba pmi
  | reportLuns select alloc => exact C75_new_reportLuns L select alloc
  | rtpg fmt alloc => exact C75_new_rtpg L fmt alloc
  | testUnitReady => exact C75_new_testUnitReady L
  | logSense page subpage alloc => exact C75_new_logSense L page subpage alloc
  | receiveDiagnostic pcv page alloc => exact C75_new_receiveDiagnostic L pcv page alloc
  | reserve6 => exact C75_new_reserve6 L
  | release6 => exact C75_new_release6 L
  | reserve10 id => exact C75_new_reserve10 L id
  | release10 id => exact C75_new_release10 L id
  | prOut a => exact C75_new_prOut L a
  | prIn action alloc => exact C75_new_prIn L action alloc

/-- A life in which object `i` exists and is only executed. -/
theorem life_executed (L : Lib) (i n : Nat) (o : One) (prog : List Stmt) (hn : i < n)
    (h : ∀ s ∈ prog, target s = some i → s = .execute i) :
    life L i prog n (some o) = List.replicate ((executed prog).count i) (request L o.obj o.control) := by
  induction prog generalizing n with
  | nil => rfl
  | cons s r ih =>
    have hr := fun n hn => ih n hn (fun s hs => h s (List.mem_cons_of_mem _ hs))
    have hs := h s List.mem_cons_self
    cases s with
    | new c =>
      simp only [life, executed]
      cases c.make L with
      | error e => exact hr n hn
      | ok x =>
        simp only
        rw [if_neg (by omega)]
        exact hr (n + 1) (by omega)
    | execute j =>
      simp only [life, executed]
      by_cases e : j = i
      · subst e
        rw [if_pos rfl, List.count_cons_self, List.replicate_succ, hr n hn]
      · rw [if_neg e, List.count_cons_of_ne e, hr n hn]
    | set j name v =>
      have e : ¬ target (.set j name v) = some i := fun e => by cases hs e
      simp only [life, executed, if_neg e]; exact hr n hn
    | buffer j bs =>
      have e : ¬ target (.buffer j bs) = some i := fun e => by cases hs e
      simp only [life, executed, if_neg e]; exact hr n hn
    | assign j a v =>
      have e : ¬ target (.assign j a v) = some i := fun e => by cases hs e
      simp only [life, executed, if_neg e]; exact hr n hn
    | poke j m v =>
      have e : ¬ target (.poke j m v) = some i := fun e => by cases hs e
      simp only [life, executed, if_neg e]; exact hr n hn

/-- Before object `i` exists. -/
theorem life_before (L : Lib) (i n : Nat) (pre post : List Stmt) (hn : n + made L pre ≤ i)
    (h : ∀ s ∈ pre, target s ≠ some i) :
    life L i (pre ++ post) n none = life L i post (n + made L pre) none := by
  induction pre generalizing n with
  | nil => rfl
  | cons s r ih =>
    have hr := fun n hn => ih n hn (fun s hs => h s (List.mem_cons_of_mem _ hs))
    have hs := h s List.mem_cons_self
    cases s with
    | new c =>
      simp only [List.cons_append, life, made] at hn ⊢
      cases hc : c.make L with
      | error e =>
        simp only [hc] at hn ⊢
        rw [hr n (by omega)]; congr 1; omega
      | ok x =>
        simp only [hc] at hn ⊢
        rw [if_neg (by omega), hr (n + 1) (by omega)]; congr 1; omega
    | execute j =>
      simp only [List.cons_append, life, made] at hn ⊢
      have e : ¬ j = i := fun e => hs (by rw [e]; rfl)
      rw [if_neg e]; exact hr n hn
    | set j name v => simp only [List.cons_append, life, made, if_neg hs] at hn ⊢; exact hr n hn
    | buffer j bs => simp only [List.cons_append, life, made, if_neg hs] at hn ⊢; exact hr n hn
    | assign j a v => simp only [List.cons_append, life, made, if_neg hs] at hn ⊢; exact hr n hn
    | poke j m v => simp only [List.cons_append, life, made, if_neg hs] at hn ⊢; exact hr n hn

/-- An object that is executed as it was made sends, each time, the request its constructor arguments determine, whatever the
program does to other objects before, in between and after. -/
theorem C84_untouched (d : Default) (L : Lib) (pre post : List Stmt) (c : Ctor) (o : Obj) (hc : c.make L = .ok o)
    (hpre : ∀ s ∈ pre, target s ≠ some (made L pre))
    (hpost : ∀ s ∈ post, target s = some (made L pre) → s = .execute (made L pre))
    (h : d = .copied ∨ Careful L (pre ++ .new c :: post) [] []) :
    ofObject (made L pre) (run d L World.start (pre ++ .new c :: post)) =
      List.replicate ((executed post).count (made L pre)) (plain L c) := by
  have hl : ofObject (made L pre) (run d L World.start (pre ++ .new c :: post)) =
      life L (made L pre) (pre ++ .new c :: post) 0 none := by
    rcases h with h | h
    · subst h; exact C84_copied L _ _
    · exact C84_careful d L _ h _
  have hz := request_zero L o (make_lookup L c o hc).1 (make_lookup L c o hc).2
  have hp := make_plain L c
  rw [hc] at hp
  have hp : o.execute L = plain L c := hp
  rw [hl, life_before L (made L pre) 0 pre _ (by omega) hpre]
  simp only [life, hc, Nat.zero_add, if_true]
  rw [life_executed L _ _ _ post (by omega) hpost, hz, hp]

/-! ## The control byte -/

theorem pack_control (L : Lib) (e : Attrs) (n v : Nat) (hn : n < 2) (hv : v < 4) (l : List Decl) (cdb : Bytes)
    (h : pack L (("naca", (n : Int)) :: ("vendor_specific", (v : Int)) :: e) (l ++ [Cdb.control]) = .ok cdb) :
    cdb.getLast? = some (Spec.Options.control n v) := by
  induction l generalizing cdb with
  | nil =>
    simp only [List.nil_append, pack] at h
    rw [control_pack L _ n v hn hv (by simp [attr, List.lookup]) (by simp [attr, List.lookup])] at h
    cases h
    rfl
  | cons x l ih =>
    simp only [List.cons_append, pack] at h
    cases hx : packDecl L (("naca", (n : Int)) :: ("vendor_specific", (v : Int)) :: e) x with
    | error err => rw [hx] at h; cases h
    | ok a =>
      cases hr : pack L (("naca", (n : Int)) :: ("vendor_specific", (v : Int)) :: e) (l ++ [Cdb.control]) with
      | error err => rw [hx, hr] at h; cases h
      | ok b =>
        rw [hx, hr] at h
        cases h
        rw [List.getLast?_append, ih b hr]
        rfl

theorem write_length (buf : Bytes) (v : Nat) (r : Ref) (k : Nat) (hb : buf.length ≤ k) (hr : r.stop ≤ k)
    (hw : ∀ lo hi, r = .bytes lo hi → lo ≤ hi) : (r.write buf v).length ≤ k := by
  cases r with
  | bytes lo hi =>
    have := hw lo hi rfl
    simp only [Ref.stop] at hr
    simp only [Ref.write, setRange, grow, zeros, List.length_append, List.length_take, List.length_drop, be_length, List.length_replicate]
    omega
  | bits i lo hi =>
    simp only [Ref.stop] at hr
    simp only [Ref.write, grow, zeros, List.length_set, List.length_append, List.length_replicate]
    omega

/-- The places lie below byte `k`. -/
def below (k : Nat) (l : List (String × Ref × Source)) : Bool :=
  l.all fun p => decide (p.2.1.stop ≤ k) && match p.2.1 with
    | .bytes lo hi => decide (lo ≤ hi)
    | .bits .. => true

/-- A command with positions that ends in a control byte. -/
theorem placed_control (L : Lib) (e : Attrs) (n v : Nat) (hn : n < 2) (hv : v < 4) (k : Nat) (l : List (String × Ref × Source))
    (hl : below k l = true) (buf : Bytes) (hb : buf.length ≤ k) (cdb : Bytes)
    (h : (placed (("naca", (n : Int)) :: ("vendor_specific", (v : Int)) :: e) (l ++ controlPlaces k) >>= fun vs => packAt L vs buf) = .ok cdb) :
    cdb.getLast? = some (Spec.Options.control n v) := by
  induction l generalizing buf with
  | nil =>
    have a1 : attr (("naca", (n : Int)) :: ("vendor_specific", (v : Int)) :: e) "naca" (some 0) = .ok (n : Int) := by
      simp [attr, List.lookup]
    have a2 : attr (("naca", (n : Int)) :: ("vendor_specific", (v : Int)) :: e) "vendor_specific" (some 0) = .ok (v : Int) := by
      simp [attr, List.lookup]
    have g1 := L.enc_ok 1 n hn
    have g2 := L.enc_ok 2 v hv
    simp only [List.nil_append, controlPlaces, placed, a1, a2, ok_bind, packAt, Ref.width, Nat.reduceSub, g1, g2] at h
    have h := Except.ok.inj h
    rw [← h]
    have hg : grow buf (k + 1) = grow buf k ++ [0] := by
      simp only [grow, zeros, List.append_assoc, List.append_cancel_left_eq]
      rw [show k + 1 - buf.length = (k - buf.length) + 1 by omega, List.replicate_succ']
    have hk : (grow buf k).length = k := by simp [grow, zeros]; omega
    have hgg : ∀ x : UInt8, grow (grow buf k ++ [x]) (k + 1) = grow buf k ++ [x] := by
      intro x; simp [grow, zeros, hk]; omega
    have hset : ∀ x y : UInt8, (grow buf k ++ [x]).set k y = grow buf k ++ [y] := by
      intro x y
      rw [List.set_append_right _ _ (by omega), hk]; simp
    have hget : ∀ x : UInt8, (grow buf k ++ [x]).getD k 0 = x := by
      intro x
      simp [List.getD_eq_getElem?_getD, List.getElem?_append_right (Nat.le_of_eq hk), hk]
    simp only [Ref.write, hg, hset, hget, hgg, List.getLast?_append, List.getLast?_singleton, Option.or_some, Option.some_or]
    rw [control_bits n v hn hv]
  | cons p l ih =>
    obtain ⟨name, r, s⟩ := p
    simp only [below, List.all_cons, Bool.and_eq_true, decide_eq_true_eq] at hl
    have hw : ∀ m, (r.write buf m).length ≤ k := by
      intro m
      refine write_length buf m r k hb hl.1.1 ?_
      rintro lo hi rfl
      simpa using hl.1.2
    have go : ∀ x : Int, (placed (("naca", (n : Int)) :: ("vendor_specific", (v : Int)) :: e) (l ++ controlPlaces k) >>= fun vs =>
        packAt L ((name, r, x) :: vs) buf) = .ok cdb → cdb.getLast? = some (Spec.Options.control n v) := by
      intro x hx
      cases hp : placed (("naca", (n : Int)) :: ("vendor_specific", (v : Int)) :: e) (l ++ controlPlaces k) with
      | error err => rw [hp] at hx; cases hx
      | ok vs =>
        rw [hp] at hx
        simp only [ok_bind, packAt] at hx
        cases he : L.enc r.width x with
        | error err => rw [he] at hx; cases hx
        | ok m =>
          rw [he] at hx
          simp only [ok_bind] at hx
          exact ih (by simpa [below] using hl.2) (r.write buf m) (hw m) (by rw [hp]; simpa only [ok_bind] using hx)
    cases s with
    | fixed x =>
      refine go x ?_
      simp only [List.cons_append, placed, bind_assoc', ok_bind] at h
      exact h
    | attr d =>
      simp only [List.cons_append, placed] at h
      cases ha : attr (("naca", (n : Int)) :: ("vendor_specific", (v : Int)) :: e) name d with
      | error err => rw [ha] at h; cases h
      | ok x =>
        refine go x ?_
        rw [ha] at h
        simp only [bind_assoc', ok_bind] at h
        exact h

/-- What the control object says is the last byte of the command, NACA at bit 2 and the vendor specific bits at 7-6, whatever else was
assigned to the object. -/
theorem C84_control (L : Lib) (o : Obj) (n v : Nat) (hn : n < 2) (hv : v < 4) (r : Req) (ho : o.cls ≠ .receiveCopy)
    (h : request L o ⟨n, v⟩ = .ok r) : r.cdb.getLast? = some (Spec.Options.control n v) := by
  have peel : ∀ {α β : Type} {p : Py β} {f : β → Py α} {x : α}, (p >>= f) = .ok x → ∃ y, p = .ok y ∧ f y = .ok x := by
    intro α β p f x h
    cases p with
    | error e => cases h
    | ok y => exact ⟨y, rfl, h⟩
  have key : ∀ cdb, ((o.set "vendor_specific" v).set "naca" n).packed L = .ok cdb → cdb.getLast? = some (Spec.Options.control n v) := by
    intro cdb hd
    simp only [Obj.packed, Obj.set] at hd
    cases hp : o.cls.positional with
    | true =>
      simp only [hp, if_true] at hd
      have hf : ∃ k l, o.cls.places = l ++ controlPlaces k ∧ below k l = true := by
        cases hc : o.cls with
        | receiveCopy => exact absurd hc ho
        | logSense => exact ⟨9, _, rfl, by decide⟩
        | receiveDiagnostic => exact ⟨5, _, rfl, by decide⟩
        | reserve6 => exact ⟨5, _, rfl, by decide⟩
        | release6 => exact ⟨5, _, rfl, by decide⟩
        | reserve10 => exact ⟨9, _, rfl, by decide⟩
        | release10 => exact ⟨9, _, rfl, by decide⟩
        | prOut => exact ⟨9, _, rfl, by decide⟩
        | prIn => exact ⟨9, _, rfl, by decide⟩
        | _ => rw [hc] at hp; cases hp
      obtain ⟨k, l, hf, hl⟩ := hf
      rw [hf] at hd
      exact placed_control L o.attrs n v hn hv k l hl [] (by simp) cdb hd
    | false =>
      simp only [hp, Bool.false_eq_true, if_false] at hd
      have hf : ∃ l, Decl.const [o.cls.op] :: o.cls.fields = l ++ [Cdb.control] := by
        cases hc : o.cls with
        | receiveCopy => exact absurd hc ho
        | logSense | receiveDiagnostic | reserve6 | release6 | reserve10 | release10 | prOut | prIn => rw [hc] at hp; cases hp
        | _ => exact ⟨_, (List.dropLast_concat_getLast (l := Decl.const _ :: Cls.fields _) (by simp)).symm⟩
      obtain ⟨l, hf⟩ := hf
      rw [hf] at hd
      exact pack_control L o.attrs n v hn hv l cdb hd
  simp only [request, Obj.executeWith] at h
  cases hc : o.cls with
  | receiveCopy => exact absurd hc ho
  | compareAndWrite =>
    simp only [hc] at h
    obtain ⟨_, _, h⟩ := peel h
    obtain ⟨_, _, h⟩ := peel h
    obtain ⟨_, _, h⟩ := peel h
    obtain ⟨_, _, h⟩ := peel h
    obtain ⟨cdb, hd, h⟩ := peel h
    cases h
    exact key cdb hd
  | _ =>
    simp only [hc] at h
    obtain ⟨cdb, hd, h⟩ := peel h
    repeat obtain ⟨_, _, h⟩ := peel h
    cases h
    exact key cdb hd

/-- A life in which object `i` has a fixed control byte. -/
theorem life_fixed (L : Lib) (i n : Nat) (o : One) (prog : List Stmt) (hn : i < n) (hf : fixed o.obj.cls = true) (h0 : o.control = ⟨0, 0⟩)
    (r : Req) (hr : .ok r ∈ life L i prog n (some o)) : r.cdb.getLast? = some 0 := by
  have hne : o.obj.cls ≠ .receiveCopy := by intro e; rw [e] at hf; cases hf
  induction prog generalizing n o with
  | nil => cases hr
  | cons s q ih =>
    have keep : ∀ s' : Stmt, .ok r ∈ life L i q n (if target s' = some i then (some o).map (·.apply s') else some o) →
        r.cdb.getLast? = some 0 := by
      intro s' h
      by_cases e : target s' = some i
      · simp only [if_pos e, Option.map_some] at h
        refine ih n (o.apply s') hn ?_ ?_ h ?_
        · cases s' <;> simp [One.apply, hf] <;> exact hf
        · cases s' <;> simp [One.apply, hf, h0]
        · intro e'
          apply hne
          cases s' <;> simp [One.apply, hf] at e' <;> exact e'
      · simp only [if_neg e] at h
        exact ih n o hn hf h0 h hne
    cases s with
    | new c =>
      simp only [life] at hr
      cases hc : c.make L with
      | error e => rw [hc] at hr; exact ih n o hn hf h0 hr hne
      | ok x =>
        rw [hc] at hr
        simp only at hr
        rw [if_neg (by omega)] at hr
        exact ih (n + 1) o (by omega) hf h0 hr hne
    | execute j =>
      simp only [life] at hr
      split at hr
      · rcases List.mem_cons.mp hr with e | e
        · rw [h0] at e
          exact C84_control L o.obj 0 0 (by decide) (by decide) r hne e.symm
        · exact ih n o hn hf h0 e hne
      · exact ih n o hn hf h0 hr hne
    | set j name v => exact keep (.set j name v) hr
    | buffer j bs => exact keep (.buffer j bs) hr
    | assign j a v => exact keep (.assign j a v) hr
    | poke j m v => exact keep (.poke j m v) hr

/-- LOG SENSE, RECEIVE DIAGNOSTIC RESULTS and PERSISTENT RESERVE are always sent with a control byte of zero, also after a control object
was assigned to them. -/
theorem C84_fixed (d : Default) (L : Lib) (pre post : List Stmt) (c : Ctor) (o : Obj) (hc : c.make L = .ok o) (hf : fixed o.cls = true)
    (hpre : ∀ s ∈ pre, target s ≠ some (made L pre)) (h : d = .copied ∨ Careful L (pre ++ .new c :: post) [] [])
    (r : Req) (hr : .ok r ∈ ofObject (made L pre) (run d L World.start (pre ++ .new c :: post))) : r.cdb.getLast? = some 0 := by
  have hl : ofObject (made L pre) (run d L World.start (pre ++ .new c :: post)) =
      life L (made L pre) (pre ++ .new c :: post) 0 none := by
    rcases h with h | h
    · subst h; exact C84_copied L _ _
    · exact C84_careful d L _ h _
  rw [hl, life_before L (made L pre) 0 pre _ (by omega) hpre] at hr
  simp only [life, hc, Nat.zero_add, if_true] at hr
  exact life_fixed L _ _ _ post (by omega) hf rfl r hr

example : request .strict ⟨.read10, [("transfer_length", 1), ("block_size", 512), ("logical_block_address", 7)], []⟩ ⟨1, 2⟩ =
    .ok (.read [0x28, 0, 0, 0, 0, 7, 0, 0, 1, 0x84] 512) := by decide +kernel

/-! ## The claim fails for a library that shares its defaults -/

/-- Making one command, setting `cmd.control.naca = 1` on it, making another of a different class and executing that. -/
def intruder : List Stmt := [.new (.write10 7 (List.replicate 512 0) 512), .poke 0 .naca 1, .new (.read10 0 1 512), .execute 1]

theorem C84_shared_false : ¬ ∀ (d : Default) (L : Lib) (prog : List Stmt) (i : Nat),
    ofObject i (run d L World.start prog) = life L i prog 0 none := by
  intro h
  have h := h .shared .strict intruder 1
  revert h
  decide +kernel

/-- What happens: the control byte of the READ(10) has the NACA bit set, and so do objects made before. -/
example : ofObject 1 (run .shared .strict World.start intruder) =
    [.ok (.read [0x28, 0, 0, 0, 0, 0, 0, 0, 1, 0x04] 512)] := by decide +kernel

example : ofObject 1 (run .copied .strict World.start intruder) =
    [.ok (.read [0x28, 0, 0, 0, 0, 0, 0, 0, 1, 0] 512)] := by decide +kernel

example : ofObject 0 (run .shared .strict World.start
      [.new (.inquiry 0 0 96), .execute 0, .new (.reportLuns 0 16), .poke 1 .vendor 3, .execute 0]) =
    [.ok (.read [0x12, 0, 0, 0, 96, 0] 96), .ok (.read [0x12, 0, 0, 0, 96, 0xc0] 96)] := by decide +kernel

/-- The two defaults are two objects: a change through a RESERVE(10) reaches a PERSISTENT RESERVE IN, not an INQUIRY. -/
example : run .shared .strict World.start
      [.new (.reserve10 0), .new (.prIn 0 8), .new (.inquiry 0 0 96), .poke 0 .naca 1, .execute 1, .execute 2] =
    [(1, .ok (.read [0x5e, 0, 0, 0, 0, 0, 0, 0, 8, 4] 8)), (2, .ok (.read [0x12, 0, 0, 0, 96, 0] 96))] := by decide +kernel

/-- Executing a LOG SENSE gives it the default as its `control`, which the caller then changes for all others. -/
example : run .shared .strict World.start
      [.new (.logSense 0 0 4), .assign 0 1 0, .execute 0, .new .release6, .poke 0 .naca 1, .execute 1] =
    [(0, .ok (.read [0x4d, 0, 0, 0, 0, 0, 0, 0, 4, 0] 4)), (1, .ok (.write [0x17, 0, 0, 0, 0, 4] []))] := by decide +kernel

/-! ## The hypotheses can be met -/

/-- Two objects changed in turn, one through a control object assigned to it. -/
def neighbours : List Stmt :=
  [ .new (.read10 0 1 512), .new (.read10 8 1 512), .assign 0 0 2, .set 1 "fua" 1, .poke 0 .naca 1, .execute 1, .execute 0,
    .set 0 "dpo" 1, .execute 1, .execute 0 ]

example : Careful .strict neighbours [] [] := by
  refine ⟨by decide, trivial⟩

example : ofObject 0 (run .shared .strict World.start neighbours) =
    [.ok (.read [0x28, 0, 0, 0, 0, 0, 0, 0, 1, 0x84] 512), .ok (.read [0x28, 0x10, 0, 0, 0, 0, 0, 0, 1, 0x84] 512)] := by
  decide +kernel

example : ofObject 1 (run .shared .strict World.start neighbours) =
    [.ok (.read [0x28, 0x08, 0, 0, 0, 8, 0, 0, 1, 0] 512), .ok (.read [0x28, 0x08, 0, 0, 0, 8, 0, 0, 1, 0] 512)] := by
  decide +kernel

/-- An INQUIRY between two reads that are changed: it is sent as made, twice. -/
def before : List Stmt := [.new (.read10 0 1 512), .set 0 "fua" 1]

def after : List Stmt := [.assign 0 1 1, .execute 1, .poke 0 .naca 0, .execute 0, .execute 1]

example : ofObject 1 (run .late .strict World.start (before ++ .new (.inquiry 1 0x83 255) :: after)) =
    List.replicate 2 (plain .strict (.inquiry 1 0x83 255)) :=
  C84_untouched .late .strict before after (.inquiry 1 0x83 255) _ rfl (by simp [before, target, made, Ctor.make, newRead10, pyAssert])
    (by
      have e : made .strict before = 1 := by decide
      rw [e]; simp [after, target])
    (.inr ⟨by decide, trivial⟩)

/-- A PERSISTENT RESERVE IN to which a control object is assigned, and which is careful after each execution. -/
def stubborn : List Stmt := [.assign 1 1 3, .poke 1 .vendor 2, .execute 1, .execute 0, .assign 1 1 1, .poke 1 .naca 0, .execute 1]

example : Careful .strict (before ++ .new (.prIn 1 8) :: stubborn) [] [] := ⟨by decide, by decide, trivial⟩

example : ofObject 1 (run .shared .strict World.start (before ++ .new (.prIn 1 8) :: stubborn)) =
    List.replicate 2 (.ok (.read [0x5e, 1, 0, 0, 0, 0, 0, 0, 8, 0] 8)) := by decide +kernel

/-- Without assigning again the second in-place change is one of the default. -/
example : ¬ Careful .strict [.new (.prIn 1 8), .assign 0 1 3, .execute 0, .poke 0 .naca 1] [] [] := by
  intro h
  exact absurd h.1 (by decide)

end Verif.Sharing
