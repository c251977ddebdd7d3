import Verif.HeapLemmas
/-!
# C87: on Linux, what the device sends goes to the buffers of its command and nowhere else

The sg driver moves data directly between the device and the buffers of the request (`SG_FLAG_DIRECT_IO`, linux.py:202), at any time between the
write that starts the command and the read of its response. Here `malloc` hands out any memory that is not in use, so a buffer that is given up too
early belongs to somebody else when the device gets to it.
-/
set_option linter.unusedSimpArgs false
set_option linter.unusedSectionVars false

namespace Verif.Heap
open Verif.Executer Verif.Platform Verif.Platform.Linux Verif.Spec Verif.Spec.Heap

variable {S δ : Type}

theorem run_objs (l : Bool) (parse : Bytes → Py (Option S)) (dev : Device δ) (tmo : Int) (room : Nat) (acts : List Act) (s : Proc δ S) :
    (Proc.run l parse dev tmo room s acts).objs = acts.foldl objects s.objs := by
  induction acts generalizing s with
  | nil => rfl
  | cons x acts ih =>
    have := ih (Proc.step l parse dev tmo room s x)
    simp only [Proc.run, List.foldl_cons] at this ⊢
    rw [this]
    congr 1
    cases x <;> simp only [Proc.step, objects]
    all_goals split <;> rfl

section
variable {l : Bool} {parse : Bytes → Py (Option S)} {dev : Device δ} {tmo : Int} {limit room : Nat}
  (hl : limit ≤ 2 ^ 31) (ht : 0 ≤ tmo ∧ tmo < 2 ^ 32) (hr : limit ≤ room)
  (hparse : ∀ k q, (dev k q).1.status.toNat / 2 % 2 = 1 → ∃ sn, parse (padded 255 (dev k q).1.sense) = .ok sn)
include hl ht hr hparse

/-- **C87** (partial: no packet number is reused while in use and no send is interrupted once the operating system has the command; cf.
`C87_reuse_false`, `C87_interrupted_false`, `C87_interrupted_write_false`). A program makes and gives up objects of its own and has any number of
commands outstanding, with any `malloc` that does not hand out memory in use, any device, direct transfers or not, completions and responses in any
order. Then at every time: every object of the program has the contents it was made with; every request that the driver has not handed back has its
buffers in use by the executer; the commands behave as in the ideal queue, so that the device executes each exactly as asked, with its own data, and each
callback gets the answer to its own command. -/
theorem C87_partial (acts : List Act) (hfit : ∀ x ∈ acts, Fits x) (hcalm : ∀ x ∈ acts, x.Calm) (m : Mem) (k : δ)
    (hal : Allocates l parse dev tmo room (Proc.init limit m k) acts)
    (hnw : Queue.NoWrap dev limit (hear parse) (Queue.State.init k) (acts.filterMap Act.op)) :
    let proc := Proc.run l parse dev tmo room (Proc.init limit m k) acts
    let ideal := Queue.run dev limit (hear parse) k (acts.filterMap Act.op)
    (∀ o ∈ acts.foldl objects [], readMem proc.live.world.mem o.addr o.bytes.length = o.bytes) ∧
    (∀ raw ∈ proc.live.world.kernel.waiting.map Prod.fst ++ proc.live.world.kernel.done.map Prod.fst, Owned l proc raw) ∧
    proc.live.log = ideal.log ∧ proc.live.world.kernel.dev = ideal.dev := by
  intro proc ideal
  obtain ⟨w, d, h⟩ := inv_run hl ht hr hparse acts hfit hcalm _ [] [] _ (inv_init l parse tmo limit m k) hal hnw
  refine ⟨?_, ?_, h.log, h.dev⟩
  · intro o ho
    rw [show ([] : List Obj) = (Proc.init (S := S) limit m k).objs from rfl, ← run_objs l parse dev tmo room] at ho
    exact (h.objs o ho).1
  · have key : ∀ e ∈ opens w d, Owned l proc (made l tmo limit e.1 e.2.1 e.2.2.1).block := by
      rintro ⟨t, c, al, b⟩ he
      have ho := h.each _ he
      have hpos : 0 < limit := Nat.lt_of_lt_of_le (List.length_pos_of_mem he) h.le
      have hf := ho.fields hl ht hpos
      refine ⟨_, mem_of_get ho.get, rfl, ?_, ?_⟩
      · rw [sgSensePtr, word_lp64, hf.sensePtr, Int.toNat_natCast]; rfl
      · intro x y hx
        simp only [made, create_data] at hx
        rw [word_lp64, hf.dataPtr]
        cases c with
        | read cdb n =>
          simp only [bufOf] at hx
          split at hx
          · rename_i hn
            simp only [Option.some.injEq, Prod.mk.injEq] at hx
            simp [dirOf, hn, hx.1]
          · cases hx
        | write cdb dd =>
          simp only [bufOf, Option.some.injEq, Prod.mk.injEq] at hx
          simp [dirOf, hx.1]
    intro raw hraw
    simp only [List.mem_append, List.mem_map] at hraw
    rcases hraw with ⟨e, he, rfl⟩ | ⟨e, he, rfl⟩
    · rw [show proc.live.world.kernel.waiting = _ from h.kwaiting] at he
      obtain ⟨f, hf, rfl⟩ := List.mem_map.1 he
      exact key (f.1, f.2.1, f.2.2, initial f.2.1) (by simp only [opens, List.mem_append, List.mem_map]; exact .inr ⟨f, hf, rfl⟩)
    · rw [show proc.live.world.kernel.done = _ from h.kdone] at he
      obtain ⟨f, hf, rfl⟩ := List.mem_map.1 he
      exact key (f.1, f.2.1, f.2.2.1, _) (by simp only [opens, List.mem_append, List.mem_map]; exact .inl ⟨f, hf, rfl⟩)

/-- **C87 for devices that answer in order**: no condition on packet numbers. -/
theorem C87_in_order (acts : List Act) (hfit : ∀ x ∈ acts, Fits x) (hcalm : ∀ x ∈ acts, x.Calm)
    (hord : ∀ x ∈ acts, ∀ op, x.op = some op → Queue.InOrder op) (m : Mem) (k : δ)
    (hal : Allocates l parse dev tmo room (Proc.init limit m k) acts) :
    let proc := Proc.run l parse dev tmo room (Proc.init limit m k) acts
    (∀ o ∈ acts.foldl objects [], readMem proc.live.world.mem o.addr o.bytes.length = o.bytes) ∧
    (∀ raw ∈ proc.live.world.kernel.waiting.map Prod.fst ++ proc.live.world.kernel.done.map Prod.fst, Owned l proc raw) := by
  have h := C87_partial hl ht hr hparse acts hfit hcalm m k hal (noWrap_inOrder dev limit (hear parse) _ (by
    intro op hop
    obtain ⟨x, hx, hxo⟩ := List.mem_filterMap.1 hop
    exact hord x hx op hxo) _ 0 0 rfl rfl)
  exact ⟨h.1, h.2.1⟩

end

/-! ## What goes wrong -/

/-- After an interrupted send the driver has the request, and nothing is in use. -/
theorem interrupted (l : Bool) (parse : Bytes → Py (Option S)) (dev : Device δ) (tmo : Int) (ht : 0 ≤ tmo ∧ tmo < 2 ^ 32) (limit room : Nat)
    (hpos : 0 < limit) (hroom : 0 < room) (m : Mem) (k : δ) (c : Req) (al : Alloc) (hfit : Fits (.send c al true)) (hsep : Separate 64 (regions al c 88)) :
    ∃ idx, BlockFields l al 0 c tmo (create (lp64 l) al 0 c tmo).block ∧
    Proc.step l parse dev tmo room (Proc.init limit m k) (.send c al true) =
      ⟨⟨⟨[], idx, limit⟩, ⟨(create (lp64 l) al 0 c tmo).install m, ⟨k, [((create (lp64 l) al 0 c tmo).block, asked c)], []⟩⟩, 0, [.refused]⟩, []⟩ := by
  have hb := hsep.2
  simp only [regions, List.mem_cons, List.not_mem_nil, or_false, forall_eq_or_imp, forall_eq] at hb
  obtain ⟨-, hb2, hb3, hb4⟩ := hb
  have hf := create_fields l al 0 c tmo (by decide) hfit.1 hfit.2 ht hb2 hb3 hb4
  have hv := view_held l al 0 c tmo _ hf (held_install l al 0 c tmo m hsep)
  refine ⟨1 % limit, hf, ?_⟩
  have hsg : sendThen (sgQueue l room 0) true (create (lp64 l) al 0 c tmo) ⟨m, (⟨k, [], []⟩ : Kernel δ)⟩ =
      (.error (.other 0), ⟨(create (lp64 l) al 0 c tmo).install m, ⟨k, [((create (lp64 l) al 0 c tmo).block, asked c)], []⟩⟩) := by
    simp only [sendThen, sgSend, sgQueue, hv, List.length_nil]
    rw [if_neg (by omega)]
    rfl
  simp only [Proc.step, Proc.init, Live.init, St.init, Executer.send, nextPacketIndex, List.length_nil, ge_iff_le, prepare, hsg]
  rw [if_neg (by omega)]
  simp [Dict.set, Dict.erase, hsg]

/-- **C87 is false when a send is interrupted**: whatever the command reads, if the device answers with data, the program may find the device's
first byte in an object that it made after `send` had raised. -/
theorem C87_interrupted_false (l : Bool) (parse : Bytes → Py (Option S)) (dev : Device δ) (tmo : Int) (ht : 0 ≤ tmo ∧ tmo < 2 ^ 32) (limit room : Nat)
    (hpos : 0 < limit) (hroom : 0 < room) (m : Mem) (k : δ) (cdb : Bytes) (n : Int) (hn : 0 < n) (al : Alloc)
    (hfit : Fits (.send (.read cdb n) al true)) (hsep : Separate 64 (regions al (.read cdb n) 88))
    (b b' : UInt8) (rest : Bytes) (hdata : (dev k (asked (.read cdb n))).1.data = b' :: rest) (hb : b ≠ b') :
    let acts := [.send (.read cdb n) al true, .make ⟨al.data, [b]⟩, .finish 0 true]
    Allocates l parse dev tmo room (Proc.init limit m k) acts ∧
    Queue.NoWrap dev limit (hear parse) (Queue.State.init k) (acts.filterMap Act.op) ∧
    ∃ o ∈ acts.foldl objects [],
      readMem (Proc.run l parse dev tmo room (Proc.init limit m k) acts).live.world.mem o.addr o.bytes.length ≠ o.bytes := by
  obtain ⟨idx, hf, hs⟩ := interrupted l parse dev tmo ht limit room hpos hroom m k (.read cdb n) al hfit hsep
  refine ⟨⟨⟨hsep, ?_⟩, ?_⟩, ?_, ⟨al.data, [b]⟩, by simp [objects], ?_⟩
  · intro r _ u hu; simp [Proc.used, Proc.init, Live.init, St.init] at hu
  · rw [hs]
    refine ⟨?_, trivial, trivial⟩
    intro u hu; simp [Proc.used] at hu
  · show Queue.NoWrap dev limit (hear parse) (Queue.State.init k) [.send (.read cdb n), .finish 0 true]
    simp [Queue.NoWrap, Queue.State.init, Queue.State.tickets]
  · have hw : word l (create (lp64 l) al 0 (.read cdb n) tmo).block 16 8 = al.data := by
      rw [word_lp64, hf.dataPtr]; simp [dirOf, hn]
    have hreq : ∀ m' : Mem, ({ asked (.read cdb n) with toDevice := ((sgView l (create (lp64 l) al 0 (.read cdb n) tmo).block m').map OsRequest.toDevice).getD [] } : OsRequest) =
        asked (.read cdb n) := by
      intro m'
      simp only [sgView, word_lp64, sword_lp64, hf.len, hf.iface, hf.iovec, hf.flags, hf.dir]
      simp [dirOf, hn, asked]
    have hlen : n.toNat = (n.toNat - 1) + 1 := by omega
    simp only [Proc.run, List.foldl_cons, List.foldl_nil, hs]
    simp only [Proc.step, sgFinish, List.getElem?_cons_zero, if_true, hreq, hdata, hw]
    simp only [asked]
    rw [hlen, List.take_succ_cons]
    simp only [readMem, List.length_singleton, List.range_one, List.map_cons, List.map_nil, Nat.add_zero, writeMem]
    simp
    exact fun h => hb h.symm

/-- **C87 is false when a send is interrupted**: a WRITE may send the device the contents of an object that has nothing to do with it. -/
theorem C87_interrupted_write_false (l : Bool) (parse : Bytes → Py (Option S)) (dev : Device δ) (tmo : Int) (ht : 0 ≤ tmo ∧ tmo < 2 ^ 32) (limit room : Nat)
    (hpos : 0 < limit) (hroom : 0 < room) (m : Mem) (k : δ) (cdb d secret : Bytes) (hsecret : secret.length = d.length) (al : Alloc)
    (hfit : Fits (.send (.write cdb d) al true)) (hsep : Separate 64 (regions al (.write cdb d) 88)) :
    let acts := [.send (.write cdb d) al true, .make ⟨al.data, secret⟩, .finish 0 true]
    Allocates l parse dev tmo room (Proc.init limit m k) acts ∧
    Queue.NoWrap dev limit (hear parse) (Queue.State.init k) (acts.filterMap Act.op) ∧
    (Proc.run l parse dev tmo room (Proc.init limit m k) acts).live.world.kernel.dev = (dev k (asked (.write cdb secret))).2 := by
  obtain ⟨idx, hf, hs⟩ := interrupted l parse dev tmo ht limit room hpos hroom m k (.write cdb d) al hfit hsep
  refine ⟨⟨⟨hsep, ?_⟩, ?_⟩, ?_, ?_⟩
  · intro r _ u hu; simp [Proc.used, Proc.init, Live.init, St.init] at hu
  · rw [hs]
    refine ⟨?_, trivial, trivial⟩
    intro u hu; simp [Proc.used] at hu
  · show Queue.NoWrap dev limit (hear parse) (Queue.State.init k) [.send (.write cdb d), .finish 0 true]
    simp [Queue.NoWrap, Queue.State.init, Queue.State.tickets]
  · have hreq : ∀ m' : Mem, ({ asked (.write cdb d) with toDevice := ((sgView l (create (lp64 l) al 0 (.write cdb d) tmo).block
          (writeMem m' al.data secret)).map OsRequest.toDevice).getD [] } : OsRequest) = asked (.write cdb secret) := by
      intro m'
      simp only [sgView, word_lp64, sword_lp64, hf.len, hf.iface, hf.iovec, hf.flags, hf.dir, hf.dataLen, hf.dataPtr]
      have := readMem_writeMem_same m' al.data secret
      simp only [dataSize, hsecret] at this ⊢
      simp [dirOf, asked, this]
    simp only [Proc.run, List.foldl_cons, List.foldl_nil, hs]
    simp only [Proc.step, sgFinish, List.getElem?_cons_zero, if_true, hreq]

/-! ## Checking the promise of `malloc` -/

/-- Two pieces of memory one after the other, or one of them empty. -/
def apartB (x y : Nat × Nat) : Bool := x.2 == 0 || y.2 == 0 || decide (x.1 + x.2 ≤ y.1) || decide (y.1 + y.2 ≤ x.1)

theorem apartB_sound {x y : Nat × Nat} (h : apartB x y = true) : Apart x y := by
  intro b hb
  simp only [apartB, Bool.or_eq_true, beq_iff_eq, decide_eq_true_eq] at h
  omega

def freshB (s : Proc δ S) : Act → Bool
  | .send c al _ => (regions al c 88).all fun r => decide (r.1 < 2 ^ 64) && s.used.all (apartB r)
  | .make x => s.used.all (apartB (x.addr, x.bytes.length))
  | _ => true

def allocatesB (l : Bool) (parse : Bytes → Py (Option S)) (dev : Device δ) (tmo : Int) (room : Nat) : Proc δ S → List Act → Bool
  | _, [] => true
  | s, act :: acts => freshB s act && allocatesB l parse dev tmo room (Proc.step l parse dev tmo room s act) acts

theorem allocatesB_sound {l : Bool} {parse : Bytes → Py (Option S)} {dev : Device δ} {tmo : Int} {room : Nat} (acts : List Act) (s : Proc δ S)
    (hsep : ∀ c al b, Act.send c al b ∈ acts → Separate 64 (regions al c 88)) (h : allocatesB l parse dev tmo room s acts = true) :
    Allocates l parse dev tmo room s acts := by
  induction acts generalizing s with
  | nil => trivial
  | cons x acts ih =>
    simp only [allocatesB, Bool.and_eq_true] at h
    refine ⟨?_, ih _ (fun c al b hm => hsep c al b (List.mem_cons_of_mem _ hm)) h.2⟩
    have h1 := h.1
    cases x with
    | send c al b =>
      refine ⟨hsep c al b List.mem_cons_self, ?_⟩
      simp only [freshB, List.all_eq_true, Bool.and_eq_true] at h1
      exact fun r hr u hu => apartB_sound ((h1 r hr).2 u hu)
    | make o =>
      simp only [freshB, List.all_eq_true] at h1
      exact fun u hu => apartB_sound (h1 u hu)
    | finish => trivial
    | receive => trivial
    | drop => trivial

/-- **C87 is false when a packet number is reused**, without any interruption: with two commands in flight, the younger completing first, the next
command takes the entry of the one still outstanding; its buffers are given up, and when the device gets to it, its data goes to an object of the
program. -/
theorem C87_reuse_false :
    let acts := [.send (.read [8, 65] 1) (pages 0) false, .send (.read [8, 66] 1) (pages 1) false, .finish 1 true, .receive 0,
      .send (.read [8, 67] 1) (pages 2) false, .make ⟨(pages 0).data, [7]⟩, .finish 0 true]
    (∀ x ∈ acts, x.Calm) ∧
    Allocates true (S := Unit) (fun _ => .ok none) echo 30000 16 (Proc.init 2 (fun _ => 0) ()) acts ∧
    acts.foldl objects [] = [⟨(pages 0).data, [7]⟩] ∧
    readMem (Proc.run true (S := Unit) (fun _ => .ok none) echo 30000 16 (Proc.init 2 (fun _ => 0) ()) acts).live.world.mem (pages 0).data 1 = [65] := by
  refine ⟨by simp [Act.Calm], allocatesB_sound _ _ ?_ (by decide +kernel), rfl, by decide +kernel⟩
  intro c al b hm
  simp only [List.mem_cons, Act.send.injEq, List.not_mem_nil, or_false, reduceCtorEq, false_or] at hm
  rcases hm with ⟨rfl, rfl, -⟩ | ⟨rfl, rfl, -⟩ | ⟨rfl, rfl, -⟩
  · exact (pages_room 3 (by decide)).one _ (by simp [Small, dataSize, Req.cdb]) 0 (by decide)
  · exact (pages_room 3 (by decide)).one _ (by simp [Small, dataSize, Req.cdb]) 1 (by decide)
  · exact (pages_room 3 (by decide)).one _ (by simp [Small, dataSize, Req.cdb]) 2 (by decide)

/-! ## The hypotheses are met -/

/-- Three commands, the second finished first, memory of a command used again for an object once its response is read. -/
def someActs : List Act :=
  [.send (.read [8, 65] 1) (pages 0) false, .make ⟨4000, [1, 2, 3]⟩, .send (.write [10, 66] [5, 6]) (pages 1) false, .finish 1 true, .finish 0 true, .receive 0,
    .make ⟨(pages 1).data, [9]⟩, .send (.read [8, 67] 1) (pages 2) false, .drop 0, .receive 0, .send (.read [8, 68] 0) (pages 0) false]

example : (∀ x ∈ someActs, Fits x) ∧ (∀ x ∈ someActs, x.Calm) ∧
    Allocates true (S := Unit) (fun _ => .ok none) echo 30000 16 (Proc.init 3 (fun _ => 0) ()) someActs ∧
    Queue.NoWrap echo 3 (hear (S := Unit) (fun _ => .ok none)) (Queue.State.init ()) (someActs.filterMap Act.op) ∧
    someActs.foldl objects [] = [⟨(pages 1).data, [9]⟩] := by
  refine ⟨by simp [someActs, Fits, dataSize, Req.cdb], by simp [someActs, Act.Calm], allocatesB_sound _ _ ?_ (by decide +kernel), ?_, rfl⟩
  · intro c al b hm
    simp only [someActs, List.mem_cons, Act.send.injEq, List.not_mem_nil, or_false, reduceCtorEq, false_or] at hm
    rcases hm with ⟨rfl, rfl, -⟩ | ⟨rfl, rfl, -⟩ | ⟨rfl, rfl, -⟩ | ⟨rfl, rfl, -⟩
    · exact (pages_room 3 (by decide)).one _ (by simp [Small, dataSize, Req.cdb]) 0 (by decide)
    · exact (pages_room 3 (by decide)).one _ (by simp [Small, dataSize, Req.cdb]) 1 (by decide)
    · exact (pages_room 3 (by decide)).one _ (by simp [Small, dataSize, Req.cdb]) 2 (by decide)
    · exact (pages_room 3 (by decide)).one _ (by simp [Small, dataSize, Req.cdb]) 0 (by decide)
  · show Queue.NoWrap _ _ _ _ [.send (.read [8, 65] 1), .send (.write [10, 66] [5, 6]), .finish 1 true, .finish 0 true, .receive 0,
      .send (.read [8, 67] 1), .receive 0, .send (.read [8, 68] 0)]
    simp [Queue.NoWrap, Queue.step, Queue.State.init, Queue.State.tickets]

/-- An INQUIRY interrupted once it was sent: the byte 255 of some object becomes the device's first byte. -/
example : ∃ acts : List Act, Allocates true (S := Unit) (fun _ => .ok none) (fun (k : Unit) _ => (⟨0, [], [0, 0, 6]⟩, k)) 30000 16 (Proc.init 15 (fun _ => 0) ()) acts ∧
    ∃ o ∈ acts.foldl objects [], readMem (Proc.run true (S := Unit) (fun _ => .ok none) (fun (k : Unit) _ => (⟨0, [], [0, 0, 6]⟩, k)) 30000 16
      (Proc.init 15 (fun _ => 0) ()) acts).live.world.mem o.addr o.bytes.length ≠ o.bytes :=
  have h := C87_interrupted_false true (S := Unit) (fun _ => .ok none) (fun (k : Unit) _ => (⟨0, [], [0, 0, 6]⟩, k)) 30000 (by decide) 15 16 (by decide) (by decide)
    (fun _ => 0) () [0x12, 0, 0, 0, 36, 0] 36 (by decide) (pages 0) ⟨by decide, by decide⟩
    ((pages_room 1 (by decide)).one _ (by simp [Small, dataSize, Req.cdb]) 0 (by decide)) 255 0 [0, 6] rfl (by decide)
  ⟨_, h.1, h.2.2⟩

end Verif.Heap
