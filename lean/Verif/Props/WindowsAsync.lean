import Verif.AsyncInv
/-!
# C60, C61: commands that share one executer on an asynchronous Windows file

C60: `Win32AsyncReactor().wait_for(cmd.execute(executer) for cmd in ...)` with one executer for all commands. All requests are in flight
together and the device serves them in any order, at any time; the reactor picks the events in any order.
-/
set_option linter.unusedSimpArgs false
set_option linter.unusedSectionVars false

namespace Verif.WindowsAsync
open Verif.Executer Verif.ExecuterGen Verif.Coroutine Verif.Platform Verif.Platform.Win32 Verif.Spec
open Verif.ReactorShared (Co Step Steps Raises Returns initial)

variable {S R δ : Type}

/-- The world of an executer on an asynchronous file; coroutines are named by numbers. -/
abbrev World' (S δ : Type) := ExecuterGen.W Spt Nat (Option Bytes) (DevErr S) (AsyncWorld (IoKernel δ))

/-- The executer is at rest and no request is in flight; the device is in state `k`. -/
def AsyncIdle (w : World' S δ) (k : δ) : Prop :=
  w.st.pending = [] ∧ w.st.index < w.st.maxq ∧ w.os.incoming = [] ∧ w.os.world.kernel.flying = [] ∧
  (∀ t ∈ w.os.world.kernel.landed.map Prod.fst, t < w.os.events) ∧ w.os.world.kernel.dev = k

/-- The commands given are different objects, their requests are what Windows can be asked, and the memory of requests with different
packet indices (below the queue's size `mq`) does not overlap. -/
structure Fit (b : Bool) (alloc : Nat → Alloc) (cmd : Nat → Command Req (Option Bytes) R) (cmds : List Nat) (mq : Nat) : Prop where
  nodup : cmds.Nodup
  ok : ∀ c ∈ cmds, ∀ q, (cmd c).request = .ok q →
    q.cdb.length ≤ 16 ∧ dataSize q < 2 ^ 32 ∧ ∀ i, i < mq → Separate (bits b) (winRegions b (alloc i) q)
  apart : ∀ c ∈ cmds, ∀ d ∈ cmds, ∀ q q', (cmd c).request = .ok q → (cmd d).request = .ok q' → ∀ i j, i < mq → j < mq → i ≠ j →
    ∀ r ∈ winRegions b (alloc i) q, ∀ r' ∈ winRegions b (alloc j) q', r.1 + r.2 ≤ r'.1 ∨ r'.1 + r'.2 ≤ r.1

/-- The code the coroutine of command `c` runs. -/
abbrev prog (b : Bool) (parse : Bytes → Py (Option S)) (dev : Device δ) (alloc : Nat → Alloc) (c : Nat) :
    Machine (Frame Req Spt Nat (Option Bytes) R AsyncGen) (World' S δ) (Val (Option Bytes) (DevErr S) R) (Exn (DevErr S)) Nat :=
  machine (asyncPlat (Win32.W b) parse (ioDevice b dev)) (prepare (Win32.W b) alloc) (some c)

/-- `wait_for` called with the commands' `execute` generators. -/
abbrev called (cmd : Nat → Command Req (Option Bytes) R) (cmds : List Nat) (w : World' S δ) :
    ReactorShared.St (Frame Req Spt Nat (Option Bytes) R AsyncGen) (World' S δ) (Val (Option Bytes) (DevErr S) R) (Exn (DevErr S)) Nat :=
  initial Val.none (fun c => Frame.execute (cmd c)) cmds w

variable {b : Bool} {parse : Bytes → Py (Option S)} {dev : Device δ} {alloc : Nat → Alloc} {cmd : Nat → Command Req (Option Bytes) R}
  {cmds : List Nat} {w : World' S δ} {k : δ} {m : Nat}

theorem Fit.setup {mq : Nat} (h : Fit b alloc cmd cmds mq) : AsyncInv.Setup b alloc cmd cmds mq :=
  ⟨h.nodup, h.ok, fun c hc d hd q q' hq hq' i j hi hj hij => AsyncInv.Setup.of_regions (h.apart c hc d hd q q' hq hq' i j hi hj hij)⟩

theorem reach (hf : Fit b alloc cmd cmds w.st.maxq) (hw : AsyncIdle w k) {st}
    (h : Steps (prog (R := R) b parse dev alloc) (ioKernel b dev) m (called cmd cmds w) st) :
    ∃ g, AsyncInv.Inv b parse dev alloc cmd cmds w.st.index w.st.maxq k st g ∧ m + AsyncInv.total cmds g = 4 * cmds.length := by
  obtain ⟨h1, h2, h3, h4, h5, rfl⟩ := hw
  generalize h0 : called cmd cmds w = st0 at h
  induction h with
  | refl st =>
    subst h0
    obtain ⟨g, I, hr⟩ := AsyncInv.Inv.init (b := b) (parse := parse) (dev := dev) (alloc := alloc) (cmd := cmd) (cmds := cmds) w h1 h2 h3 h4 h5
    refine ⟨g, I, ?_⟩
    have : (cmds.map fun c => (g.ph c).weight) = List.replicate cmds.length 4 := by
      rw [List.eq_replicate_iff]
      refine ⟨by simp, ?_⟩
      intro x hx
      obtain ⟨c, -, rfl⟩ := List.mem_map.1 hx
      rw [hr c]; rfl
    simp only [AsyncInv.total, this, List.sum_replicate_nat]
    omega
  | step hs hstep ih =>
    obtain ⟨g, I, ht⟩ := ih h0
    obtain ⟨g', I', ht'⟩ := I.step hf.setup hstep
    exact ⟨g', I', by omega⟩

/-- **C60, results.** Whenever `wait_for` returns, every command got the result it would have got from the device alone: for some order in
which the device was asked (`order`), the results in argument order are the answers of the device asked one command at a time in that
order. Each request reached the device exactly once, the device is left as the sequence leaves it, and the executer is at rest again. It
takes a queue with room for all commands. -/
theorem C60_returns (hf : Fit b alloc cmd cmds w.st.maxq) (hw : AsyncIdle w k) {st rs}
    (h : Steps (prog (R := R) b parse dev alloc) (ioKernel b dev) m (called cmd cmds w) st) (hr : Returns cmds st rs) :
    ∃ (order : List Nat) (val : Nat → Val (Option Bytes) (DevErr S) R), order.Perm cmds ∧
      (askAll dev (winOutcome parse) (order.map cmd) k).1 = order.map (fun c => .ok (some (val c))) ∧
      rs = cmds.map (fun c => some (some (.plain (val c)))) ∧
      AsyncIdle st.world (askAll dev (winOutcome parse) (order.map cmd) k).2 ∧
      cmds.length ≤ w.st.maxq ∧ st.world.st.maxq = w.st.maxq := by
  obtain ⟨g, I, -⟩ := reach hf hw h
  obtain ⟨ht, hco, rfl⟩ := hr
  have hlen : cmds.length ≤ g.n := by
    rcases I.todo with h | ⟨hl, -⟩
    · rw [ht] at h; exact List.drop_eq_nil_iff.1 h.symm
    · exact hl
  have hover : ∀ c ∈ cmds, g.ph c = .over := by
    intro c hc
    have := I.co c hc
    rw [hco] at this
    cases hph : g.ph c <;> simp [AsyncInv.coOf, hph, Dict.get] at this
    rfl
  have hmem : ∀ c, c ∈ g.order ↔ c ∈ cmds := by
    intro c
    rw [I.ord c]
    constructor
    · exact fun h => h.1
    · intro h; exact ⟨h, by rw [hover c h]; rfl⟩
  have hperm : g.order.Perm cmds := (List.perm_ext_iff_of_nodup I.ordNodup hf.nodup).2 hmem
  let val : Nat → Val (Option Bytes) (DevErr S) R := fun c => match g.ans c with | .ok (some v) => v | _ => .none
  have hval : ∀ c ∈ cmds, g.ans c = .ok (some (val c)) ∧ Dict.get st.results c = some (some (.plain (val c))) := by
    intro c hc
    obtain ⟨r, h1, h2⟩ := I.res c hc (hover c hc)
    simp only [val, h1]
    exact ⟨trivial, h2⟩
  have hpend : st.world.st.pending = [] := by
    cases hp : st.world.st.pending with
    | nil => rfl
    | cons p l =>
      obtain ⟨c, hc, ac, -⟩ := I.pend' p.1 p.2 (by rw [hp]; simp [Dict.get])
      rw [hover c hc] at ac; cases ac
  have hfly : st.world.os.world.kernel.flying = [] := by
    cases hp : st.world.os.world.kernel.flying with
    | nil => rfl
    | cons p l =>
      obtain ⟨c, hc, hf, -⟩ := I.fly' p (by rw [hp]; exact List.mem_cons_self ..)
      rw [hover c hc] at hf; cases hf
  refine ⟨g.order, val, hperm, ?_, ?_, ⟨hpend, ?_, I.incoming, hfly, I.landLt, ?_⟩, Nat.le_trans hlen I.nle, I.maxq⟩
  · rw [I.asks]
    apply List.map_congr_left
    intro c hc
    exact (hval c ((hmem c).1 hc)).1
  · apply List.map_congr_left
    intro c hc
    exact (hval c hc).2
  · rw [I.maxq, I.index]
    exact Nat.mod_lt _ (Nat.lt_of_le_of_lt (Nat.zero_le _) hw.2.1)
  · rw [I.asks]

/-- **C60, exceptions.** Whenever `wait_for` raises, the device was asked by some of the commands only (`order`), once each, and the exception
is the answer of one of them, unchanged; or that of a request that could not be built, the device never having heard of that command; or
there was no room in the queue; or waiting for the events failed. -/
theorem C60_raises (hf : Fit b alloc cmd cmds w.st.maxq) (hw : AsyncIdle w k) {st e s}
    (h : Steps (prog (R := R) b parse dev alloc) (ioKernel b dev) m (called cmd cmds w) st)
    (hr : Raises (prog (R := R) b parse dev alloc) (ioKernel b dev) st e s) :
    ∃ (order : List Nat) (ans : Nat → Except (Exn (DevErr S)) (Option (Val (Option Bytes) (DevErr S) R))),
      order.Nodup ∧ (∀ c ∈ order, c ∈ cmds) ∧
      askAll dev (winOutcome parse) (order.map cmd) k = (order.map ans, s.os.world.kernel.dev) ∧
      ((∃ c ∈ order, ans c = .error e) ∨
       (∃ c ∈ cmds, c ∉ order ∧ ∃ x, (cmd c).request = .error x ∧ e = .py x) ∨
       (w.st.maxq < cmds.length ∧ e = .py .nameError) ∨
       (st.todo = [] ∧ st.coroutines ≠ [] ∧ s = st.world ∧ e = .py .asiOs)) := by
  obtain ⟨g, I, -⟩ := reach hf hw h
  have hsub : ∀ c ∈ g.order, c ∈ cmds := fun c hc => ((I.ord c).1 hc).1
  cases hr with
  | token ht hco hres hsig haw =>
    obtain ⟨hph, rfl, rfl⟩ := I.signalled ht hco hres hsig
    rw [I.await (I.mem hco).1 hph] at haw
    cases haw
  | wait ht hne hwr => exact ⟨g.order, g.ans, I.ordNodup, hsub, I.asks, .inr (.inr (.inr ⟨ht, hne, rfl, hwr⟩))⟩
  | command ht hco hl =>
    rename_i c cs co
    obtain ⟨hc, ⟨hph, hd, hn⟩ | ⟨hph, rfl, hn⟩⟩ := I.next ht
    · have hc' := (I.mem hco).2
      simp only [AsyncInv.coOf, hph, Option.some.injEq] at hc'
      subst hc'
      simp only [Co.cfg] at hl
      have hnot : c ∉ g.order := by
        intro h
        have := ((I.ord c).1 h).2
        rw [hph] at this; cases this
      cases hq : (cmd c).request with
      | error x =>
        have := Reactor.asyncLoop_det hl (AsyncRun.unbuildable hq st.world); cases this
        exact ⟨g.order, g.ans, I.ordNodup, hsub, I.asks, .inr (.inl ⟨c, hc, hnot, x, hq, rfl⟩)⟩
      | ok q =>
        by_cases hlt : g.n < w.st.maxq
        · obtain ⟨h, w, hrun, -⟩ := I.start hf.setup hd hq hlt
          have := Reactor.asyncLoop_det hl hrun; cases this
        · obtain ⟨w', hrun, hos, -⟩ := AsyncRun.start_full (a := Win32.W b) (parse := parse) (io := ioDevice b dev) (alloc := alloc) (own := some c) hq st.world
            (by rw [I.maxq, I.pFull (by rw [hd]; simp)]; omega)
          have := Reactor.asyncLoop_det hl hrun; cases this
          exact ⟨g.order, g.ans, I.ordNodup, hsub, by rw [hos]; exact I.asks, .inr (.inr (.inl ⟨by omega, rfl⟩))⟩
    · have hc' := (I.mem hco).2
      simp only [AsyncInv.coOf, hph, Option.some.injEq] at hc'
      subst hc'
      simp only [Co.cfg] at hl
      have ac := AsyncInv.active_of_picked hph
      cases hans : g.ans c with
      | error x =>
        obtain ⟨w', hrun, hos, -⟩ := AsyncRun.finish_raised (io := ioDevice b dev) (alloc := alloc) (cmd := cmd c) (v := .num (blockSize b)) (r := some (.tok (g.ev c)))
          st.world I.incoming (I.box c hc ac) (I.built' hf.setup hc ac).id (I.pend c hc ac) ((I.said c hc (.inr hph)).trans hans)
        have := Reactor.asyncLoop_det hl hrun; cases this
        exact ⟨g.order, g.ans, I.ordNodup, hsub, by rw [hos]; exact I.asks,
          .inl ⟨c, (I.ord c).2 ⟨hc, by rw [hph]; rfl⟩, hans⟩⟩
      | ok v =>
        obtain ⟨r', rfl⟩ := AsyncInv.decoded_ok ((I.said c hc (.inr hph)).trans hans)
        obtain ⟨w', hrun, -⟩ := I.finish hf.setup hc hph hans
        have := Reactor.asyncLoop_det hl hrun; cases this

/-- The same operating system, never giving up while waiting. -/
def patient (b : Bool) (dev : Device δ) : ReactorShared.Kernel (World' S δ) (Exn (DevErr S)) Nat :=
  { ioKernel b dev with waitRaises := fun _ _ => False }

/-- **C60, progress.** `wait_for` and the device together make at most four steps for every command, and as long as it has neither returned
nor raised there is a next one: it cannot hang while the device works. -/
theorem C60_progress (hf : Fit b alloc cmd cmds w.st.maxq) (hw : AsyncIdle w k) {st}
    (h : Steps (prog (R := R) b parse dev alloc) (ioKernel b dev) m (called cmd cmds w) st) :
    m ≤ 4 * cmds.length ∧
    ((∃ rs, Returns cmds st rs) ∨ (∃ e s, Raises (prog (R := R) b parse dev alloc) (patient b dev) st e s) ∨
      ∃ st', Step (prog (R := R) b parse dev alloc) (ioKernel b dev) st st') := by
  obtain ⟨g, I, ht⟩ := reach hf hw h
  refine ⟨by omega, ?_⟩
  rcases I.progress hf.setup _ rfl with h | h | h
  · exact .inl ⟨_, h⟩
  · exact .inr (.inr h)
  · exact .inr (.inl h)

/-- Some run ends: the hypotheses of `C60_returns` and `C60_raises` are met by real runs. -/
theorem C60_ends (hf : Fit b alloc cmd cmds w.st.maxq) (hw : AsyncIdle w k) :
    ∃ m st, Steps (prog (R := R) b parse dev alloc) (ioKernel b dev) m (called cmd cmds w) st ∧
      ((∃ rs, Returns cmds st rs) ∨ ∃ e s, Raises (prog (R := R) b parse dev alloc) (patient b dev) st e s) := by
  have key : ∀ n m st, Steps (prog (R := R) b parse dev alloc) (ioKernel b dev) m (called cmd cmds w) st → 4 * cmds.length + 1 - m ≤ n →
      ∃ m st, Steps (prog (R := R) b parse dev alloc) (ioKernel b dev) m (called cmd cmds w) st ∧
        ((∃ rs, Returns cmds st rs) ∨ ∃ e s, Raises (prog (R := R) b parse dev alloc) (patient b dev) st e s) := by
    intro n
    induction n with
    | zero =>
      intro m st hs hn
      have := (C60_progress hf hw hs).1
      omega
    | succ n ih =>
      intro m st hs hn
      obtain ⟨hm, h | h | ⟨st', h⟩⟩ := C60_progress hf hw hs
      · exact ⟨m, st, hs, .inl h⟩
      · exact ⟨m, st, hs, .inr h⟩
      · exact ih _ _ (.step hs h) (by omega)
  exact key _ 0 _ (.refl _) (Nat.le_refl _)

/-- If every request can be built, the queue has room, and the device answers every command well whatever it served before, then nothing
but a failed wait can be raised, and some run returns. -/
theorem C60_healthy (hf : Fit b alloc cmd cmds w.st.maxq) (hw : AsyncIdle w k) (hroom : cmds.length ≤ w.st.maxq)
    (hreq : ∀ c ∈ cmds, ∃ q, (cmd c).request = .ok q)
    (hdev : ∀ order : List Nat, order.Nodup → (∀ c ∈ order, c ∈ cmds) → ∀ a ∈ (askAll dev (winOutcome parse) (order.map cmd) k).1, ∃ v, a = .ok v) :
    (∀ m st e s, Steps (prog (R := R) b parse dev alloc) (ioKernel b dev) m (called cmd cmds w) st →
      Raises (prog (R := R) b parse dev alloc) (ioKernel b dev) st e s → e = .py .asiOs ∧ st.todo = []) ∧
    ∃ m st rs, Steps (prog (R := R) b parse dev alloc) (ioKernel b dev) m (called cmd cmds w) st ∧ Returns cmds st rs := by
  have hno : ∀ m st e s, Steps (prog (R := R) b parse dev alloc) (ioKernel b dev) m (called cmd cmds w) st →
      Raises (prog (R := R) b parse dev alloc) (ioKernel b dev) st e s → e = .py .asiOs ∧ st.todo = [] ∧ st.coroutines ≠ [] := by
    intro m st e s h hr
    obtain ⟨order, ans, hn, hsub, hask, hc⟩ := C60_raises hf hw h hr
    rcases hc with ⟨c, hc, he⟩ | ⟨c, hc, -, x, hx, -⟩ | ⟨hlt, -⟩ | ⟨h1, h2, -, h3⟩
    · obtain ⟨v, hv⟩ := hdev order hn hsub (ans c) (by rw [hask]; exact List.mem_map_of_mem hc)
      rw [he] at hv; cases hv
    · obtain ⟨q, hq⟩ := hreq c hc
      rw [hq] at hx; cases hx
    · omega
    · exact ⟨h3, h1, h2⟩
  refine ⟨fun m st e s h hr => ⟨(hno m st e s h hr).1, (hno m st e s h hr).2.1⟩, ?_⟩
  obtain ⟨m, st, h, ⟨rs, hr⟩ | ⟨e, s, hr⟩⟩ := C60_ends (parse := parse) (dev := dev) hf hw
  · exact ⟨m, st, rs, h, hr⟩
  · exfalso
    cases hr with
    | command ht hco hl =>
      have := (hno m st e s h (.command ht hco hl)).2.1
      rw [ht] at this; cases this
    | token ht hco hres hsig haw =>
      obtain ⟨g, I, -⟩ := reach hf hw h
      obtain ⟨hph, rfl, rfl⟩ := I.signalled ht hco hres hsig
      rw [I.await (I.mem hco).1 hph] at haw
      cases haw
    | wait _ _ hwr => exact hwr

/-! ## The hypotheses are met -/

/-- Two INQUIRY commands, of 36 and of 5 bytes. -/
def toyCommand (c : Nat) : Command Req (Option Bytes) Nat :=
  let n : Nat := if c = 7 then 36 else 5
  { request := .ok (.read [0x12, 0, 0, 0, n.toUInt8, 0] n), decode := fun d => .ok ((d.getD none).getD []).length }

/-- A queue of two, each packet with a page of its own. -/
def toyAlloc (i : Nat) : Alloc := { block := 4096 + 8192 * i, sense := 0, cmd := 0, data := 8192 + 8192 * i }

def toyWorld : World' Bytes Nat :=
  { st := { pending := [], index := 1, maxq := 2 },
    os := { world := { mem := fun _ => 0xEE, kernel := { dev := 0, flying := [], landed := [(3, true)] } }, incoming := [], events := 4 },
    fired := [], box := fun _ => [] }

theorem toy_fit (b : Bool) : Fit b toyAlloc toyCommand [7, 9] 2 := by
  have hsz : ∀ c q, (toyCommand c).request = .ok q → q.cdb.length = 6 ∧ dataSize q ≤ 36 := by
    intro c q hq
    simp only [toyCommand, Except.ok.injEq] at hq
    subst hq
    refine ⟨rfl, ?_⟩
    simp only [dataSize]
    split <;> decide
  refine ⟨by decide, ?_, ?_⟩
  · intro c _ q hq
    obtain ⟨h1, h2⟩ := hsz c q hq
    refine ⟨by omega, by omega, fun i hi => ⟨?_, ?_⟩⟩
    · cases b <;> simp [winRegions, toyAlloc] <;> omega
    · cases b <;> simp [winRegions, toyAlloc, bits] <;> omega
  · intro c _ d _ q q' hq hq' i j hi hj hij r hr r' hr'
    obtain ⟨-, h2⟩ := hsz c q hq
    obtain ⟨-, h3⟩ := hsz d q' hq'
    simp only [winRegions, toyAlloc, List.mem_cons, List.not_mem_nil, or_false] at hr hr'
    rcases hr with rfl | rfl <;> rcases hr' with rfl | rfl <;> cases b <;> simp <;> omega

/-- Two commands on one executer with a queue of two, 32 or 64 bit: some run of `wait_for` returns, and any that does returns the two lengths
in the order of the arguments, whichever request the device served first. -/
example (b : Bool) : ∃ m st, Steps (prog (R := Nat) b (fun s => .ok (some s)) Linux.toyDevice toyAlloc) (ioKernel b Linux.toyDevice) m
      (called toyCommand [7, 9] toyWorld) st ∧
    Returns [7, 9] st [some (some (.plain (.obj 8))), some (some (.plain (.obj 5)))] := by
  have hidle : AsyncIdle toyWorld 0 := ⟨rfl, by decide, rfl, rfl, by decide, rfl⟩
  have hone : ∀ k c, (winOutcome (S := Bytes) (fun s => .ok (some s)) (.read [0x12, 0, 0, 0, c, 0] 36) (Linux.toyDevice k (asked (.read [0x12, 0, 0, 0, c, 0] 36))).1) =
      .ok (some (some [0, 0, 5, 2, 31, 0, 0, 0])) := by
    intro k c; rfl
  have htwo : ∀ k c, (winOutcome (S := Bytes) (fun s => .ok (some s)) (.read [0x12, 0, 0, 0, c, 0] 5) (Linux.toyDevice k (asked (.read [0x12, 0, 0, 0, c, 0] 5))).1) =
      .ok (some (some [0, 0, 5, 2, 31])) := by
    intro k c; rfl
  have hans : ∀ c k, (askAll Linux.toyDevice (winOutcome (S := Bytes) fun s => .ok (some s)) [toyCommand c] k).1 =
      [.ok (some (.obj (if c = 7 then 8 else 5)))] := by
    intro c k
    by_cases h : c = 7
    · subst h
      simp only [askAll, toyCommand, if_true, decoded, Int.cast_ofNat_Int]
      rw [hone]
      rfl
    · simp only [askAll, toyCommand, if_neg h, decoded, Int.cast_ofNat_Int]
      rw [htwo]
      rfl
  have hall : ∀ (order : List Nat) k, (askAll Linux.toyDevice (winOutcome (S := Bytes) fun s => .ok (some s)) (order.map toyCommand) k).1 =
      order.map (fun c => .ok (some (.obj (if c = 7 then 8 else 5)))) := by
    intro order
    induction order with
    | nil => intro k; rfl
    | cons c cs ih =>
      intro k
      have := hans c k
      simp only [askAll, toyCommand, List.map_cons, List.cons.injEq, and_true] at this ih ⊢
      exact ⟨this, ih _⟩
  obtain ⟨-, m, st, rs, h, hr⟩ := C60_healthy (parse := fun s => .ok (some s)) (dev := Linux.toyDevice) (k := 0) (w := toyWorld) (toy_fit b) hidle
    (by decide) (fun c _ => ⟨_, rfl⟩) (by
      intro order _ _ a ha
      rw [hall] at ha
      obtain ⟨c, -, rfl⟩ := List.mem_map.1 ha
      exact ⟨_, rfl⟩)
  obtain ⟨order, val, hp, hval, rfl, -⟩ := C60_returns (toy_fit b) hidle h hr
  rw [hall] at hval
  have hv : ∀ c ∈ order, val c = .obj (if c = 7 then 8 else 5) := by
    intro c hc
    have := List.map_inj_left.1 hval c hc
    simp only [Except.ok.injEq, Option.some.injEq] at this
    exact this.symm
  refine ⟨m, st, h, ?_⟩
  have h7 := hv 7 (hp.mem_iff.2 (by simp))
  have h9 := hv 9 (hp.mem_iff.2 (by simp))
  simpa [h7, h9] using hr

end Verif.WindowsAsync
