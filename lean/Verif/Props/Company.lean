import Verif.CompanyLemmas
/-!
# C100: executers in one process do not disturb each other

A program for several devices has an executer for each, with commands outstanding at all of them. The buffers of all commands come from one `malloc`, and
the drivers write to them whenever the devices get to it.
-/
set_option linter.unusedSimpArgs false
set_option linter.unusedSectionVars false

namespace Verif.Heap
open Verif.Executer Verif.Platform Verif.Platform.Linux Verif.Spec Verif.Spec.Heap

variable {ι S δ : Type} [DecidableEq ι]

theorem company_objs (l : Bool) (parse : Bytes → Py (Option S)) (u : Setup ι δ) (acts : List (ι × Act)) (s : Company ι δ S) :
    (s.run l parse u acts).objs = (acts.map Prod.snd).foldl objects s.objs := by
  induction acts generalizing s with
  | nil => rfl
  | cons x acts ih =>
    have := ih (s.step l parse u x)
    simp only [Company.run, List.foldl_cons, List.map_cons] at this ⊢
    rw [this]
    congr 1
    exact run_objs l parse (u.dev x.1) (u.tmo x.1) (u.room x.1) [x.2] (s.proc x.1)

section
variable {l : Bool} {parse : Bytes → Py (Option S)} {u : Setup ι δ}
  (hl : ∀ i, u.limit i ≤ 2 ^ 31) (ht : ∀ i, 0 ≤ u.tmo i ∧ u.tmo i < 2 ^ 32) (hr : ∀ i, u.limit i ≤ u.room i)
  (hparse : ∀ i k q, (u.dev i k q).1.status.toNat / 2 % 2 = 1 → ∃ sn, parse (padded 255 (u.dev i k q).1.sense) = .ok sn)
include hl ht hr hparse

/-- **C100** (partial: at no executer is a packet number reused while in use or a send interrupted once the operating system has the command; cf.
`C100_interrupted_false`, `C100_reuse_false`). A program has any number of executers, with any queue sizes and timeouts, and objects of its own; it sends
commands to all of them and reads responses from all of them in any order; the devices get to the commands in any order; and `malloc` hands out any
memory that is not in use. Then what the user of each executer is told, and what its device does, is as in an ideal queue into which only the commands of
that executer go; and all objects of the program keep their contents. -/
theorem C100_partial (acts : List (ι × Act)) (hfit : ∀ x ∈ acts, Fits x.2) (hcalm : ∀ x ∈ acts, x.2.Calm) (m : Mem) (k : ι → δ)
    (hal : (Company.init u m k).Allocates l parse u acts)
    (hnw : ∀ i, Queue.NoWrap (u.dev i) (u.limit i) (hear parse) (Queue.State.init (k i)) (mine i acts)) :
    let s := (Company.init u m k).run l parse u acts
    (∀ i, (s.own i).log = (Queue.run (u.dev i) (u.limit i) (hear parse) (k i) (mine i acts)).log ∧
      (s.own i).kernel.dev = (Queue.run (u.dev i) (u.limit i) (hear parse) (k i) (mine i acts)).dev) ∧
    ∀ o ∈ (acts.map Prod.snd).foldl objects [], readMem s.mem o.addr o.bytes.length = o.bytes := by
  intro s
  have h := together_run hl ht hr hparse acts hfit hcalm _ _ (together_init l parse u m k) hal hnw
  refine ⟨fun i => ?_, ?_⟩
  · obtain ⟨w, d, hi⟩ := h.inv i
    exact ⟨hi.log, hi.dev⟩
  · intro o ho
    rw [show ([] : List Obj) = (Company.init (S := S) u m k).objs from rfl, ← company_objs l parse u] at ho
    cases acts with
    | nil => simp [Company.run, Company.init] at ho
    | cons x acts =>
      obtain ⟨w, d, hi⟩ := h.inv x.1
      exact (hi.objs o ho).1

/-- **C100, as alone.** An executer among others, with any memory handed out to it, does for its user and at its device exactly what it does in a process of
its own, with any other memory handed out to it. -/
theorem C100_alone (acts : List (ι × Act)) (hfit : ∀ x ∈ acts, Fits x.2) (hcalm : ∀ x ∈ acts, x.2.Calm) (m : Mem) (k : ι → δ)
    (hal : (Company.init u m k).Allocates l parse u acts)
    (hnw : ∀ i, Queue.NoWrap (u.dev i) (u.limit i) (hear parse) (Queue.State.init (k i)) (mine i acts))
    (i : ι) (solo : List Act) (hsolo : solo.filterMap Act.op = mine i acts) (hfit' : ∀ x ∈ solo, Fits x) (hcalm' : ∀ x ∈ solo, x.Calm) (m' : Mem)
    (hal' : Allocates l parse (u.dev i) (u.tmo i) (u.room i) (Proc.init (u.limit i) m' (k i)) solo) :
    let s := (Company.init u m k).run l parse u acts
    let t := Proc.run l parse (u.dev i) (u.tmo i) (u.room i) (Proc.init (u.limit i) m' (k i)) solo
    (s.own i).log = t.live.log ∧ (s.own i).kernel.dev = t.live.world.kernel.dev := by
  have h1 := (C100_partial hl ht hr hparse acts hfit hcalm m k hal hnw).1 i
  have h2 := C87_partial (hl i) (ht i) (hr i) (hparse i) solo hfit' hcalm' m' (k i) hal' (by rw [hsolo]; exact hnw i)
  rw [hsolo] at h2
  exact ⟨h1.1.trans h2.2.2.1.symm, h1.2.trans h2.2.2.2.symm⟩

/-- **C100 for devices that answer in order**: no condition on packet numbers. -/
theorem C100_in_order (acts : List (ι × Act)) (hfit : ∀ x ∈ acts, Fits x.2) (hcalm : ∀ x ∈ acts, x.2.Calm)
    (hord : ∀ x ∈ acts, ∀ op, x.2.op = some op → Queue.InOrder op) (m : Mem) (k : ι → δ) (hal : (Company.init u m k).Allocates l parse u acts) :
    let s := (Company.init u m k).run l parse u acts
    (∀ i, (s.own i).log = (Queue.run (u.dev i) (u.limit i) (hear parse) (k i) (mine i acts)).log ∧
      (s.own i).kernel.dev = (Queue.run (u.dev i) (u.limit i) (hear parse) (k i) (mine i acts)).dev) ∧
    ∀ o ∈ (acts.map Prod.snd).foldl objects [], readMem s.mem o.addr o.bytes.length = o.bytes :=
  C100_partial hl ht hr hparse acts hfit hcalm m k hal fun i => noWrap_inOrder (u.dev i) (u.limit i) (hear parse) _ (by
    intro op hop
    obtain ⟨x, hx, hxo⟩ := List.mem_filterMap.1 hop
    split at hxo
    · exact hord x hx op hxo
    · cases hxo) _ 0 0 rfl rfl

end

/-! ## Checking the promise of `malloc`, for two executers -/

def Company.usedB (s : Company Bool δ S) : List (Nat × Nat) := (s.proc false).used ++ (s.proc true).used

theorem usedB_complete {s : Company Bool δ S} {v : Nat × Nat} (h : s.InUse v) : v ∈ s.usedB := by
  rcases h with ⟨i, e, he, hv⟩ | ⟨o, ho, rfl⟩
  · simp only [Company.usedB, Proc.used, List.mem_append, List.mem_flatMap]
    cases i
    · exact .inl (.inl ⟨e, he, hv⟩)
    · exact .inr (.inl ⟨e, he, hv⟩)
  · simp only [Company.usedB, Proc.used, List.mem_append, List.mem_map]
    exact .inl (.inr ⟨o, ho, rfl⟩)

def Company.freshB (s : Company Bool δ S) : Act → Bool
  | .send c al _ => (regions al c 88).all fun r => s.usedB.all (apartB r)
  | .make x => s.usedB.all (apartB (x.addr, x.bytes.length))
  | _ => true

def Company.allocatesB (l : Bool) (parse : Bytes → Py (Option S)) (u : Setup Bool δ) : Company Bool δ S → List (Bool × Act) → Bool
  | _, [] => true
  | s, x :: acts => s.freshB x.2 && Company.allocatesB l parse u (s.step l parse u x) acts

theorem company_allocatesB_sound {l : Bool} {parse : Bytes → Py (Option S)} {u : Setup Bool δ} (acts : List (Bool × Act)) (s : Company Bool δ S)
    (hsep : ∀ i c al b, (i, Act.send c al b) ∈ acts → Separate 64 (regions al c 88)) (h : s.allocatesB l parse u acts = true) :
    s.Allocates l parse u acts := by
  induction acts generalizing s with
  | nil => trivial
  | cons x acts ih =>
    simp only [Company.allocatesB, Bool.and_eq_true] at h
    refine ⟨?_, ih _ (fun i c al b hm => hsep i c al b (List.mem_cons_of_mem _ hm)) h.2⟩
    have h1 := h.1
    obtain ⟨i, x⟩ := x
    cases x with
    | send c al b =>
      refine ⟨hsep i c al b List.mem_cons_self, ?_⟩
      simp only [Company.freshB, List.all_eq_true] at h1
      exact fun r hr v hv => apartB_sound (h1 r hr v (usedB_complete hv))
    | make o =>
      simp only [Company.freshB, List.all_eq_true] at h1
      exact fun v hv => apartB_sound (h1 v (usedB_complete hv))
    | finish => trivial
    | receive => trivial
    | drop => trivial

/-- Two devices, with queues of `n`. -/
def two (n : Nat) : Setup Bool Unit := ⟨fun _ => echo, fun _ => 30000, fun _ => n, fun _ => 16⟩

def fresh0 (n : Nat) : Company Bool Unit Unit := Company.init (two n) (fun _ => 0) (fun _ => ())

/-! ## What goes wrong -/

/-- **C100 is false when a send is interrupted**: the program gives up a READ of the first device; then it reads from the second device, with nothing else
outstanding there, and is told the first device's data. -/
theorem C100_interrupted_false :
    let acts := [(false, .send (.read [8, 65] 1) (pages 0) true), (true, .send (.read [8, 66] 1) (pages 0) false), (true, .finish 0 true), (false, .finish 0 true),
      (true, .receive 0)]
    (∀ x ∈ acts, Fits x.2) ∧ (fresh0 15).Allocates true (fun _ => .ok none) (two 15) acts ∧
    (∀ i, Queue.NoWrap echo 15 (hear (S := Unit) (fun _ => .ok none)) (Queue.State.init ()) (mine i acts)) ∧
    (((fresh0 15).run true (fun _ => .ok none) (two 15) acts).own true).log = [.accepted 0, .told 0 ⟨some (some [65]), none⟩] ∧
    (Queue.run echo 15 (hear (S := Unit) (fun _ => .ok none)) () (mine true acts)).log = [.accepted 0, .told 0 ⟨some (some [66]), none⟩] := by
  refine ⟨by simp [Fits, dataSize, Req.cdb], company_allocatesB_sound _ _ ?_ (by decide +kernel), ?_, by decide +kernel, by decide +kernel⟩
  · intro i c al b hm
    simp only [List.mem_cons, Prod.mk.injEq, Act.send.injEq, List.not_mem_nil, or_false, reduceCtorEq, false_or, and_false] at hm
    rcases hm with ⟨-, rfl, rfl, -⟩ | ⟨-, rfl, rfl, -⟩
    · exact (pages_room 1 (by decide)).one _ (by simp [Small, dataSize, Req.cdb]) 0 (by decide)
    · exact (pages_room 1 (by decide)).one _ (by simp [Small, dataSize, Req.cdb]) 0 (by decide)
  · intro i
    cases i <;> simp [mine, Act.op, Queue.NoWrap, Queue.step, Queue.State.init, Queue.State.tickets]

/-- **C100 is false when a packet number is reused**, without any interruption: at the first device, with a queue of 2, the younger of two commands completes
first, and the next command takes the entry of the one still outstanding; its buffers go to a command for the second device, whose user is told what the
first device sends. -/
theorem C100_reuse_false :
    let acts := [(false, .send (.read [8, 65] 1) (pages 0) false), (false, .send (.read [8, 66] 1) (pages 1) false), (false, .finish 1 true), (false, .receive 0),
      (false, .send (.read [8, 67] 1) (pages 2) false), (true, .send (.read [8, 68] 1) (pages 0) false), (true, .finish 0 true), (false, .finish 0 true),
      (true, .receive 0)]
    (∀ x ∈ acts, Fits x.2) ∧ (∀ x ∈ acts, x.2.Calm) ∧ (fresh0 2).Allocates true (fun _ => .ok none) (two 2) acts ∧
    (((fresh0 2).run true (fun _ => .ok none) (two 2) acts).own true).log = [.accepted 0, .told 0 ⟨some (some [65]), none⟩] ∧
    (Queue.run echo 2 (hear (S := Unit) (fun _ => .ok none)) () (mine true acts)).log = [.accepted 0, .told 0 ⟨some (some [68]), none⟩] := by
  refine ⟨by simp [Fits, dataSize, Req.cdb], by simp [Act.Calm], company_allocatesB_sound _ _ ?_ (by decide +kernel), by decide +kernel, by decide +kernel⟩
  intro i c al b hm
  simp only [List.mem_cons, Prod.mk.injEq, Act.send.injEq, List.not_mem_nil, or_false, reduceCtorEq, false_or, and_false] at hm
  rcases hm with ⟨-, rfl, rfl, -⟩ | ⟨-, rfl, rfl, -⟩ | ⟨-, rfl, rfl, -⟩ | ⟨-, rfl, rfl, -⟩
  · exact (pages_room 3 (by decide)).one _ (by simp [Small, dataSize, Req.cdb]) 0 (by decide)
  · exact (pages_room 3 (by decide)).one _ (by simp [Small, dataSize, Req.cdb]) 1 (by decide)
  · exact (pages_room 3 (by decide)).one _ (by simp [Small, dataSize, Req.cdb]) 2 (by decide)
  · exact (pages_room 3 (by decide)).one _ (by simp [Small, dataSize, Req.cdb]) 0 (by decide)

/-! ## The hypotheses are met -/

/-- Commands at both devices, completing out of order; the memory of a command of the first is used again for a command of the second. -/
def someCompany : List (Bool × Act) :=
  [(false, .send (.read [8, 65] 1) (pages 0) false), (true, .send (.read [8, 66] 1) (pages 1) false), (false, .make ⟨4000, [1, 2, 3]⟩),
    (false, .send (.write [10, 67] [5, 6]) (pages 2) false), (false, .finish 1 true), (true, .finish 0 false), (false, .finish 0 true), (false, .receive 1),
    (true, .send (.read [8, 68] 1) (pages 0) false), (true, .finish 0 true), (true, .receive 1), (false, .receive 0), (true, .receive 0)]

theorem example_company : (∀ x ∈ someCompany, Fits x.2) ∧ (∀ x ∈ someCompany, x.2.Calm) ∧
    (fresh0 3).Allocates true (fun _ => .ok none) (two 3) someCompany ∧
    (∀ i, Queue.NoWrap echo 3 (hear (S := Unit) (fun _ => .ok none)) (Queue.State.init ()) (mine i someCompany)) ∧
    (((fresh0 3).run true (fun _ => .ok none) (two 3) someCompany).own true).log =
      [.accepted 0, .accepted 1, .told 1 ⟨some (some [68]), none⟩, .told 0 ⟨some (some [66]), none⟩] := by
  refine ⟨by simp [someCompany, Fits, dataSize, Req.cdb], by simp [someCompany, Act.Calm], company_allocatesB_sound _ _ ?_ (by decide +kernel), ?_,
    by decide +kernel⟩
  · intro i c al b hm
    simp only [someCompany, List.mem_cons, Prod.mk.injEq, Act.send.injEq, List.not_mem_nil, or_false, reduceCtorEq, false_or, and_false] at hm
    rcases hm with ⟨-, rfl, rfl, -⟩ | ⟨-, rfl, rfl, -⟩ | ⟨-, rfl, rfl, -⟩ | ⟨-, rfl, rfl, -⟩
    · exact (pages_room 3 (by decide)).one _ (by simp [Small, dataSize, Req.cdb]) 0 (by decide)
    · exact (pages_room 3 (by decide)).one _ (by simp [Small, dataSize, Req.cdb]) 1 (by decide)
    · exact (pages_room 3 (by decide)).one _ (by simp [Small, dataSize, Req.cdb]) 2 (by decide)
    · exact (pages_room 3 (by decide)).one _ (by simp [Small, dataSize, Req.cdb]) 0 (by decide)
  · intro i
    cases i <;> simp [mine, someCompany, Act.op, Queue.NoWrap, Queue.step, Queue.State.init, Queue.State.tickets]

/-- The other hypotheses: as for the executers of the library, with the default queue size and timeout. -/
example : (∀ i, (two 15).limit i ≤ 2 ^ 31) ∧ (∀ i, 0 ≤ (two 15).tmo i ∧ (two 15).tmo i < 2 ^ 32) ∧ (∀ i, (two 15).limit i ≤ (two 15).room i) ∧
    ∀ i k q, ((two 15).dev i k q).1.status.toNat / 2 % 2 = 1 → ∃ sn : Option Unit, (fun _ => .ok none : Bytes → Py (Option Unit)) (padded 255 ((two 15).dev i k q).1.sense) = .ok sn :=
  ⟨fun _ => by simp [two], fun _ => by simp [two], fun _ => by simp [two], fun _ _ _ _ => ⟨none, rfl⟩⟩

end Verif.Heap
