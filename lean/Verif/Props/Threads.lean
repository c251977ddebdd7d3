import Verif.ThreadsLock
set_option linter.unusedSimpArgs false
/-!
# C86: threads sharing an executer
-/

namespace Verif.Threads
open Verif.Executer

variable {P X : Type}

/-- **C86 (partial: packet numbers in use are distinct, cf. `C86_false`).** Any number of threads use one executer; the interpreter switches
between them at any access to what they share, the driver may fail to take commands, and the device answers in any order. Every call ends with nothing sent
(full queue, or the write failed), or given up after waiting in vain, or with what the device answered to the command of this very call; no command is sent, answered or ends twice; and every command
sent is at the device, can be read, is in the hands of a thread or its result is with its call. -/
theorem C86_partial (limit : Nat) (blank : Nat → P) (s : State P X) (hs : Steps Distinct (State.init limit blank) s) :
    Right s ∧ ∀ g t, (g, t) ∈ s.sent → Somewhere s t := by
  obtain ⟨pl, h⟩ := inv_steps (fun _ _ _ h => h) hs
  exact ⟨h.right, fun g t hg => h.somewhere hg⟩

/-- **C86 with a lock in `_next_packet_index`**: if one thread at a time is in there, packet numbers are distinct as long as no command is outstanding while as
many others get numbers as the queue holds. -/
theorem C86_numbers (limit : Nat) (blank : Nat → P) (s : State P X) (hs : Steps (fun s => NumbersLocked s ∧ Recent s) (State.init limit blank) s) :
    Right s ∧ ∀ g t, (g, t) ∈ s.sent → Somewhere s t := by
  obtain ⟨⟨pl, h⟩, -⟩ := numbered_steps hs
  exact ⟨h.right, fun g t hg => h.somewhere hg⟩

/-- **C86 with a lock around `call`**: as long as no call was given up, every call ends with what the device answered to its command, or with the error of a write
that failed, and none is refused. -/
theorem C86_lock (limit : Nat) (hpos : 0 < limit) (blank : Nat → P) (s : State P X)
    (hs : Steps (fun s => Locked s ∧ Patient s) (State.init limit blank) s) :
    Right s ∧ ∀ g ot f, (g, ot, f) ∈ s.log → (ot = none ∧ f = .raised .ioError) ∨
      ∃ t o, ot = some t ∧ (g, t) ∈ s.sent ∧ (t, o) ∈ s.answers ∧ f = due o := by
  obtain ⟨⟨pl, h⟩, -, -, -, -, h5⟩ := locked_steps hs
  refine ⟨h.right, fun g ot f hm => ?_⟩
  rcases h.ended g ot f hm with ⟨rfl, rfl | rfl⟩ | ⟨t, rfl, h1, rfl | ⟨o, h2, h3⟩⟩
  · exact absurd hm (h5 hpos g)
  · exact .inl ⟨rfl, rfl⟩
  · exact absurd hm (hs.last.2 g t)
  · exact .inr ⟨t, o, rfl, h1, h2, h3⟩

/-- **C86 with a lock around `call`, the first call given up**: as long as no call was given up before, a call that finds nothing to read waits for a command
that is at the device. So it is given up only if the device does not answer in time. -/
theorem C86_lock_waits (limit : Nat) (blank : Nat → P) (s : State P X) (hs : Steps (fun s => Locked s ∧ Patient s) (State.init limit blank) s)
    (g t : Nat) (hg : s.pc g = .polling t) (hr : s.ready = []) : ∃ pid, (pid, t) ∈ s.waiting := by
  obtain ⟨⟨pl, h⟩, -, -, hk, -⟩ := locked_steps hs
  have hl := hs.last.1
  have hself : ∀ g', s.pc g' ≠ .idle → g' = g := fun g' h => hl g' g h (by rw [hg]; simp)
  cases h.somewhere (h.own g t (by rw [hg]; rfl)) with
  | device pid h => exact ⟨pid, h⟩
  | unread o pid h => rw [hr] at h; cases h
  | got g' u o pid h => have := hself g' (by rw [h]; simp); subst this; rw [hg] at h; cases h
  | decoded g' u o pid h => have := hself g' (by rw [h]; simp); subst this; rw [hg] at h; cases h
  | popped g' u o h => have := hself g' (by rw [h]; simp); subst this; rw [hg] at h; cases h
  | delivered a h =>
    have := hk g t (by rw [hg]; rfl)
    rw [List.lookup_eq_none_iff] at this
    simpa using this _ h

/-! ## Without locks -/

/-- A history as the list of its steps, newest last. -/
theorem Steps.then {s s' s'' : State P X} (h : Steps (fun _ => True) s s') (hs : Step s' s'') : Steps (fun _ => True) s s'' := .step h hs trivial

/-- **C86 is false without a lock**, with any queue size: two threads make one call each. Both read `packet_index` before one of them stores the next, so both commands get
number 0, and the second takes the place of the first in `pending_packets`. When the device answers the first, the data goes into the buffer of the first, but the
second thread's call returns what is in its own buffer, which nobody has filled: its command is still at the device. -/
theorem C86_false (limit : Nat) (hpos : 0 < limit) (blank : Nat → P) (p : P) :
    ∃ s : State P X, Steps (fun _ => True) (State.init limit blank) s ∧ (0, some 1, .returned (some (blank 1))) ∈ s.log ∧
      s.answers = [(0, .data p)] ∧ (0, 1) ∈ s.waiting := by
  have h := (Steps.refl (ok := fun _ => True) (State.init limit blank : State P X) trivial)
    |>.then (.begin (g := 0) rfl) |>.then (.check (g := 0) rfl hpos) |>.then (.take (g := 0) rfl)
    |>.then (.begin (g := 1) rfl) |>.then (.check (g := 1) rfl hpos) |>.then (.take (g := 1) rfl)
    |>.then (.add (g := 1) rfl) |>.then (.store (g := 1) rfl) |>.then (.register (g := 1) rfl) |>.then (.write (g := 1) rfl)
    |>.then (.add (g := 0) rfl) |>.then (.store (g := 0) rfl) |>.then (.register (g := 0) rfl) |>.then (.write (g := 0) rfl)
    |>.then (.answer (i := 0) (o := .data p) rfl)
    |>.then (.enter (g := 0) rfl rfl) |>.then (.poll (g := 0) rfl)
    |>.then (.readable (g := 0) rfl (by simp [State.goes]))
    |>.then (.read (g := 0) (i := 0) rfl rfl) |>.then (.decode (g := 0) rfl rfl) |>.then (.pop (g := 0) rfl rfl)
    |>.then (.callback (g := 0) rfl) |>.then (.finish (g := 0) rfl rfl)
  refine ⟨_, h, ?_, ?_, ?_⟩
  · exact List.mem_singleton.2 rfl
  · rfl
  · exact List.mem_singleton.2 rfl

/-- **A write that fails may leave somebody else without an answer**, with any queue size: as before both commands get number 0, but the driver does not take the
second. The second thread takes what is under number 0 out of `pending_packets`; when the answer to the first command is read, nothing is registered under its number, and
`request_sgio.data_buffer` raises `AttributeError` in the call whose command the device carried out. -/
theorem C86_write_false (limit : Nat) (hpos : 0 < limit) (blank : Nat → P) (p : P) :
    ∃ s : State P X, Steps (fun _ => True) (State.init limit blank) s ∧ s.answers = [(0, .data p)] ∧
      s.log = [(0, none, .raised .ioError), (1, some 0, .raised .attribute)] := by
  have h := (Steps.refl (ok := fun _ => True) (State.init limit blank : State P X) trivial)
    |>.then (.begin (g := 0) rfl) |>.then (.check (g := 0) rfl hpos) |>.then (.take (g := 0) rfl)
    |>.then (.begin (g := 1) rfl) |>.then (.check (g := 1) rfl hpos) |>.then (.take (g := 1) rfl)
    |>.then (.add (g := 1) rfl) |>.then (.store (g := 1) rfl) |>.then (.register (g := 1) rfl) |>.then (.write (g := 1) rfl)
    |>.then (.add (g := 0) rfl) |>.then (.store (g := 0) rfl) |>.then (.register (g := 0) rfl) |>.then (.fail (g := 0) rfl)
    |>.then (.unregister (g := 0) rfl rfl)
    |>.then (.answer (i := 0) (o := .data p) rfl)
    |>.then (.enter (g := 1) rfl rfl) |>.then (.poll (g := 1) rfl)
    |>.then (.readable (g := 1) rfl (by simp [State.goes, State.ends]))
    |>.then (.read (g := 1) (i := 0) rfl rfl) |>.then (.spoilt (g := 1) rfl rfl)
  exact ⟨_, h, rfl, rfl⟩

/-! ## Distinct packet numbers are not enough -/

/-- Histories with locked numbers have distinct numbers. -/
theorem numbered_distinct {limit : Nat} {blank : Nat → P} {s : State P X}
    (hs : Steps (fun s => NumbersLocked s ∧ Recent s) (State.init limit blank) s) : Steps Distinct (State.init limit blank) s := by
  induction hs with
  | refl hk =>
    obtain ⟨⟨pl, h⟩, hc⟩ := numbered_steps (.refl (State.init limit blank : State P X) hk)
    exact .refl _ (hc.distinct h hk.2)
  | step hs hst hk ih =>
    obtain ⟨⟨pl, h⟩, hc⟩ := numbered_steps (.step hs hst hk)
    exact .step ih hst (hc.distinct h hk.2)

/-- Only thread `a` may be in `_next_packet_index`. -/
def Only (a : Nat) (pc : Nat → Pc P X) : Prop := ∀ g, g ≠ a → ¬ (pc g).taking

theorem Only.goes {s : State P X} {a : Nat} (h : Only a s.pc) (c : Pc P X) : Only a (s.goes a c).pc := by
  intro g hg; simp [State.goes, hg, h g hg]

theorem Only.others {s : State P X} {a : Nat} (h : Only a s.pc) (g : Nat) (c : Pc P X) (hc : ¬ c.taking) : Only a (s.goes g c).pc := by
  intro g' hg; by_cases e : g' = g <;> simp [State.goes, e, hc, h g' hg]

theorem Only.pass {s : State P X} {a : Nat} (h : Only a s.pc) (b : Nat) (ha : ¬ (s.pc a).taking) : Only b s.pc := by
  intro g _; by_cases e : g = a
  · rw [e]; exact ha
  · exact h g e

theorem blocked_steps {s s' : State P X} {g t : Nat} (hp : s.pc g = .reading t) (hw : s.waiting = []) (hr : s.ready = [])
    (hs : Steps (fun s => ∀ g', g' ≠ g → s.pc g' = .idle) s s') : s'.pc g = .reading t ∧ s'.waiting = [] ∧ s'.ready = [] ∧ s'.log = s.log := by
  induction hs with
  | refl => exact ⟨hp, hw, hr, rfl⟩
  | step hs hst hk ih =>
    obtain ⟨h1, h2, h3, h4⟩ := ih
    have hi := hs.last
    cases hst <;> grind [State.goes, State.ends]

/-- **A call may hang though its answer arrived**, also with distinct packet numbers: two threads make one call each and see that the file can be read,
where only one response is. The first reads it, which is the second's, passes it on, waits for its own and returns. The second, whose result is there,
stays in `os.read` as long as nobody else makes calls. -/
theorem C86_hangs_false (blank : Nat → P) (p q : P) : ∃ s : State P X, Steps (fun s => NumbersLocked s ∧ Recent s) (State.init 15 blank) s ∧
    Steps Distinct (State.init 15 blank) s ∧ (1, .data q) ∈ s.answers ∧ (1, cbArgs (.data q)) ∈ s.results ∧ (∀ g, g ≠ 1 → s.pc g = .idle) ∧
    ∀ s', Steps (fun s => ∀ g, g ≠ 1 → s.pc g = .idle) s s' → s'.pc 1 = .reading 1 ∧ s'.log = s.log := by
  have next : ∀ {s s' : State P X} (a : Nat), Steps (fun s => NumbersLocked s ∧ Recent s) (State.init 15 blank) s → Step s s' →
      Only a s'.pc → s'.next ≤ s'.ex.maxq → Steps (fun s => NumbersLocked s ∧ Recent s) (State.init 15 blank) s' := by
    intro s s' a h hs h1 h2
    refine .step h hs ⟨fun g g' hg hg' => ?_, fun _ _ _ => Nat.le_trans h2 (Nat.le_add_left ..)⟩
    have e : g = a := Classical.byContradiction fun e => h1 g e hg
    have e' : g' = a := Classical.byContradiction fun e => h1 g' e hg'
    rw [e, e']
  have h0 : Steps (fun s => NumbersLocked s ∧ Recent s) (State.init 15 blank) (State.init 15 blank : State P X) :=
    .refl _ ⟨fun _ _ h => h.elim, fun _ _ _ => Nat.zero_le _⟩
  have o0 : Only 0 (State.init 15 blank : State P X).pc := fun _ _ => id
  have o1 := o0.goes (.start)
  have h1 := next 0 h0 (.begin (g := 0) rfl) o1 (by show 0 ≤ 15; omega)
  have o2 := o1.goes (.checked)
  have h2 := next 0 h1 (.check (g := 0) rfl (by show 0 < 15; omega)) o2 (by show 0 ≤ 15; omega)
  have o3 := o2.goes (.took 0)
  have h3 := next 0 h2 (.take (g := 0) rfl) o3 (by show 0 ≤ 15; omega)
  have o4 := o3.goes (.adding 0 0)
  have h4 := next 0 h3 (.add (g := 0) rfl) o4 (by show 0 ≤ 15; omega)
  have o5 := o4.goes (.numbered 0 0)
  have h5 := next 0 h4 (.store (g := 0) rfl) o5 (by show 1 ≤ 15; omega)
  have o6 := o5.goes (.registered 0 0)
  have h6 := next 0 h5 (.register (g := 0) rfl) o6 (by show 1 ≤ 15; omega)
  have o7 := o6.goes (.loop 0)
  have h7 := next 0 h6 (.write (g := 0) rfl) o7 (by show 1 ≤ 15; omega)
  replace o7 := o7.pass 1 id
  have o8 := o7.goes (.start)
  have h8 := next 1 h7 (.begin (g := 1) rfl) o8 (by show 1 ≤ 15; omega)
  have o9 := o8.goes (.checked)
  have h9 := next 1 h8 (.check (g := 1) rfl (by show 1 < 15; omega)) o9 (by show 1 ≤ 15; omega)
  have o10 := o9.goes (.took 1)
  have h10 := next 1 h9 (.take (g := 1) rfl) o10 (by show 1 ≤ 15; omega)
  have o11 := o10.goes (.adding 1 1)
  have h11 := next 1 h10 (.add (g := 1) rfl) o11 (by show 1 ≤ 15; omega)
  have o12 := o11.goes (.numbered 1 1)
  have h12 := next 1 h11 (.store (g := 1) rfl) o12 (by show 2 ≤ 15; omega)
  have o13 := o12.goes (.registered 1 1)
  have h13 := next 1 h12 (.register (g := 1) rfl) o13 (by show 2 ≤ 15; omega)
  have o14 := o13.goes (.loop 1)
  have h14 := next 1 h13 (.write (g := 1) rfl) o14 (by show 2 ≤ 15; omega)
  have o15 := o14.others 0 (.entered 0) id
  have h15 := next 1 h14 (.enter (g := 0) rfl rfl) o15 (by show 2 ≤ 15; omega)
  have o16 := o15.others 0 (.polling 0) id
  have h16 := next 1 h15 (.poll (g := 0) rfl) o16 (by show 2 ≤ 15; omega)
  have o17 := o16.goes (.entered 1)
  have h17 := next 1 h16 (.enter (g := 1) rfl rfl) o17 (by show 2 ≤ 15; omega)
  have o18 := o17.goes (.polling 1)
  have h18 := next 1 h17 (.poll (g := 1) rfl) o18 (by show 2 ≤ 15; omega)
  have o19 := o18
  have h19 := next 1 h18 (.answer (i := 1) (o := .data q) rfl) o19 (by show 2 ≤ 15; omega)
  have o20 := o19.others 0 (.reading 0) id
  have h20 := next 1 h19 (.readable (g := 0) rfl (by intro h; cases h)) o20 (by show 2 ≤ 15; omega)
  have o21 := o20.goes (.reading 1)
  have h21 := next 1 h20 (.readable (g := 1) rfl (by intro h; cases h)) o21 (by show 2 ≤ 15; omega)
  have o22 := o21.others 0 (.got 0 (.data q) 1 1) id
  have h22 := next 1 h21 (.read (g := 0) (i := 0) rfl rfl) o22 (by show 2 ≤ 15; omega)
  have o23 := o22.others 0 (.decoded 0 (.data q) 1 1) id
  have h23 := next 1 h22 (.decode (g := 0) rfl rfl) o23 (by show 2 ≤ 15; omega)
  have o24 := o23.others 0 (.popped 0 1 (.data q)) id
  have h24 := next 1 h23 (.pop (g := 0) rfl rfl) o24 (by show 2 ≤ 15; omega)
  have o25 := o24.others 0 (.loop 0) id
  have h25 := next 1 h24 (.callback (g := 0) rfl) o25 (by show 2 ≤ 15; omega)
  have o26 := o25
  have h26 := next 1 h25 (.answer (i := 0) (o := .data p) rfl) o26 (by show 2 ≤ 15; omega)
  have o27 := o26.others 0 (.entered 0) id
  have h27 := next 1 h26 (.enter (g := 0) rfl rfl) o27 (by show 2 ≤ 15; omega)
  have o28 := o27.others 0 (.polling 0) id
  have h28 := next 1 h27 (.poll (g := 0) rfl) o28 (by show 2 ≤ 15; omega)
  have o29 := o28.others 0 (.reading 0) id
  have h29 := next 1 h28 (.readable (g := 0) rfl (by intro h; cases h)) o29 (by show 2 ≤ 15; omega)
  have o30 := o29.others 0 (.got 0 (.data p) 0 0) id
  have h30 := next 1 h29 (.read (g := 0) (i := 0) rfl rfl) o30 (by show 2 ≤ 15; omega)
  have o31 := o30.others 0 (.decoded 0 (.data p) 0 0) id
  have h31 := next 1 h30 (.decode (g := 0) rfl rfl) o31 (by show 2 ≤ 15; omega)
  have o32 := o31.others 0 (.popped 0 0 (.data p)) id
  have h32 := next 1 h31 (.pop (g := 0) rfl rfl) o32 (by show 2 ≤ 15; omega)
  have o33 := o32.others 0 (.loop 0) id
  have h33 := next 1 h32 (.callback (g := 0) rfl) o33 (by show 2 ≤ 15; omega)
  have o34 := o33.others 0 (.idle) id
  have h34 := next 1 h33 (.finish (g := 0) rfl rfl) o34 (by show 2 ≤ 15; omega)
  refine ⟨_, h34, numbered_distinct h34, List.mem_cons_self, List.mem_cons_self, ?_, fun s' hs' => ?_⟩
  · intro g hg
    match g, hg with
    | 0, _ => rfl
    | 1, hg => exact absurd rfl hg
    | g + 2, _ => rfl
  · have := blocked_steps rfl rfl rfl hs'
    exact ⟨this.1, this.2.2.2⟩

/-- **A call may be given up though its answer arrived in time**: as before, but the second thread has not seen that the file can be read. It goes on looking until the
time limit and raises `IOError`. -/
theorem C86_timeout_false (blank : Nat → P) (p q : P) : ∃ s : State P X, Steps (fun s => NumbersLocked s ∧ Recent s) (State.init 15 blank) s ∧
    Steps Distinct (State.init 15 blank) s ∧ (1, some 1, .raised .ioError) ∈ s.log ∧ (1, .data q) ∈ s.answers ∧
    (1, cbArgs (.data q)) ∈ s.results := by
  have next : ∀ {s s' : State P X} (a : Nat), Steps (fun s => NumbersLocked s ∧ Recent s) (State.init 15 blank) s → Step s s' →
      Only a s'.pc → s'.next ≤ s'.ex.maxq → Steps (fun s => NumbersLocked s ∧ Recent s) (State.init 15 blank) s' := by
    intro s s' a h hs h1 h2
    refine .step h hs ⟨fun g g' hg hg' => ?_, fun _ _ _ => Nat.le_trans h2 (Nat.le_add_left ..)⟩
    have e : g = a := Classical.byContradiction fun e => h1 g e hg
    have e' : g' = a := Classical.byContradiction fun e => h1 g' e hg'
    rw [e, e']
  have h0 : Steps (fun s => NumbersLocked s ∧ Recent s) (State.init 15 blank) (State.init 15 blank : State P X) :=
    .refl _ ⟨fun _ _ h => h.elim, fun _ _ _ => Nat.zero_le _⟩
  have o0 : Only 0 (State.init 15 blank : State P X).pc := fun _ _ => id
  have o1 := o0.goes (.start)
  have h1 := next 0 h0 (.begin (g := 0) rfl) o1 (by show 0 ≤ 15; omega)
  have o2 := o1.goes (.checked)
  have h2 := next 0 h1 (.check (g := 0) rfl (by show 0 < 15; omega)) o2 (by show 0 ≤ 15; omega)
  have o3 := o2.goes (.took 0)
  have h3 := next 0 h2 (.take (g := 0) rfl) o3 (by show 0 ≤ 15; omega)
  have o4 := o3.goes (.adding 0 0)
  have h4 := next 0 h3 (.add (g := 0) rfl) o4 (by show 0 ≤ 15; omega)
  have o5 := o4.goes (.numbered 0 0)
  have h5 := next 0 h4 (.store (g := 0) rfl) o5 (by show 1 ≤ 15; omega)
  have o6 := o5.goes (.registered 0 0)
  have h6 := next 0 h5 (.register (g := 0) rfl) o6 (by show 1 ≤ 15; omega)
  have o7 := o6.goes (.loop 0)
  have h7 := next 0 h6 (.write (g := 0) rfl) o7 (by show 1 ≤ 15; omega)
  replace o7 := o7.pass 1 id
  have o8 := o7.goes (.start)
  have h8 := next 1 h7 (.begin (g := 1) rfl) o8 (by show 1 ≤ 15; omega)
  have o9 := o8.goes (.checked)
  have h9 := next 1 h8 (.check (g := 1) rfl (by show 1 < 15; omega)) o9 (by show 1 ≤ 15; omega)
  have o10 := o9.goes (.took 1)
  have h10 := next 1 h9 (.take (g := 1) rfl) o10 (by show 1 ≤ 15; omega)
  have o11 := o10.goes (.adding 1 1)
  have h11 := next 1 h10 (.add (g := 1) rfl) o11 (by show 1 ≤ 15; omega)
  have o12 := o11.goes (.numbered 1 1)
  have h12 := next 1 h11 (.store (g := 1) rfl) o12 (by show 2 ≤ 15; omega)
  have o13 := o12.goes (.registered 1 1)
  have h13 := next 1 h12 (.register (g := 1) rfl) o13 (by show 2 ≤ 15; omega)
  have o14 := o13.goes (.loop 1)
  have h14 := next 1 h13 (.write (g := 1) rfl) o14 (by show 2 ≤ 15; omega)
  have o15 := o14.others 0 (.entered 0) id
  have h15 := next 1 h14 (.enter (g := 0) rfl rfl) o15 (by show 2 ≤ 15; omega)
  have o16 := o15.others 0 (.polling 0) id
  have h16 := next 1 h15 (.poll (g := 0) rfl) o16 (by show 2 ≤ 15; omega)
  have o17 := o16.goes (.entered 1)
  have h17 := next 1 h16 (.enter (g := 1) rfl rfl) o17 (by show 2 ≤ 15; omega)
  have o18 := o17.goes (.polling 1)
  have h18 := next 1 h17 (.poll (g := 1) rfl) o18 (by show 2 ≤ 15; omega)
  have o19 := o18
  have h19 := next 1 h18 (.answer (i := 1) (o := .data q) rfl) o19 (by show 2 ≤ 15; omega)
  have o20 := o19.others 0 (.reading 0) id
  have h20 := next 1 h19 (.readable (g := 0) rfl (by intro h; cases h)) o20 (by show 2 ≤ 15; omega)
  have o21 := o20.others 0 (.got 0 (.data q) 1 1) id
  have h21 := next 1 h20 (.read (g := 0) (i := 0) rfl rfl) o21 (by show 2 ≤ 15; omega)
  have o22 := o21.others 0 (.decoded 0 (.data q) 1 1) id
  have h22 := next 1 h21 (.decode (g := 0) rfl rfl) o22 (by show 2 ≤ 15; omega)
  have o23 := o22.others 0 (.popped 0 1 (.data q)) id
  have h23 := next 1 h22 (.pop (g := 0) rfl rfl) o23 (by show 2 ≤ 15; omega)
  have o24 := o23.others 0 (.loop 0) id
  have h24 := next 1 h23 (.callback (g := 0) rfl) o24 (by show 2 ≤ 15; omega)
  have o25 := o24
  have h25 := next 1 h24 (.answer (i := 0) (o := .data p) rfl) o25 (by show 2 ≤ 15; omega)
  have o26 := o25.others 0 (.entered 0) id
  have h26 := next 1 h25 (.enter (g := 0) rfl rfl) o26 (by show 2 ≤ 15; omega)
  have o27 := o26.others 0 (.polling 0) id
  have h27 := next 1 h26 (.poll (g := 0) rfl) o27 (by show 2 ≤ 15; omega)
  have o28 := o27.others 0 (.reading 0) id
  have h28 := next 1 h27 (.readable (g := 0) rfl (by intro h; cases h)) o28 (by show 2 ≤ 15; omega)
  have o29 := o28.others 0 (.got 0 (.data p) 0 0) id
  have h29 := next 1 h28 (.read (g := 0) (i := 0) rfl rfl) o29 (by show 2 ≤ 15; omega)
  have o30 := o29.others 0 (.decoded 0 (.data p) 0 0) id
  have h30 := next 1 h29 (.decode (g := 0) rfl rfl) o30 (by show 2 ≤ 15; omega)
  have o31 := o30.others 0 (.popped 0 0 (.data p)) id
  have h31 := next 1 h30 (.pop (g := 0) rfl rfl) o31 (by show 2 ≤ 15; omega)
  have o32 := o31.others 0 (.loop 0) id
  have h32 := next 1 h31 (.callback (g := 0) rfl) o32 (by show 2 ≤ 15; omega)
  have o33 := o32.others 0 (.idle) id
  have h33 := next 1 h32 (.finish (g := 0) rfl rfl) o33 (by show 2 ≤ 15; omega)
  have o34 := o33.goes (.idle)
  have h34 := next 1 h33 (.timeout (g := 1) rfl rfl) o34 (by show 2 ≤ 15; omega)
  exact ⟨_, h34, numbered_distinct h34, List.mem_cons_of_mem _ List.mem_cons_self, List.mem_cons_self, List.mem_cons_self⟩

/-! ## The hypotheses are met -/

theorem locked_of {s : State P X} (h : ∀ g, g ≠ 0 → s.pc g = .idle) : Locked s := by
  intro g g' hg hg'
  by_cases e : g = 0
  · by_cases e' : g' = 0
    · rw [e, e']
    · exact absurd (h g' e') hg'
  · exact absurd (h g e) hg

/-- A whole call under the lock. -/
example (blank : Nat → P) (p : P) : ∃ s : State P X, Steps (fun s => Locked s ∧ Patient s) (State.init 15 blank) s ∧
    s.log = [(0, some 0, .returned (some p))] := by
  have next : ∀ {s s' : State P X}, Steps (fun s => Locked s ∧ Patient s) (State.init 15 blank) s → Step s s' →
      (∀ g, g ≠ 0 → s'.pc g = .idle) → (s'.log = [] ∨ s'.log = [(0, some 0, .returned (some p))]) →
      Steps (fun s => Locked s ∧ Patient s) (State.init 15 blank) s' := by
    intro s s' h hs h1 h2
    refine .step h hs ⟨locked_of h1, fun g t hm => ?_⟩
    rcases h2 with h2 | h2 <;> rw [h2] at hm
    · cases hm
    · simp at hm
  have h0 : Steps (fun s => Locked s ∧ Patient s) (State.init 15 blank) (State.init 15 blank : State P X) :=
    .refl _ ⟨locked_of fun _ _ => rfl, fun g t hm => by cases hm⟩
  have idle : ∀ (s : State P X) (c : Pc P X), (∀ g, g ≠ 0 → s.pc g = .idle) → ∀ g, g ≠ 0 → (s.goes 0 c).pc g = .idle := by
    intro s c h g hg; simp [State.goes, hg, h g hg]
  have i0 : ∀ g, g ≠ 0 → (State.init 15 blank : State P X).pc g = .idle := fun _ _ => rfl
  have h1 := next h0 (.begin (g := 0) rfl) (idle _ _ i0) (.inl rfl)
  have i1 := idle _ .start i0
  have h2 := next h1 (.check (g := 0) rfl (by show 0 < 15; decide)) (idle _ _ i1) (.inl rfl)
  have h3 := next h2 (.take (g := 0) rfl) (idle _ _ (idle _ _ i1)) (.inl rfl)
  have h4 := next h3 (.add (g := 0) rfl) (idle _ _ (idle _ _ (idle _ _ i1))) (.inl rfl)
  have h5 := next h4 (.store (g := 0) rfl) (idle _ _ (idle _ _ (idle _ _ (idle _ _ i1)))) (.inl rfl)
  have i5 := idle _ (.numbered 0 0) (idle _ (.adding 0 0) (idle _ (.took 0) (idle _ .checked i1)))
  have h6 := next h5 (.register (g := 0) rfl) (idle _ _ i5) (.inl rfl)
  have h7 := next h6 (.write (g := 0) rfl) (idle _ _ (idle _ _ i5)) (.inl rfl)
  have i7 := idle _ (.loop 0) (idle _ (.registered 0 0) i5)
  have h8 := next h7 (.enter (g := 0) rfl rfl) (idle _ _ i7) (.inl rfl)
  have h9 := next h8 (.poll (g := 0) rfl) (idle _ _ (idle _ _ i7)) (.inl rfl)
  have i9 := idle _ (.polling 0) (idle _ (.entered 0) i7)
  have h10 := next h9 (.answer (i := 0) (o := .data p) rfl) i9 (.inl rfl)
  have h11 := next h10 (.readable (g := 0) rfl (by simp [State.goes])) (idle _ _ i9) (.inl rfl)
  have h12 := next h11 (.read (g := 0) (i := 0) rfl rfl) (idle _ _ (idle _ _ i9)) (.inl rfl)
  have i12 := idle _ (.got 0 (.data p) 0 0) (idle _ (.reading 0) i9)
  have h13 := next h12 (.decode (g := 0) rfl rfl) (idle _ _ i12) (.inl rfl)
  have h14 := next h13 (.pop (g := 0) rfl rfl) (idle _ _ (idle _ _ i12)) (.inl rfl)
  have i14 := idle _ (.popped 0 0 (.data p)) (idle _ (.decoded 0 (.data p) 0 0) i12)
  have h15 := next h14 (.callback (g := 0) rfl) (idle _ _ i14) (.inl rfl)
  have h16 := next h15 (.finish (g := 0) rfl rfl) (idle _ _ (idle _ _ i14)) (.inr rfl)
  exact ⟨_, h16, rfl⟩

/-- A call under the lock whose write fails, and the next one is made with an empty table. -/
example (blank : Nat → P) : ∃ s : State P X, Steps (fun s => Locked s ∧ Patient s) (State.init 15 blank) s ∧
    s.log = [(0, none, .raised .ioError)] ∧ s.ex.pending = [] ∧ s.pc 0 = .start := by
  have next : ∀ {s s' : State P X}, Steps (fun s => Locked s ∧ Patient s) (State.init 15 blank) s → Step s s' →
      (∀ g, g ≠ 0 → s'.pc g = .idle) → (s'.log = [] ∨ s'.log = [(0, none, .raised .ioError)]) →
      Steps (fun s => Locked s ∧ Patient s) (State.init 15 blank) s' := by
    intro s s' h hs h1 h2
    refine .step h hs ⟨locked_of h1, fun g t hm => ?_⟩
    rcases h2 with h2 | h2 <;> rw [h2] at hm
    · cases hm
    · simp at hm
  have h0 : Steps (fun s => Locked s ∧ Patient s) (State.init 15 blank) (State.init 15 blank : State P X) :=
    .refl _ ⟨locked_of fun _ _ => rfl, fun g t hm => by cases hm⟩
  have idle : ∀ (s : State P X) (c : Pc P X), (∀ g, g ≠ 0 → s.pc g = .idle) → ∀ g, g ≠ 0 → (s.goes 0 c).pc g = .idle := by
    intro s c h g hg; simp [State.goes, hg, h g hg]
  have i0 : ∀ g, g ≠ 0 → (State.init 15 blank : State P X).pc g = .idle := fun _ _ => rfl
  have h1 := next h0 (.begin (g := 0) rfl) (idle _ _ i0) (.inl rfl)
  have i1 := idle _ .start i0
  have h2 := next h1 (.check (g := 0) rfl (by show 0 < 15; decide)) (idle _ _ i1) (.inl rfl)
  have h3 := next h2 (.take (g := 0) rfl) (idle _ _ (idle _ _ i1)) (.inl rfl)
  have h4 := next h3 (.add (g := 0) rfl) (idle _ _ (idle _ _ (idle _ _ i1))) (.inl rfl)
  have h5 := next h4 (.store (g := 0) rfl) (idle _ _ (idle _ _ (idle _ _ (idle _ _ i1)))) (.inl rfl)
  have i5 := idle _ (.numbered 0 0) (idle _ (.adding 0 0) (idle _ (.took 0) (idle _ .checked i1)))
  have h6 := next h5 (.register (g := 0) rfl) (idle _ _ i5) (.inl rfl)
  have i6 := idle _ (.registered 0 0) i5
  have h7 := next h6 (.fail (g := 0) rfl) (idle _ _ i6) (.inl rfl)
  have i7 := idle _ (.failing 0 0) i6
  have h8 := next h7 (.unregister (g := 0) rfl rfl) (idle _ _ i7) (.inr rfl)
  have i8 := idle _ .idle i7
  have h9 := next h8 (.begin (g := 0) rfl) (idle _ _ i8) (.inr rfl)
  exact ⟨_, h9, rfl, rfl, rfl⟩

/-- Two calls overlap and each thread reads the other's response; both get the answers to their own commands. The history keeps the conditions of
`C86_numbers` and `C86_partial`. -/
example (blank : Nat → P) (p q : P) : ∃ s : State P X, Steps (fun s => NumbersLocked s ∧ Recent s) (State.init 15 blank) s ∧
    Steps Distinct (State.init 15 blank) s ∧ s.log = [(0, some 0, .returned (some p)), (1, some 1, .returned (some q))] := by
  have next : ∀ {s s' : State P X} (a : Nat), Steps (fun s => NumbersLocked s ∧ Recent s) (State.init 15 blank) s → Step s s' →
      Only a s'.pc → s'.next ≤ s'.ex.maxq → Steps (fun s => NumbersLocked s ∧ Recent s) (State.init 15 blank) s' := by
    intro s s' a h hs h1 h2
    refine .step h hs ⟨fun g g' hg hg' => ?_, fun _ _ _ => Nat.le_trans h2 (Nat.le_add_left ..)⟩
    have e : g = a := Classical.byContradiction fun e => h1 g e hg
    have e' : g' = a := Classical.byContradiction fun e => h1 g' e hg'
    rw [e, e']
  have h0 : Steps (fun s => NumbersLocked s ∧ Recent s) (State.init 15 blank) (State.init 15 blank : State P X) :=
    .refl _ ⟨fun _ _ h => h.elim, fun _ _ _ => Nat.zero_le _⟩
  have o0 : Only 0 (State.init 15 blank : State P X).pc := fun _ _ => id
  have o1 := o0.goes (.start)
  have h1 := next 0 h0 (.begin (g := 0) rfl) o1 (by show 0 ≤ 15; decide)
  have o2 := o1.goes (.checked)
  have h2 := next 0 h1 (.check (g := 0) rfl (by show 0 < 15; decide)) o2 (by show 0 ≤ 15; decide)
  have o3 := o2.goes (.took 0)
  have h3 := next 0 h2 (.take (g := 0) rfl) o3 (by show 0 ≤ 15; decide)
  have o4 := o3.goes (.adding 0 0)
  have h4 := next 0 h3 (.add (g := 0) rfl) o4 (by show 0 ≤ 15; decide)
  have o5 := o4.goes (.numbered 0 0)
  have h5 := next 0 h4 (.store (g := 0) rfl) o5 (by show 1 ≤ 15; decide)
  have o6 := o5.goes (.registered 0 0)
  have h6 := next 0 h5 (.register (g := 0) rfl) o6 (by show 1 ≤ 15; decide)
  have o7 := o6.goes (.loop 0)
  have h7 := next 0 h6 (.write (g := 0) rfl) o7 (by show 1 ≤ 15; decide)
  replace o7 := o7.pass 1 id
  have o8 := o7.goes (.start)
  have h8 := next 1 h7 (.begin (g := 1) rfl) o8 (by show 1 ≤ 15; decide)
  have o9 := o8.goes (.checked)
  have h9 := next 1 h8 (.check (g := 1) rfl (by show 1 < 15; decide)) o9 (by show 1 ≤ 15; decide)
  have o10 := o9.goes (.took 1)
  have h10 := next 1 h9 (.take (g := 1) rfl) o10 (by show 1 ≤ 15; decide)
  have o11 := o10.goes (.adding 1 1)
  have h11 := next 1 h10 (.add (g := 1) rfl) o11 (by show 1 ≤ 15; decide)
  have o12 := o11.goes (.numbered 1 1)
  have h12 := next 1 h11 (.store (g := 1) rfl) o12 (by show 2 ≤ 15; decide)
  have o13 := o12.goes (.registered 1 1)
  have h13 := next 1 h12 (.register (g := 1) rfl) o13 (by show 2 ≤ 15; decide)
  have o14 := o13.goes (.loop 1)
  have h14 := next 1 h13 (.write (g := 1) rfl) o14 (by show 2 ≤ 15; decide)
  have o15 := o14
  have h15 := next 1 h14 (.answer (i := 1) (o := .data q) rfl) o15 (by show 2 ≤ 15; decide)
  have o16 := o15.others 0 (.entered 0) id
  have h16 := next 1 h15 (.enter (g := 0) rfl rfl) o16 (by show 2 ≤ 15; decide)
  have o17 := o16.others 0 (.polling 0) id
  have h17 := next 1 h16 (.poll (g := 0) rfl) o17 (by show 2 ≤ 15; decide)
  have o18 := o17.goes (.entered 1)
  have h18 := next 1 h17 (.enter (g := 1) rfl rfl) o18 (by show 2 ≤ 15; decide)
  have o19 := o18.goes (.polling 1)
  have h19 := next 1 h18 (.poll (g := 1) rfl) o19 (by show 2 ≤ 15; decide)
  have o20 := o19.others 0 (.reading 0) id
  have h20 := next 1 h19 (.readable (g := 0) rfl (by intro h; cases h)) o20 (by show 2 ≤ 15; decide)
  have o21 := o20.others 0 (.got 0 (.data q) 1 1) id
  have h21 := next 1 h20 (.read (g := 0) (i := 0) rfl rfl) o21 (by show 2 ≤ 15; decide)
  have o22 := o21
  have h22 := next 1 h21 (.answer (i := 0) (o := .data p) rfl) o22 (by show 2 ≤ 15; decide)
  have o23 := o22.goes (.reading 1)
  have h23 := next 1 h22 (.readable (g := 1) rfl (by intro h; cases h)) o23 (by show 2 ≤ 15; decide)
  have o24 := o23.goes (.got 1 (.data p) 0 0)
  have h24 := next 1 h23 (.read (g := 1) (i := 0) rfl rfl) o24 (by show 2 ≤ 15; decide)
  have o25 := o24.goes (.decoded 1 (.data p) 0 0)
  have h25 := next 1 h24 (.decode (g := 1) rfl rfl) o25 (by show 2 ≤ 15; decide)
  have o26 := o25.others 0 (.decoded 0 (.data q) 1 1) id
  have h26 := next 1 h25 (.decode (g := 0) rfl rfl) o26 (by show 2 ≤ 15; decide)
  have o27 := o26.others 0 (.popped 0 1 (.data q)) id
  have h27 := next 1 h26 (.pop (g := 0) rfl rfl) o27 (by show 2 ≤ 15; decide)
  have o28 := o27.goes (.popped 1 0 (.data p))
  have h28 := next 1 h27 (.pop (g := 1) rfl rfl) o28 (by show 2 ≤ 15; decide)
  have o29 := o28.others 0 (.loop 0) id
  have h29 := next 1 h28 (.callback (g := 0) rfl) o29 (by show 2 ≤ 15; decide)
  have o30 := o29.goes (.loop 1)
  have h30 := next 1 h29 (.callback (g := 1) rfl) o30 (by show 2 ≤ 15; decide)
  have o31 := o30.others 0 (.idle) id
  have h31 := next 1 h30 (.finish (g := 0) rfl rfl) o31 (by show 2 ≤ 15; decide)
  have o32 := o31.goes (.idle)
  have h32 := next 1 h31 (.finish (g := 1) rfl rfl) o32 (by show 2 ≤ 15; decide)
  exact ⟨_, h32, numbered_distinct h32, rfl⟩

end Verif.Threads
