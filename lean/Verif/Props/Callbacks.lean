import Verif.Callbacks
import Verif.Props.Executer
/-!
# C71: callbacks that use the executer
-/

set_option linter.unusedSimpArgs false

namespace Verif.Callbacks

open Verif.Executer

variable {K P X U : Type}

/-! ## The executer does what it did -/

/-- The callback invocations in a log. -/
def firedIn : List (Ev P X) → List (Nat × Args P X)
  | [] => []
  | .fired t a :: r => (t, a) :: firedIn r
  | _ :: r => firedIn r

theorem firedIn_append (l m : List (Ev P X)) : firedIn (l ++ m) = firedIn l ++ firedIn m := by
  induction l with
  | nil => rfl
  | cons e l ih => cases e <;> simp [firedIn, ih]

theorem mem_firedIn {l : List (Ev P X)} {t : Nat} {a : Args P X} : (t, a) ∈ firedIn l ↔ Ev.fired t a ∈ l := by
  induction l with
  | nil => simp [firedIn]
  | cons e l ih => cases e <;> simp [firedIn, ih]

theorem firedCount_eq (l : List (Ev P X)) (t : Nat) : firedCount t l = ((firedIn l).map (·.1)).count t := by
  induction l with
  | nil => rfl
  | cons e l ih => cases e <;> simp [firedCount, firedIn, ih, List.count_cons]; omega

theorem acceptedCount_pos {l : List (Ev P X)} {t : Nat} : 0 < acceptedCount t l ↔ Ev.accepted t ∈ l := by
  induction l with
  | nil => simp [acceptedCount]
  | cons e l ih =>
    cases e with
    | accepted t' =>
      by_cases h : t' = t
      · simp [acceptedCount, h]; omega
      · have h' : ¬ t = t' := fun e => h e.symm
        simp [acceptedCount, h, h', ih]
    | _ => simp [acceptedCount, ih]

/-- Running `_process_pending_response` adds to the log. -/
theorem recv_log (s : Sys P X) (op : Op P X) : ∃ evs, (s.recv op).log = s.log ++ evs := ⟨_, rfl⟩

theorem step_log (s : Sys P X) (op : Op P X) : ∃ evs, (s.step op).log = s.log ++ evs := by
  cases op <;> exact ⟨_, rfl⟩

theorem step_recv (s : Sys P X) {op : Op P X} (h : ∀ p o, op ≠ .send p o) : s.step op = s.recv op := by
  cases op with
  | send p o => exact absurd rfl (h p o)
  | _ => rfl

theorem firedIn_recv (s : Sys P X) (op : Op P X) :
    firedIn (s.recv op).log = firedIn s.log ++ (process (fun _ => devRecv op) s.ex s.dev).fired.toList := by
  simp only [Sys.recv, firedIn_append]
  congr 1
  generalize (process (fun _ => devRecv op) s.ex s.dev).out = r
  generalize (process (fun _ => devRecv op) s.ex s.dev).fired = f
  cases r <;> cases f <;> rfl

/-- An error of `_process_pending_response` means that no callback was called. -/
theorem process_error {Q K' D E ω : Type} {recv : St Q K' → ω → Py (Outcome D E × Nat) × ω} {s : St Q K'} {w : ω} {e : PyErr}
    (h : (process recv s w).out = .error e) : (process recv s w).fired = none := by
  revert h
  unfold process
  split
  · simp
  · split
    · simp
    · dsimp only
      split <;> simp

structure Inv (maxq : Nat) (ops : List (Op P X)) (s : S K P X U) : Prop where
  sys : s.sys = Sys.run maxq ops
  calls : s.calls = firedIn s.sys.log
  frames : ∀ t go, Frame.calling t go ∈ s.stack → Ev.accepted t ∈ s.sys.log
  shape : ∃ f r, s.stack = f :: r ∧ ∀ g ∈ r, g.isLoop

theorem inv_init (maxq : Nat) (main : Prog K P X U) : Inv maxq [] (S.init (K := K) maxq main) :=
  ⟨rfl, rfl, by intro t go h; simp [S.init] at h, _, [], rfl, by simp⟩

theorem inv_stack {maxq : Nat} {ops : List (Op P X)} {s : S K P X U} (h : Inv maxq ops s) {st : List (Frame K P X U)}
    (h1 : ∀ t go, Frame.calling t go ∈ st → Frame.calling t go ∈ s.stack) (h2 : ∃ f r, st = f :: r ∧ ∀ g ∈ r, g.isLoop) :
    Inv maxq (ops ++ []) { s with stack := st } := by
  rw [List.append_nil]
  exact ⟨h.sys, h.calls, fun t go hm => h.frames t go (h1 t go hm), h2⟩

theorem inv_step {code : K → Args P X → Prog K P X U} {maxq : Nat} {ops : List (Op P X)} {s s' : S K P X U} {l : Option (Op P X)}
    (h : Inv maxq ops s) (hs : Step code s l s') : Inv maxq (ops ++ l.toList) s' := by
  obtain ⟨f0, r0, hst, hloop⟩ := h.shape
  have run_append : ∀ op, (Sys.run maxq (ops ++ [op]) : Sys P X) = (Sys.run maxq ops).step op := by
    intro op; simp [Sys.run, Sys.runFrom]
  have sendFired : ∀ p o, firedIn (s.sys.step (.send p o)).log = firedIn s.sys.log := by
    intro p o
    simp only [Sys.step, firedIn_append]
    split <;> simp [firedIn]
  cases hs with
  | ask n h1 =>
    rw [h1] at hst; cases hst
    exact inv_stack h (by intro t go hm; rw [h1]; simpa using hm) ⟨_, _, rfl, hloop⟩
  | wait h1 =>
    rw [h1] at hst; cases hst
    exact inv_stack h (by intro t go hm; rw [h1]; simpa using hm) ⟨_, _, rfl, hloop⟩
  | waited h1 h2 =>
    rw [h1] at hst; cases hst
    exact inv_stack h (by intro t go hm; rw [h1]; simpa using hm) ⟨_, _, rfl, hloop⟩
  | called h1 h2 =>
    rw [h1] at hst; cases hst
    exact inv_stack h (by intro t go hm; rw [h1]; simp at hm; simp [hm]) ⟨_, _, rfl, hloop⟩
  | @returns f r h1 h2 =>
    rw [h1] at hst; cases hst
    exact inv_stack h (by intro t go hm; rw [h1]; exact List.mem_cons_of_mem _ hm) ⟨_, _, rfl, fun g hg => hloop g (List.mem_cons_of_mem _ hg)⟩
  | @raises e f r h1 h2 =>
    rw [h1] at hst; cases hst
    exact inv_stack h (by intro t go hm; rw [h1]; simp at hm; simp [hm]) ⟨_, _, rfl, fun g hg => hloop g (List.mem_cons_of_mem _ hg)⟩
  | @send cb go r p o h1 =>
    rw [h1] at hst; cases hst
    refine ⟨by simp only [Option.toList]; rw [run_append, ← h.sys], by rw [sendFired]; exact h.calls, ?_, _, _, rfl, hloop⟩
    intro t go' hm
    obtain ⟨evs, he⟩ := step_log s.sys (.send p o)
    rw [he]
    refine List.mem_append_left _ (h.frames t go' ?_)
    rw [h1]; simpa using hm
  | @call go r p o h1 =>
    rw [h1] at hst; cases hst
    refine ⟨by simp only [Option.toList]; rw [run_append, ← h.sys], by rw [sendFired]; exact h.calls, ?_, _, _, rfl, hloop⟩
    intro t go' hm
    rcases List.mem_cons.1 hm with hm | hm
    · have hout : sendOut s.sys p o = .ok () ∧ t = s.sys.next := by
        split at hm
        · rename_i e; cases hm; exact ⟨e, rfl⟩
        · cases hm
      obtain ⟨h2, rfl⟩ := hout
      simp only [sendOut] at h2
      simp only [Sys.step, h2]
      simp
    · obtain ⟨evs, he⟩ := step_log s.sys (.send p o)
      rw [he]
      exact List.mem_append_left _ (h.frames t go' (by rw [h1]; exact List.mem_cons_of_mem _ hm))
  | @receive f r op h1 h2 h3 =>
    rw [h1] at hst; cases hst
    have hf : f0.isLoop := by cases f0 <;> first | trivial | exact h2
    obtain ⟨evs, he⟩ := recv_log s.sys op
    have old : ∀ t, Ev.accepted t ∈ s.sys.log → Ev.accepted t ∈ (s.sys.recv op).log := fun t hm => by
      rw [he]; exact List.mem_append_left _ hm
    have hrun : s.sys.recv op = Sys.run maxq (ops ++ [op]) := by rw [run_append, ← h.sys, step_recv _ h3]
    have hfired := firedIn_recv s.sys op
    simp only [Option.toList]
    unfold arrive
    split
    · rename_i e heq
      refine ⟨hrun, ?_, ?_, _, _, rfl, hloop⟩
      · simp only
        rw [hfired, process_error heq, h.calls]; simp
      · intro t go hm
        exact old t (h.frames t go (by rw [h1]; simp at hm; simp [hm]))
    · rename_i hnone
      refine ⟨hrun, ?_, ?_, f0, r0, h1, hloop⟩
      · simp only
        rw [hfired, hnone, h.calls]; simp
      · intro t go hm
        exact old t (h.frames t go hm)
    · rename_i t args _ hsome
      refine ⟨hrun, ?_, ?_, ?_⟩
      · simp only
        rw [hfired, hsome, h.calls]; simp
      · intro t' go hm
        refine old t' (h.frames t' go ?_)
        rw [h1]
        simp only at hm
        split at hm
        · exact hm
        · simpa using hm
        · simp at hm; simp [hm]
      · simp only
        split
        · exact ⟨_, _, rfl, hloop⟩
        · exact ⟨_, _, rfl, fun g hg => (List.mem_cons.1 hg).elim (fun e => e ▸ hf) (hloop g)⟩
        · exact ⟨_, _, rfl, hloop⟩

theorem reach_inv {code : K → Args P X → Prog K P X U} {maxq : Nat} {main : Prog K P X U} {ops : List (Op P X)} {s : S K P X U}
    (h : Reach code maxq main ops s) : Inv maxq ops s := by
  induction h with
  | start => exact inv_init maxq main
  | step _ hs ih => exact inv_step ih hs

section
variable {code : K → Args P X → Prog K P X U} {maxq : Nat} {main : Prog K P X U} {ops : List (Op P X)} {s : S K P X U}

/-- Commands are answered at most once, and accepted ones are answered or at the device. -/
theorem counts (h : Reach code maxq main ops s) (hn : (Sys.init maxq).NoReuse ops) (t : Nat) :
    (s.calls.map (·.1)).count t ≤ 1 ∧
      acceptedCount t s.sys.log = (s.calls.map (·.1)).count t + (if t ∈ s.sys.dev.map Prod.snd then 1 else 0) := by
  have hi := reach_inv h
  obtain ⟨-, h2, h3⟩ := C01_own_response_partial maxq ops hn
  rw [hi.calls, ← firedCount_eq, hi.sys]
  exact ⟨h2 t, h3 t⟩

/-- **C71 (a)**, for callbacks that send, call, wait and raise as they like, nested to any depth, at every moment of any run, also a run that never
ends: a callback is called with what the device answered to its own command and at most once; a command accepted by `send` or `call` has either
been answered to its callback or is still with the device, never both. For runs in which no packet number is reused while in use. -/
theorem C71_partial (h : Reach code maxq main ops s) (hn : (Sys.init maxq).NoReuse ops) :
    (∀ t args, (t, args) ∈ s.calls → ∃ o, args = argsFor t o) ∧ (s.calls.map (·.1)).Nodup ∧
      ∀ t, Ev.accepted t ∈ s.sys.log ↔ (t ∈ s.calls.map (·.1) ∧ t ∉ s.sys.dev.map Prod.snd) ∨ (t ∉ s.calls.map (·.1) ∧ t ∈ s.sys.dev.map Prod.snd) := by
  have hi := reach_inv h
  refine ⟨?_, ?_, ?_⟩
  · intro t args hm
    rw [hi.calls, mem_firedIn, hi.sys] at hm
    exact (C01_own_response_partial maxq ops hn).1 t args hm
  · rw [List.nodup_iff_count]
    exact fun t => (counts h hn t).1
  · intro t
    obtain ⟨h1, h2⟩ := counts h hn t
    have hle : acceptedCount t s.sys.log ≤ 1 := by
      have hl : s.sys.log = (Ideal.run maxq ops).log := by rw [hi.sys]; exact C01_partial maxq ops hn
      rw [hl]; exact (idealInv_run maxq ops).le t
    rw [← acceptedCount_pos, h2]
    rw [h2] at hle
    have hc : t ∈ s.calls.map (·.1) ↔ 0 < (s.calls.map (·.1)).count t := List.count_pos_iff.symm
    by_cases hd : t ∈ s.sys.dev.map Prod.snd
    · rw [if_pos hd] at hle ⊢
      simp only [hd, not_true_eq_false, and_false, and_true, false_or, hc]
      omega
    · rw [if_neg hd] at hle ⊢
      simp only [hd, not_false_eq_true, and_false, and_true, or_false, hc]
      omega

/-- **C71 (b)**: `wait` returns when nothing is pending; then every command accepted so far, also by callbacks, has been answered to its
callback. -/
theorem C71_wait (h : Reach code maxq main ops s) (hn : (Sys.init maxq).NoReuse ops) (he : isQueueEmpty s.sys.ex = true) (t : Nat)
    (ht : Ev.accepted t ∈ s.sys.log) : t ∈ s.calls.map (·.1) := by
  have hi := reach_inv h
  have hsim := sim_run ops (sim_init maxq) hn
  have hp : s.sys.ex.pending = s.sys.dev.map entry := by rw [hi.sys]; exact hsim.pend
  have hd : s.sys.dev = [] := by
    have : s.sys.ex.pending.length = 0 := by simpa [isQueueEmpty] using he
    rw [hp, List.length_map] at this
    exact List.eq_nil_of_length_eq_zero this
  rcases ((C71_partial h hn).2.2 t).1 ht with h1 | h1
  · exact h1.1
  · rw [hd] at h1; simp at h1

/-- **C71 (c)**: what `call` returns or raises at its end is what the device answered to this very command, whichever loop read it. -/
theorem C71_call (h : Reach code maxq main ops s) (hn : (Sys.init maxq).NoReuse ops) {t : Nat} {a : Args P X} (ha : s.calls.lookup t = some a) :
    (∃ d, answer (U := U) a = .ok (some (some t, d))) ∨ ∃ x, answer (U := U) a = .error (.dev (some t, x)) := by
  have hm : (t, a) ∈ s.calls := by
    have : ∀ l : List (Nat × Args P X), l.lookup t = some a → (t, a) ∈ l := by
      intro l
      induction l with
      | nil => simp
      | cons p l ih =>
        obtain ⟨k, v⟩ := p
        by_cases e : t = k
        · subst e; simp [List.lookup_cons]; intro h; simp [h]
        · have : (t == k) = false := by simpa using e
          simp only [List.lookup_cons, this]
          exact fun h => List.mem_cons_of_mem _ (ih h)
    exact this _ ha
  obtain ⟨o, rfl⟩ := (C71_partial h hn).1 t a hm
  cases o with
  | data d => exact .inl ⟨d, rfl⟩
  | exc x => exact .inr ⟨x, rfl⟩

/-- The program has come to an end. -/
def Ended (s : S K P X U) : Prop := s.stack = [.run .done] ∨ ∃ e, s.stack = [.run (.raise e)]

/-- **C71 (d)**: nobody waits in vain. A program that has not ended can go on; and where a `wait` or `call`, however deeply nested, has to read a response,
the device holds a command to answer - for a `call`, its own. -/
theorem C71_no_hang (h : Reach code maxq main ops s) (hn : (Sys.init maxq).NoReuse ops) :
    (Ended s ∨ ∃ l s', Step code s l s') ∧
    (∀ f r, s.stack = f :: r → f.Polls s → s.sys.dev ≠ []) ∧
    (∀ t go, Frame.calling t go ∈ s.stack → s.calls.lookup t = none → t ∈ s.sys.dev.map Prod.snd) := by
  have hi := reach_inv h
  have hsim := sim_run ops (sim_init maxq) hn
  have hp : s.sys.ex.pending = s.sys.dev.map entry := by rw [hi.sys]; exact hsim.pend
  have hcall : ∀ t go, Frame.calling t go ∈ s.stack → s.calls.lookup t = none → t ∈ s.sys.dev.map Prod.snd := by
    intro t go hm hl
    have hnot : t ∉ s.calls.map (·.1) := by
      have : ∀ l : List (Nat × Args P X), l.lookup t = none → t ∉ l.map (·.1) := by
        intro l
        induction l with
        | nil => simp
        | cons p l ih =>
          obtain ⟨k, v⟩ := p
          by_cases e : t = k
          · subst e; simp [List.lookup_cons]
          · have hb : (t == k) = false := by simpa using e
            simp only [List.lookup_cons, hb]
            intro h
            simp only [List.map_cons, List.mem_cons, not_or]
            exact ⟨e, ih h⟩
      exact this _ hl
    rcases ((C71_partial h hn).2.2 t).1 (hi.frames t go hm) with h1 | h1
    · exact absurd h1.1 hnot
    · exact h1.2
  have hpoll : ∀ f r, s.stack = f :: r → f.Polls s → s.sys.dev ≠ [] := by
    intro f r hst hf hd
    cases f with
    | run p => exact hf
    | waiting go => simp [Frame.Polls, isQueueEmpty, hp, hd] at hf
    | calling t go =>
      have := hcall t go (by rw [hst]; simp) hf
      rw [hd] at this; simp at this
  refine ⟨?_, hpoll, hcall⟩
  obtain ⟨f, r, hst, hloop⟩ := hi.shape
  cases f with
  | run p =>
    cases p with
    | done =>
      cases r with
      | nil => exact .inl (.inl hst)
      | cons g r => exact .inr ⟨_, _, .returns hst (hloop g (by simp))⟩
    | raise e =>
      cases r with
      | nil => exact .inl (.inr ⟨e, hst⟩)
      | cons g r => exact .inr ⟨_, _, .raises hst (hloop g (by simp))⟩
    | ask go => exact .inr ⟨_, _, .ask 0 hst⟩
    | send cb go => exact .inr ⟨_, _, .send true true hst⟩
    | wait go => exact .inr ⟨_, _, .wait hst⟩
    | call go => exact .inr ⟨_, _, .call true true hst⟩
  | waiting go =>
    cases he : isQueueEmpty s.sys.ex with
    | true => exact .inr ⟨_, _, .waited hst he⟩
    | false => exact .inr ⟨_, _, .receive (.recvError .ioError) hst he (by simp)⟩
  | calling t go =>
    cases hl : s.calls.lookup t with
    | some a => exact .inr ⟨_, _, .called hst hl⟩
    | none => exact .inr ⟨_, _, .receive (.recvError .ioError) hst hl (by simp)⟩

/-- **C71 (e)**: an exception of a callback goes to the program whose `wait` or `call` was reading, and changes nothing else: what was pending stays
pending, no answer is lost. -/
theorem C71_raises {s' : S K P X U} {l : Option (Op P X)} {e : Err X U} {f : Frame K P X U} {r : List (Frame K P X U)}
    (hst : s.stack = .run (.raise e) :: f :: r) (hs : Step code s l s') :
    s'.sys = s.sys ∧ s'.calls = s.calls ∧ s'.stack = .run (f.fail e) :: r := by
  cases hs with
  | raises h => rw [h] at hst; cases hst; exact ⟨rfl, rfl, rfl⟩
  | receive op h h2 => rw [h] at hst; cases hst; exact h2.elim
  | ask n h => rw [h] at hst; cases hst
  | send p o h => rw [h] at hst; cases hst
  | wait h => rw [h] at hst; cases hst
  | waited h => rw [h] at hst; cases hst
  | call p o h => rw [h] at hst; cases hst
  | called h => rw [h] at hst; cases hst
  | returns h => rw [h] at hst; cases hst

/-- Every `send` and `call` was given a ticket and a callee. -/
theorem reach_callees (h : Reach code maxq main ops s) : s.callees.length = s.sys.next := by
  induction h with
  | start => rfl
  | @step _ s l s' _ hs ih =>
    have hrecv : ∀ op, (s.sys.recv op).next = s.sys.next := fun _ => rfl
    cases hs with
    | send p o h1 => simp [Sys.step, ih]
    | call p o h1 => simp [Sys.step, ih]
    | receive op h1 h2 h3 =>
      unfold arrive
      split <;> exact ih
    | _ => exact ih

/-- How a command came to be sent: by `call`, with a callback, or with the default `callback=None`. -/
def calleeOf : Option K → Callee K
  | some k => .user k
  | none => .missing

/-- **C71 (f)**: `send` and `call` tell the truth. A `send` returns normally if and only if the command was accepted, the callback given is the one
registered for it, and the program goes on at once; a `call` whose command was refused raises, one whose command was accepted starts waiting for this
command. Callees of earlier commands stay. -/
theorem C71_sends (h : Reach code maxq main ops s) {s' : S K P X U} {l : Option (Op P X)} (hs : Step code s l s') {r : List (Frame K P X U)} :
    (∀ cb go, s.stack = .run (.send cb go) :: r → s'.callees = s.callees ++ [calleeOf cb] ∧ s'.callees[s.sys.next]? = some (calleeOf cb) ∧
      ((s'.sys.log = s.sys.log ++ [.accepted s.sys.next] ∧ s'.stack = .run (go (.ok ())) :: r) ∨
       ∃ e, s'.sys.log = s.sys.log ++ [.refused s.sys.next e] ∧ s'.stack = .run (go (.error (.py e))) :: r)) ∧
    (∀ go, s.stack = .run (.call go) :: r → s'.callees = s.callees ++ [.own] ∧ s'.callees[s.sys.next]? = some .own ∧
      ((s'.sys.log = s.sys.log ++ [.accepted s.sys.next] ∧ s'.stack = .calling s.sys.next go :: r) ∨
       ∃ e, s'.sys.log = s.sys.log ++ [.refused s.sys.next e] ∧ s'.stack = .run (go (.error (.py e))) :: r)) := by
  have hlen := reach_callees h
  constructor
  · intro cb go hst
    cases hs with
    | send p o h1 =>
      rw [h1] at hst; cases hst
      refine ⟨by cases cb <;> rfl, by rw [← hlen]; cases cb <;> simp [calleeOf], ?_⟩
      cases hout : sendOut s.sys p o with
      | ok u =>
        refine .inl ⟨?_, rfl⟩
        simp only [sendOut] at hout
        simp only [Sys.step, hout]
      | error e =>
        refine .inr ⟨e, ?_, rfl⟩
        simp only [sendOut] at hout
        simp only [Sys.step, hout]
    | receive op h1 h2 => rw [h1] at hst; cases hst; exact h2.elim
    | raises h1 => rw [h1] at hst; cases hst
    | ask n h1 => rw [h1] at hst; cases hst
    | wait h1 => rw [h1] at hst; cases hst
    | waited h1 => rw [h1] at hst; cases hst
    | call p o h1 => rw [h1] at hst; cases hst
    | called h1 => rw [h1] at hst; cases hst
    | returns h1 => rw [h1] at hst; cases hst
  · intro go hst
    cases hs with
    | call p o h1 =>
      rw [h1] at hst; cases hst
      refine ⟨rfl, by rw [← hlen]; simp, ?_⟩
      cases hout : sendOut s.sys p o with
      | ok u =>
        refine .inl ⟨?_, rfl⟩
        simp only [sendOut] at hout
        simp only [Sys.step, hout]
      | error e =>
        refine .inr ⟨e, ?_, rfl⟩
        simp only [sendOut] at hout
        simp only [Sys.step, hout]
    | receive op h1 h2 => rw [h1] at hst; cases hst; exact h2.elim
    | raises h1 => rw [h1] at hst; cases hst
    | ask n h1 => rw [h1] at hst; cases hst
    | wait h1 => rw [h1] at hst; cases hst
    | waited h1 => rw [h1] at hst; cases hst
    | send p o h1 => rw [h1] at hst; cases hst
    | called h1 => rw [h1] at hst; cases hst
    | returns h1 => rw [h1] at hst; cases hst

theorem noReuse_split {s0 : Sys P X} {ops m : List (Op P X)} (hn : s0.NoReuse (ops ++ m)) : s0.NoReuse ops ∧ (s0.runFrom ops).NoReuse m := by
  induction ops generalizing s0 with
  | nil => exact ⟨trivial, hn⟩
  | cons o1 ops ih => exact ⟨⟨hn.1, (ih hn.2).1⟩, (ih hn.2).2⟩

theorem noReuse_left {s0 : Sys P X} {ops m : List (Op P X)} (hn : s0.NoReuse (ops ++ m)) : s0.NoReuse ops := (noReuse_split hn).1

theorem accepted_le (h : Reach code maxq main ops s) (hn : (Sys.init maxq).NoReuse ops) (t : Nat) : acceptedCount t s.sys.log ≤ 1 := by
  have hl : s.sys.log = (Ideal.run maxq ops).log := by rw [(reach_inv h).sys]; exact C01_partial maxq ops hn
  rw [hl]; exact (idealInv_run maxq ops).le t

/-- Tickets in the log were given out. -/
theorem accepted_lt (h : Reach code maxq main ops s) : ∀ t, Ev.accepted t ∈ s.sys.log → t < s.sys.next := by
  rw [(reach_inv h).sys]
  clear h
  suffices H : ∀ (ops : List (Op P X)) (s0 : Sys P X), (∀ t, Ev.accepted t ∈ s0.log → t < s0.next) → ∀ t, Ev.accepted t ∈ (s0.runFrom ops).log → t < (s0.runFrom ops).next from
    H ops _ (by simp [Sys.init])
  intro ops
  induction ops with
  | nil => intro s0 h0; exact h0
  | cons op ops ih =>
    intro s0 h0
    refine ih _ ?_
    intro t ht
    have hr : ∀ op, Ev.accepted t ∈ (s0.recv op).log → t < (s0.recv op).next := by
      intro op hm
      simp only [Sys.recv] at hm ⊢
      rcases List.mem_append.1 hm with hm | hm
      · exact h0 t hm
      · rcases List.mem_append.1 hm with hm | hm
        · simp [Option.toList] at hm
        · split at hm <;> simp at hm
    cases op with
    | send p o =>
      simp only [Sys.step] at ht ⊢
      rcases List.mem_append.1 ht with hm | hm
      · have := h0 t hm; omega
      · split at hm <;> simp at hm <;> omega
    | complete i o => exact hr _ ht
    | stray i o => exact hr _ ht
    | recvError e => exact hr _ ht

/-- **C71 (g)**: what reading does to the `wait` or `call` that reads. If the device answers the command with ticket `t`, its callback gets the answer: the
one of a `call` notes it and the loop goes on; a program's runs on top of the loop; without one the loop raises `TypeError`. If nothing can be
delivered, the loop raises and no callback is called. -/
theorem C71_reads (h : Reach code maxq main ops s) {s' : S K P X U} {op : Op P X} (hn : (Sys.init maxq).NoReuse (ops ++ [op])) (hop : ∀ p o, op ≠ .send p o)
    {f : Frame K P X U} {r : List (Frame K P X U)} (hst : s.stack = f :: r) (hs : Step code s (some op) s') :
    (∃ i o pid t, op = .complete i o ∧ s.sys.dev[i]? = some (pid, t) ∧ s'.calls = s.calls ++ [(t, argsFor t o)] ∧ s'.callees = s.callees ∧
      s'.stack = match s.callees[t]? with
        | some .own => f :: r
        | some (.user k) => .run (code k (argsFor t o)) :: f :: r
        | _ => .run (f.fail (.py .typeError)) :: r) ∨
    (∃ e, s'.sys.log = s.sys.log ++ [.raised e] ∧ s'.calls = s.calls ∧ s'.stack = .run (f.fail (.py e)) :: r ∧ (∀ i o, op = .complete i o → s.sys.dev[i]? = none)) := by
  have hi := reach_inv h
  have hsplit := noReuse_split hn
  have hsim := sim_run ops (sim_init (P := P) (X := X) maxq) hsplit.1
  have hsys : s.sys = (Sys.init maxq).runFrom ops := hi.sys
  rw [← hsys] at hsim
  have h1 := hsplit.2.1
  rw [← hsys] at h1
  cases hs with
  | send p o _ => exact absurd rfl (hop p o)
  | call p o _ => exact absurd rfl (hop p o)
  | receive _ h2 h3 _ =>
    rw [h2] at hst; cases hst
    cases op with
    | send p o => exact absurd rfl (hop p o)
    | recvError e =>
      refine .inr ⟨e, ?_, ?_, ?_, by simp⟩ <;> simp [arrive, process, devRecv, Sys.recv]
    | stray pid o =>
      have hg : Dict.get s.sys.ex.pending pid = none := by
        rw [Dict.get_none_iff, hsim.pend, keys_entry]; exact h1
      refine .inr ⟨.asiInternal, ?_, ?_, ?_, by simp⟩ <;> simp only [arrive, process, devRecv, Sys.recv, hg] <;> rfl
    | complete i o =>
      cases hd : s.sys.dev[i]? with
      | none => refine .inr ⟨.ioError, ?_, ?_, ?_, by simp_all⟩ <;> simp [arrive, process, devRecv, Sys.recv, hd]
      | some q =>
        obtain ⟨pid, t⟩ := q
        have hp : s.sys.ex.pending[i]? = some (pid, ((pid, t), some t)) := by rw [hsim.pend]; simp [hd, entry]
        have hnd : (Dict.keys s.sys.ex.pending).Nodup := by rw [hsim.pend, keys_entry]; exact hsim.nodup
        obtain ⟨hg, he⟩ := Dict.get_erase_of_getElem _ hnd i pid _ hp
        refine .inl ⟨i, o, pid, t, rfl, hd, ?_, ?_, ?_⟩ <;> simp only [arrive, process, devRecv, hd, hg, he]
        all_goals (cases o <;> rfl)

/-- A program that gives a callback with every `send` and, unless it may, never raises, whatever happens to it. -/
def Prog.Ok (mayRaise : Bool) : Prog K P X U → Prop
  | .done => True
  | .raise _ => mayRaise = true
  | .ask go => ∀ n, (go n).Ok mayRaise
  | .send cb go => cb ≠ none ∧ ∀ r, (go r).Ok mayRaise
  | .wait go => ∀ r, (go r).Ok mayRaise
  | .call go => ∀ r, (go r).Ok mayRaise

def Frame.Ok (mayRaise : Bool) : Frame K P X U → Prop
  | .run p => p.Ok mayRaise
  | .waiting go => ∀ r, (go r).Ok mayRaise
  | .calling _ go => ∀ r, (go r).Ok mayRaise

/-- Only the program at the bottom may raise. -/
def StackOk : List (Frame K P X U) → Prop
  | [] => True
  | f :: r => f.Ok r.isEmpty ∧ StackOk r

theorem fail_ok {f : Frame K P X U} {b : Bool} {e : Err X U} (h : f.Ok b) : (Frame.run (f.fail e)).Ok b := by
  cases f with
  | run p => exact h
  | waiting go => exact h _
  | calling t go => exact h _

theorem reach_ok (hc : ∀ k a, (code k a).Ok false) (hm : main.Ok true) (h : Reach code maxq main ops s) :
    StackOk s.stack ∧ ∀ c ∈ s.callees, c ≠ .missing := by
  induction h with
  | start => exact ⟨⟨hm, trivial⟩, by simp [S.init]⟩
  | @step _ s l s' _ hs ih =>
    obtain ⟨h1, h2⟩ := ih
    cases hs with
    | ask n h3 => rw [h3] at h1; exact ⟨⟨h1.1 n, h1.2⟩, h2⟩
    | @send cb go r p o h3 =>
      rw [h3] at h1
      refine ⟨⟨h1.1.2 _, h1.2⟩, ?_⟩
      intro c hcm
      rcases List.mem_append.1 hcm with hcm | hcm
      · exact h2 c hcm
      · cases cb with
        | none => exact absurd rfl h1.1.1
        | some k => simp at hcm; simp [hcm]
    | wait h3 => rw [h3] at h1; exact ⟨⟨h1.1, h1.2⟩, h2⟩
    | waited h3 h4 => rw [h3] at h1; exact ⟨⟨h1.1 _, h1.2⟩, h2⟩
    | @call go r p o h3 =>
      rw [h3] at h1
      refine ⟨⟨?_, h1.2⟩, ?_⟩
      · split
        · exact h1.1
        · exact h1.1 _
      · intro c hcm
        rcases List.mem_append.1 hcm with hcm | hcm
        · exact h2 c hcm
        · simp at hcm; simp [hcm]
    | called h3 h4 => rw [h3] at h1; exact ⟨⟨h1.1 _, h1.2⟩, h2⟩
    | @receive f r op h3 h4 h5 =>
      rw [h3] at h1
      unfold arrive
      split
      · exact ⟨⟨fail_ok h1.1, h1.2⟩, h2⟩
      · exact ⟨by rw [h3]; exact h1, h2⟩
      · refine ⟨?_, h2⟩
        dsimp only
        split
        · exact h1
        · exact ⟨hc _ _, h1⟩
        · exact ⟨fail_ok h1.1, h1.2⟩
    | returns h3 h4 => rw [h3] at h1; exact ⟨h1.2, h2⟩
    | raises h3 h4 => rw [h3] at h1; exact ⟨⟨fail_ok h1.2.1, h1.2.2⟩, h2⟩

/-- **C71 (h)**, if no callback raises and every `send` gives one: a `call` ends with the answer to its own command or because reading failed, and nothing else
ends it; meanwhile callbacks run on top of it and it stays. -/
theorem C71_call_ends (hc : ∀ k a, (code k a).Ok false) (hm : main.Ok true) (h : Reach code maxq main ops s) {s' : S K P X U} {l : Option (Op P X)}
    (hn : (Sys.init maxq).NoReuse (ops ++ l.toList)) (hs : Step code s l s') :
    (∀ t go r, s.stack = .calling t go :: r →
      (∃ a, s.calls.lookup t = some a ∧ s'.stack = .run (go (answer a)) :: r) ∨
      (s.calls.lookup t = none ∧ (s'.stack = s.stack ∨ ∃ k args, s'.stack = .run (code k args) :: s.stack)) ∨
      (s.calls.lookup t = none ∧ ∃ e, s'.sys.log = s.sys.log ++ [.raised e] ∧ s'.stack = .run (go (.error (.py e))) :: r)) ∧
    (∀ f g r, s.stack = f :: g :: r → ∃ pre, s'.stack = pre ++ g :: r) := by
  obtain ⟨hok, hnm⟩ := reach_ok hc hm h
  have hlen := reach_callees h
  constructor
  · intro t go r hst
    cases hs with
    | called h3 h4 => rw [h3] at hst; cases hst; exact .inl ⟨_, h4, rfl⟩
    | @receive f' r' op h3 h4 h5 =>
      have h3' := h3
      rw [hst] at h3; cases h3
      refine .inr ?_
      rcases C71_reads h hn h5 hst (.receive op h3' h4 h5) with ⟨i, o, pid, u, -, hd, -, -, hstk⟩ | ⟨e, h6, -, h8, -⟩
      · refine .inl ⟨h4, ?_⟩
        rw [hstk, hst]
        split
        · exact .inl rfl
        · exact .inr ⟨_, _, rfl⟩
        · rename_i hno hnu
          exfalso
          cases hcu : s.callees[u]? with
          | none =>
            have hacc : Ev.accepted u ∈ s.sys.log := by
              have hnr : (Sys.init maxq).NoReuse ops := noReuse_left hn
              have := (C71_partial h hnr).2.2 u
              have hu : u ∈ s.sys.dev.map Prod.snd := List.mem_map.2 ⟨_, List.mem_of_getElem? hd, rfl⟩
              have hcnt := (counts h hnr u).2
              have hle := accepted_le h hnr u
              rw [if_pos hu] at hcnt
              refine this.2 (.inr ⟨?_, hu⟩)
              intro hmem
              have := List.count_pos_iff.2 hmem
              omega
            have hlt := accepted_lt h u hacc
            rw [List.getElem?_eq_none_iff] at hcu
            omega
          | some c =>
            cases c with
            | own => exact hno hcu
            | user k => exact hnu k hcu
            | missing => exact hnm _ (List.mem_of_getElem? hcu) rfl
      · exact .inr ⟨h4, e, h6, h8⟩
    | ask n h3 => rw [h3] at hst; cases hst
    | send p o h3 => rw [h3] at hst; cases hst
    | wait h3 => rw [h3] at hst; cases hst
    | waited h3 => rw [h3] at hst; cases hst
    | call p o h3 => rw [h3] at hst; cases hst
    | returns h3 => rw [h3] at hst; cases hst
    | raises h3 => rw [h3] at hst; cases hst
  · intro f g r hst
    rw [hst] at hok
    cases hs with
    | ask n h3 => rw [h3] at hst; cases hst; exact ⟨[_], rfl⟩
    | send p o h3 => rw [h3] at hst; cases hst; exact ⟨[_], rfl⟩
    | wait h3 => rw [h3] at hst; cases hst; exact ⟨[_], rfl⟩
    | waited h3 => rw [h3] at hst; cases hst; exact ⟨[_], rfl⟩
    | call p o h3 => rw [h3] at hst; cases hst; exact ⟨[_], rfl⟩
    | called h3 => rw [h3] at hst; cases hst; exact ⟨[_], rfl⟩
    | returns h3 => rw [h3] at hst; cases hst; exact ⟨[], rfl⟩
    | raises h3 => rw [h3] at hst; cases hst; exact absurd hok.1 (by simp [Frame.Ok, Prog.Ok])
    | receive op h3 h4 h5 =>
      rw [h3] at hst; cases hst
      unfold arrive
      split
      · exact ⟨[_], rfl⟩
      · exact ⟨[_], h3⟩
      · dsimp only
        split
        · exact ⟨[_], rfl⟩
        · exact ⟨[_, _], rfl⟩
        · exact ⟨[_], rfl⟩

end

/-! ## Cases -/

/-- A callback that sends another command (with itself as callback) while the answer is a number above zero, then waits; started by a program
that sends one command and waits. -/
def chain : Unit → Args Nat Nat → Prog Unit Nat Nat Unit
  | _, a =>
    match a.data with
    | some (_, _ + 1) => .send (some ()) fun _ => .wait fun _ => .done
    | _ => .done

def chainMain : Prog Unit Nat Nat Unit := .send (some ()) fun _ => .wait fun _ => .done

/-- The device answers 1, then 0. -/
def chainOps : List (Op Nat Nat) := [.send true true, .complete 0 (.data 1), .send true true, .complete 0 (.data 0)]

/-- The hypotheses are met: two commands, one sent from within the callback of the other; the inner `wait` reads the second answer; both return. -/
theorem chain_runs : ∃ s, Reach chain 15 chainMain chainOps s ∧ (Sys.init 15).NoReuse chainOps ∧
    s.stack = [.run .done] ∧ s.calls = [(0, ⟨some (some 0, 1), none⟩), (1, ⟨some (some 1, 0), none⟩)] := by
  have r0 : Reach chain 15 chainMain [] _ := .start
  have r1 := Reach.step r0 (.send true true rfl)
  have r2 := Reach.step r1 (.wait rfl)
  have r3 := Reach.step r2 (.receive (.complete 0 (.data 1)) rfl rfl (by simp))
  have r4 := Reach.step r3 (.send true true rfl)
  have r5 := Reach.step r4 (.wait rfl)
  have r6 := Reach.step r5 (.receive (.complete 0 (.data 0)) rfl rfl (by simp))
  have r7 := Reach.step r6 (.returns rfl trivial)
  have r8 := Reach.step r7 (.waited rfl rfl)
  have r9 := Reach.step r8 (.returns rfl trivial)
  have r10 := Reach.step r9 (.waited rfl rfl)
  refine ⟨_, r10, ?_, rfl, rfl⟩
  simp [chainOps, Sys.NoReuse, Sys.init, St.init, Sys.step, Sys.recv, Executer.send, nextPacketIndex, osSend, process, devRecv, Dict.set, Dict.get, Dict.erase,
    Sys.slotFree]

/-- `chain` raises nothing and gives a callback with its `send`. -/
example : (∀ k a, (chain k a).Ok false) ∧ chainMain.Ok true := by
  refine ⟨fun k a => ?_, by simp [chainMain, Prog.Ok]⟩
  obtain ⟨d, e⟩ := a
  rcases d with _ | ⟨_, _ | n⟩ <;> simp [chain, Prog.Ok]

/-- A callback that raises. -/
def angry : Unit → Args Nat Nat → Prog Unit Nat Nat Nat := fun _ _ => .raise (.user 7)

/-- **The full C71 is false**: "a `call` ends with the answer to its command unless reading responses fails". A program sends a command whose
callback raises, then makes a `call`; the device answers the first command first. The `call` raises the exception of that callback, its own
command is still with the device, and its answer will reach nobody. -/
theorem C71_false : ∃ (main : Prog Unit Nat Nat Nat) (ops : List (Op Nat Nat)) (s : S Unit Nat Nat Nat)
    (go : Except (Err Nat Nat) (Option (Option Nat × Nat)) → Prog Unit Nat Nat Nat),
    main = .send (some ()) (fun _ => .call go) ∧ (∀ u, go (.error (.user u)) = .raise (.user u)) ∧ (∀ d, go (.ok d) = .done) ∧
      Reach angry 15 main ops s ∧ (Sys.init 15).NoReuse ops ∧ (∀ op ∈ ops, ∀ e, op ≠ .recvError e) ∧
      s.stack = [.run (.raise (.user 7))] ∧ s.calls.map (·.1) = [0] ∧ s.sys.dev.map Prod.snd = [1] := by
  let go : Except (Err Nat Nat) (Option (Option Nat × Nat)) → Prog Unit Nat Nat Nat := fun r => match r with | .error e => .raise e | .ok _ => .done
  have r0 : Reach angry 15 (.send (some ()) (fun _ => .call go)) [] _ := .start
  have r1 := Reach.step r0 (.send true true rfl)
  have r2 := Reach.step r1 (.call true true rfl)
  have r3 := Reach.step r2 (.receive (.complete 0 (.data 1)) rfl rfl (by simp))
  have r4 := Reach.step r3 (.raises rfl trivial)
  refine ⟨_, _, _, go, rfl, fun _ => rfl, fun _ => rfl, r4, ?_, ?_, rfl, rfl, rfl⟩
  · simp [Sys.NoReuse, Sys.init, St.init, Sys.step, Sys.recv, Executer.send, nextPacketIndex, osSend, process, devRecv, Dict.set, Dict.get, Dict.erase,
      Sys.slotFree]
  · simp

/-- Sending without a callback (the default of `send`) does not work: the `wait` or `call` that reads the answer raises `TypeError`, in every state and
whatever the answer. -/
theorem C71_default_callback_false {code : K → Args P X → Prog K P X U} {s : S K P X U} {op : Op P X} {f : Frame K P X U} {r : List (Frame K P X U)} {t : Nat}
    {args : Args P X} (hf : (process (fun _ => devRecv op) s.sys.ex s.sys.dev).fired = some (t, args)) (ht : s.callees[t]? = some .missing) :
    (arrive code s op f r).stack = .run (f.fail (.py .typeError)) :: r := by
  unfold arrive
  split
  · rename_i e he
    rw [process_error he] at hf; cases hf
  · rename_i h; rw [h] at hf; cases hf
  · rename_i h; rw [h] at hf; cases hf
    simp only [ht]

/-- Such a state: one command sent without callback, then `wait`. -/
example : ∃ s : S Unit Nat Nat Nat, Reach angry 15 (.send none fun _ => .wait fun r => match r with | .ok _ => .done | .error e => .raise e)
    [.send true true, .complete 0 (.data 1)] s ∧ s.stack = [.run (.raise (.py .typeError))] := by
  have r0 : Reach angry 15 (.send none fun _ => .wait fun r => match r with | .ok _ => .done | .error e => .raise e) [] _ := .start
  have r1 := Reach.step r0 (.send true true rfl)
  have r2 := Reach.step r1 (.wait rfl)
  have r3 := Reach.step r2 (.receive (.complete 0 (.data 1)) rfl rfl (by simp))
  exact ⟨_, r3, rfl⟩

end Verif.Callbacks
