import Verif.Platform.IoctlAhead
set_option linter.unusedSimpArgs false
set_option linter.unusedSectionVars false
/-!
# C83: commands sent ahead behind the device mapper (`linux_dm`)

`Live.run` is the executer of linux.py:279-293 with its memory and packet numbers, in front of any device; `Spec/Latest` the ideal.
-/

namespace Verif.Platform.Linux
open Verif.Executer Verif.Spec

namespace Ahead
open Verif.Platform.Win32.Ahead (Past past_step past_init taken_snoc)

variable {S δ : Type}

/-! ## About the ideal -/

section
variable {A R : Type} {dev : Device δ} {limit : Nat} {hr : Req → Answer → A} {rt : Req → Answer → R}

theorem told_waiting {next : Nat} {out : List Pipeline.Entry} {t : Nat} {a : A} (h : .told t a ∈ (Latest.waiting (R := R) hr next out).1) :
    ∃ e ∈ out, e.t = t ∧ e.t + 1 = next ∧ a = hr e.cmd e.ans := by
  cases out with
  | nil => simp [Latest.waiting] at h
  | cons e rest =>
    simp only [Latest.waiting] at h
    split at h
    · rename_i hn
      rcases List.mem_cons.1 h with h | h
      · simp only [Pipeline.Ev.told.injEq] at h
        exact ⟨e, by simp, h.1.symm, hn, h.2⟩
      · split at h <;> simp at h
    · simp at h

theorem returned_waiting {next : Nat} {out : List Pipeline.Entry} {t : Nat} {r : R} : .returned t r ∉ (Latest.waiting (R := R) hr next out).1 := by
  intro h
  cases out with
  | nil => simp [Latest.waiting] at h
  | cons e rest =>
    simp only [Latest.waiting] at h
    split at h
    · split at h <;> simp at h
    · simp at h

theorem raised_waiting {next : Nat} {out : List Pipeline.Entry} {e : PyErr} (h : .raised e ∈ (Latest.waiting (R := R) hr next out).1) : e = .attribute := by
  cases out with
  | nil => simp [Latest.waiting] at h
  | cons e rest =>
    simp only [Latest.waiting] at h
    split at h
    · split at h <;> simp at h
      exact h
    · simpa using h

theorem reply_waiting {next : Nat} {out : List Pipeline.Entry} : ((Latest.waiting (R := R) hr next out).1).filterMap Pipeline.reply = [] := by
  cases out with
  | nil => rfl
  | cons e rest =>
    simp only [Latest.waiting]
    split
    · split <;> rfl
    · rfl

theorem out_waiting {next : Nat} {out : List Pipeline.Entry} {e : Pipeline.Entry} (h : e ∈ (Latest.waiting (R := R) hr next out).2) : e ∈ out := by
  cases out with
  | nil => exact h
  | cons x rest =>
    simp only [Latest.waiting] at h
    split at h
    · exact List.mem_cons_of_mem _ h
    · exact h

theorem once_waiting {next : Nat} {out : List Pipeline.Entry} :
    ((Latest.waiting (R := R) hr next out).1).filterMap Pipeline.toldOf ++ ((Latest.waiting (R := R) hr next out).2).map Pipeline.Entry.t =
      out.map Pipeline.Entry.t := by
  cases out with
  | nil => rfl
  | cons e rest =>
    simp only [Latest.waiting]
    split
    · split <;> rfl
    · rfl

theorem past_late {k : δ} {ops : List Pipeline.Op} {s : Pipeline.State δ A R} (h : Past (· = .attribute) dev limit hr rt k ops s) (op : Pipeline.Op) :
    Past (· = .attribute) dev limit hr rt k (ops ++ [op]) (Latest.step dev limit hr rt s op) := by
  cases op with
  | send c => exact past_step h _
  | call c => exact past_step h _
  | wait =>
    simp only [Latest.step]
    have ht : Pipeline.taken (ops ++ [.wait]) (s.log ++ (Latest.waiting hr s.next s.out).1) = Pipeline.taken ops s.log := by
      rw [taken_snoc h.replies]
      simp [Pipeline.taken, Pipeline.given, List.filterMap_cons]
    refine ⟨?_, ?_, ?_, ?_, ?_, ?_, ?_, ?_, ?_, ?_⟩
    · simp only [List.filterMap_append, reply_waiting]
      simp [List.filterMap_cons, Pipeline.given, h.replies]
    · rw [ht]; exact h.next
    · rw [ht]; exact h.device
    · rw [ht]; exact fun e he => h.out e (out_waiting he)
    · rw [ht]
      intro t a ha
      rcases List.mem_append.1 ha with ha | ha
      · exact h.told t a ha
      · obtain ⟨e, he, rfl, -, rfl⟩ := told_waiting ha
        exact ⟨e.cmd, e.ans, h.out e he, rfl⟩
    · rw [ht]
      intro t r ha
      rcases List.mem_append.1 ha with ha | ha
      · exact h.returned t r ha
      · exact absurd ha returned_waiting
    · intro e ha
      rcases List.mem_append.1 ha with ha | ha
      · exact h.raised e ha
      · exact raised_waiting ha
    · exact fun e he => h.young e (out_waiting he)
    · rw [List.filterMap_append, List.append_assoc, once_waiting]
      exact h.once
    · intro t a ha
      rcases List.mem_append.1 ha with ha | ha
      · exact h.before t a ha
      · obtain ⟨e, he, rfl, -, -⟩ := told_waiting ha
        exact h.young e he

theorem past_late_run {k : δ} (ops pre : List Pipeline.Op) (s : Pipeline.State δ A R) (h : Past (· = .attribute) dev limit hr rt k pre s) :
    Past (· = .attribute) dev limit hr rt k (pre ++ ops) (Latest.runFrom dev limit hr rt s ops) := by
  induction ops generalizing pre s with
  | nil => rw [List.append_nil]; exact h
  | cons op ops ih =>
    have := ih _ _ (past_late h op)
    rwa [List.append_assoc] at this

/-- A command that is not the one accepted last is never heard of again. -/
theorem never_told {t : Nat} (ops : List Pipeline.Op) (s : Pipeline.State δ A R) (hlt : t + 1 < s.next) (hno : ∀ a, .told t a ∉ s.log) (a : A) :
    .told t a ∉ (Latest.runFrom dev limit hr rt s ops).log := by
  induction ops generalizing s with
  | nil => exact hno a
  | cons op ops ih =>
    refine ih _ ?_ ?_
    · cases op <;> simp only [Latest.step, Pipeline.step] <;> (try split) <;> first | exact hlt | exact Nat.lt_succ_of_lt hlt
    · intro b
      cases op with
      | send c => simp only [Latest.step, Pipeline.step]; split <;> simpa using hno b
      | call c => simp only [Latest.step, Pipeline.step]; split <;> simpa using hno b
      | wait =>
        simp only [Latest.step]
        intro hm
        rcases List.mem_append.1 hm with hm | hm
        · exact hno b hm
        · obtain ⟨e, -, h1, h2, -⟩ := told_waiting hm
          omega

/-- All went well so far. -/
structure Well (s : Pipeline.State δ A R) : Prop where
  few : s.out = [] ∨ ∃ e, s.out = [e] ∧ e.t + 1 = s.next
  open' : ∀ t, .accepted t ∈ s.log → t ∈ s.out.map Pipeline.Entry.t ∨ ∃ a, .told t a ∈ s.log
  raised : ∀ e, .raised e ∉ s.log

theorem Well.init (k : δ) : Well (Pipeline.State.init k : Pipeline.State δ A R) := ⟨.inl rfl, by simp [Pipeline.State.init], by simp [Pipeline.State.init]⟩

theorem Well.wait {s : Pipeline.State δ A R} (h : Well s) : Well (Latest.step dev limit hr rt s .wait) ∧ (Latest.step dev limit hr rt s .wait).out = [] ∧
    (.refused ∈ (Latest.step dev limit hr rt s .wait).log → .refused ∈ s.log) := by
  obtain ⟨hf, ho, hx⟩ := h
  rcases hf with hf | ⟨e, hf, he⟩
  · have : Latest.step dev limit hr rt s .wait = { s with log := s.log ++ [.waited] } := by
      simp only [Latest.step, hf, Latest.waiting]
    rw [this]
    refine ⟨⟨.inl hf, ?_, ?_⟩, hf, ?_⟩
    · intro t ht
      rcases ho t (by simpa using ht) with h | ⟨a, ha⟩
      · exact .inl h
      · exact .inr ⟨a, List.mem_append_left _ ha⟩
    · intro e hm; exact hx e (by simpa using hm)
    · intro hm; simpa using hm
  · have : Latest.step dev limit hr rt s .wait = { s with out := [], log := s.log ++ [.told e.t (hr e.cmd e.ans), .waited] } := by
      simp only [Latest.step, hf, Latest.waiting, if_pos he]
      rfl
    rw [this]
    refine ⟨⟨.inl rfl, ?_, ?_⟩, rfl, ?_⟩
    · intro t ht
      right
      rcases ho t (by simpa using ht) with h | ⟨a, ha⟩
      · rw [hf] at h
        simp only [List.map_cons, List.map_nil, List.mem_singleton] at h
        subst h
        exact ⟨hr e.cmd e.ans, List.mem_append_right _ (by simp)⟩
      · exact ⟨a, List.mem_append_left _ ha⟩
    · intro e hm; exact hx e (by simpa using hm)
    · intro hm; simpa using hm

theorem Well.send {s : Pipeline.State δ A R} (h : Well s) (c : Req) (ho : s.out = []) (hl : 0 < limit) :
    Well (Latest.step dev limit hr rt s (.send c)) ∧ (.refused ∈ (Latest.step dev limit hr rt s (.send c)).log → .refused ∈ s.log) := by
  have : Latest.step dev limit hr rt s (.send c) =
      ⟨(dev s.dev (asked c)).2, s.next + 1, [⟨s.next, c, (dev s.dev (asked c)).1⟩], s.log ++ [.accepted s.next]⟩ := by
    simp only [Latest.step, Pipeline.step, Pipeline.keep, ho]
    rw [if_neg (by simp; omega)]
    rfl
  rw [this]
  refine ⟨⟨.inr ⟨_, rfl, rfl⟩, ?_, ?_⟩, ?_⟩
  · intro t ht
    rcases List.mem_append.1 ht with ht | ht
    · rcases h.open' t ht with h | ⟨a, ha⟩
      · rw [ho] at h; cases h
      · exact .inr ⟨a, List.mem_append_left _ ha⟩
    · simp only [List.mem_singleton, Pipeline.Ev.accepted.injEq] at ht
      exact .inl (by simp [ht])
  · intro e hm; exact h.raised e (by simpa using hm)
  · intro hm; simpa using hm

theorem Well.call {s : Pipeline.State δ A R} (h : Well s) (c : Req) (ho : s.out = []) (hl : 0 < limit) :
    Well (Latest.step dev limit hr rt s (.call c)) ∧ (Latest.step dev limit hr rt s (.call c)).out = [] ∧
      (.refused ∈ (Latest.step dev limit hr rt s (.call c)).log → .refused ∈ s.log) := by
  have : Latest.step dev limit hr rt s (.call c) =
      ⟨(dev s.dev (asked c)).2, s.next + 1, [], s.log ++ [.returned s.next (rt c (dev s.dev (asked c)).1)]⟩ := by
    simp only [Latest.step, Pipeline.step, Pipeline.keep, ho]
    rw [if_neg (by simp; omega)]
    rfl
  rw [this]
  refine ⟨⟨.inl rfl, ?_, ?_⟩, rfl, ?_⟩
  · intro t ht
    rcases h.open' t (by simpa using ht) with h | ⟨a, ha⟩
    · rw [ho] at h; cases h
    · exact .inr ⟨a, List.mem_append_left _ ha⟩
  · intro e hm; exact h.raised e (by simpa using hm)
  · intro hm; simpa using hm

theorem paired_run (hl : 0 < limit) : ∀ (ops : List Pipeline.Op), Latest.Paired ops → ∀ (s : Pipeline.State δ A R), Well s → s.out = [] →
    Well (Latest.runFrom dev limit hr rt s ops) ∧ (Latest.runFrom dev limit hr rt s ops).out = [] ∧
      (.refused ∈ (Latest.runFrom dev limit hr rt s ops).log → .refused ∈ s.log)
  | [], _, _, h, ho => ⟨h, ho, id⟩
  | .send c :: .wait :: ops, hp, s, h, ho => by
    obtain ⟨h1, h2⟩ := h.send (dev := dev) (hr := hr) (rt := rt) c ho hl
    obtain ⟨h3, h4, h5⟩ := h1.wait (dev := dev) (limit := limit) (hr := hr) (rt := rt)
    obtain ⟨h6, h7, h8⟩ := paired_run hl ops hp _ h3 h4
    exact ⟨h6, h7, fun hm => h2 (h5 (h8 hm))⟩
  | .call c :: ops, hp, s, h, ho => by
    obtain ⟨h3, h4, h5⟩ := h.call (dev := dev) (hr := hr) (rt := rt) c ho hl
    obtain ⟨h6, h7, h8⟩ := paired_run hl ops hp _ h3 h4
    exact ⟨h6, h7, fun hm => h5 (h8 hm)⟩
  | .wait :: ops, hp, s, h, ho => by
    obtain ⟨h3, h4, h5⟩ := h.wait (dev := dev) (limit := limit) (hr := hr) (rt := rt)
    obtain ⟨h6, h7, h8⟩ := paired_run hl ops hp _ h3 h4
    exact ⟨h6, h7, fun hm => h5 (h8 hm)⟩

theorem one_step {s : Pipeline.State δ A R} (h : Well s) (op : Pipeline.Op) : Well (Latest.step dev 1 hr rt s op) := by
  have refusal : ∀ s : Pipeline.State δ A R, Well s → Well { s with log := s.log ++ [.refused] } := by
    intro s h
    refine ⟨h.few, ?_, ?_⟩
    · intro t ht
      rcases h.open' t (by simpa using ht) with h | ⟨a, ha⟩
      · exact .inl h
      · exact .inr ⟨a, List.mem_append_left _ ha⟩
    · intro e hm; exact h.raised e (by simpa using hm)
  cases op with
  | send c =>
    rcases h.few with hf | ⟨e, hf, -⟩
    · exact (h.send c hf Nat.one_pos).1
    · simp only [Latest.step, Pipeline.step, hf, List.length_singleton, Nat.le_refl, if_true]
      rw [← hf]
      exact refusal s h
  | call c =>
    rcases h.few with hf | ⟨e, hf, -⟩
    · exact (h.call c hf Nat.one_pos).1
    · simp only [Latest.step, Pipeline.step, hf, List.length_singleton, Nat.le_refl, if_true]
      rw [← hf]
      exact refusal s h
  | wait => exact h.wait.1

theorem one_run (ops : List Pipeline.Op) (s : Pipeline.State δ A R) (h : Well s) : Well (Latest.runFrom dev 1 hr rt s ops) := by
  induction ops generalizing s with
  | nil => exact h
  | cons op ops ih => exact ih _ (one_step h op)

end

/-! ## The theorems -/

section
variable {l : Bool} {parse : Bytes → Py (Option S)} {dev : Device δ} {alloc : Nat → Alloc} {timeout : Int} {limit : Nat} {cmds : Req → Prop}
  (hfit : Fits alloc cmds) (ht : 0 ≤ timeout ∧ timeout < 2 ^ 32) (hmax : limit ≤ 2 ^ 31)
include hfit ht hmax

/-- C83 (exactly what happens): whatever is sent, called and waited for, and whatever the device answers, the user sees exactly what the ideal shows. -/
theorem C83_refines (ops : List Pipeline.Op) (hops : ∀ op ∈ ops, Pipeline.Gives cmds op) (m : Mem) (k : δ) :
    (Live.run l parse dev alloc timeout limit m k ops).log = (Latest.run dev limit hear ret k ops).log ∧
    (Live.run l parse dev alloc timeout limit m k ops).world.world.kernel = (Latest.run dev limit (hear (S := S)) (ret (S := S)) k ops).dev := by
  have h := inv_run (l := l) (parse := parse) (dev := dev) hfit ht hmax ops hops _ _ (inv_init (l := l) (parse := parse) (limit := limit) m k)
  exact ⟨h.log, h.dev⟩

/-- C83 (no mix-ups): the commands that were accepted reached the device, each once and in order; a callback that is called gets the data the device sent for its
own command, and is called only once; `call` returns the data of its own command; nothing but an `AttributeError` is ever raised, and no status of the device is
ever told (C17). -/
theorem C83_own (ops : List Pipeline.Op) (hops : ∀ op ∈ ops, Pipeline.Gives cmds op) (m : Mem) (k : δ) :
    let live := Live.run l parse dev alloc timeout limit m k ops
    let cs := Pipeline.taken ops live.log
    live.world.world.kernel = Pipeline.after dev k cs ∧
    (∀ t a, .told t a ∈ live.log → ∃ c ans, cs[t]? = some c ∧ (Pipeline.answers dev k cs)[t]? = some ans ∧ a = ⟨some (delivered c ans), none⟩) ∧
    (live.log.filterMap Pipeline.toldOf).Nodup ∧
    (∀ t r, .returned t r ∈ live.log → ∃ c ans, cs[t]? = some c ∧ (Pipeline.answers dev k cs)[t]? = some ans ∧ r = .ok (some (delivered c ans))) ∧
    ∀ e, .raised e ∈ live.log → e = .attribute := by
  intro live cs
  obtain ⟨hlog, hdev⟩ := C83_refines (l := l) (parse := parse) (dev := dev) hfit ht hmax ops hops m k
  have h := past_late_run (dev := dev) (limit := limit) (hr := hear (S := S)) (rt := ret (S := S)) ops [] _ (past_init k)
  simp only [cs, live]
  rw [hdev, hlog]
  refine ⟨h.device, ?_, (List.nodup_append.1 h.once).1, ?_, h.raised⟩
  · intro t a hm
    obtain ⟨c, ans, ⟨h1, h2⟩, h3⟩ := h.told t a hm
    exact ⟨c, ans, h1, h2, h3⟩
  · intro t r hm
    obtain ⟨c, ans, ⟨h1, h2⟩, h3⟩ := h.returned t r hm
    exact ⟨c, ans, h1, h2, h3⟩

/-- C83 (as far as it holds, any queue size): if every `send` is followed by a `wait` at once, no command is refused, nothing is raised, and the callback of every
command has been called. (By `C83_own`, once and with its own data.) Missing: commands given between a `send` and the next `wait`, see `C83_false`. -/
theorem C83_paired_partial (hl : 0 < limit) (ops : List Pipeline.Op) (hops : ∀ op ∈ ops, Pipeline.Gives cmds op) (hp : Latest.Paired ops) (m : Mem) (k : δ) :
    let live := Live.run l parse dev alloc timeout limit m k ops
    (∀ t, .accepted t ∈ live.log → ∃ a, .told t a ∈ live.log) ∧ .refused ∉ live.log ∧ ∀ e, .raised e ∉ live.log := by
  intro live
  obtain ⟨hlog, -⟩ := C83_refines (l := l) (parse := parse) (dev := dev) hfit ht hmax ops hops m k
  simp only [live]
  rw [hlog]
  obtain ⟨h1, h2, h3⟩ := paired_run (dev := dev) (hr := hear (S := S)) (rt := ret (S := S)) hl ops hp (Pipeline.State.init k) (Well.init k) rfl
  refine ⟨?_, fun hm => ?_, h1.raised⟩
  · intro t ha
    rcases h1.open' t ha with h | h
    · rw [h2] at h; cases h
    · exact h
  · have := h3 hm
    simp [Pipeline.State.init] at this

omit hmax in
/-- C83 (as far as it holds, any program): on an executer with queue size 1, as `linux_dm` makes it (executers.py:20-25, linux.py:280), nothing is ever raised, and
after a `wait` the callback of every command that was accepted has been called. -/
theorem C83_one_partial (ops : List Pipeline.Op) (hops : ∀ op ∈ ops, Pipeline.Gives cmds op) (m : Mem) (k : δ) :
    let live := Live.run l parse dev alloc timeout 1 m k (ops ++ [.wait])
    (∀ t, .accepted t ∈ live.log → ∃ a, .told t a ∈ live.log) ∧ ∀ e, .raised e ∉ live.log := by
  intro live
  obtain ⟨hlog, -⟩ := C83_refines (l := l) (parse := parse) (dev := dev) (limit := 1) hfit ht (by decide) (ops ++ [.wait])
    (by intro o ho; rcases List.mem_append.1 ho with ho | ho
        · exact hops o ho
        · rw [List.mem_singleton.1 ho]; trivial) m k
  simp only [live]
  rw [hlog]
  have h := one_run (dev := dev) (hr := hear (S := S)) (rt := ret (S := S)) ops (Pipeline.State.init k) (Well.init k)
  obtain ⟨h1, h2, -⟩ := h.wait (dev := dev) (limit := 1) (hr := hear (S := S)) (rt := ret (S := S))
  have hrun : Latest.run dev 1 (hear (S := S)) (ret (S := S)) k (ops ++ [.wait]) =
      Latest.step dev 1 hear ret (Latest.runFrom dev 1 hear ret (Pipeline.State.init k) ops) .wait := by
    simp [Latest.run, Latest.runFrom, List.foldl_append]
  rw [hrun]
  refine ⟨?_, h1.raised⟩
  intro t ha
  rcases h1.open' t ha with hx | hx
  · rw [h2] at hx; cases hx
  · exact hx

/-- C83 fails as soon as the queue has room for two: a command is sent with a callback and accepted, then another one is sent or called and accepted. Whatever was
done before and whatever the user does afterwards, the callback of the first is never called. -/
theorem C83_false (before after : List Pipeline.Op) (a b : Req) (op : Pipeline.Op) (hop : op = .send b ∨ op = .call b) (t : Nat)
    (hops : ∀ o ∈ before ++ .send a :: op :: after, Pipeline.Gives cmds o) (m : Mem) (k : δ)
    (h1 : (Live.run l parse dev alloc timeout limit m k (before ++ [.send a])).log =
      (Live.run l parse dev alloc timeout limit m k before).log ++ [.accepted t])
    (h2 : (Live.run l parse dev alloc timeout limit m k (before ++ [.send a, op])).log ≠
      (Live.run l parse dev alloc timeout limit m k (before ++ [.send a])).log ++ [.refused]) (x : Told S) :
    .told t x ∉ (Live.run l parse dev alloc timeout limit m k (before ++ .send a :: op :: after)).log := by
  have hrefines := fun (ops : List Pipeline.Op) (h : ∀ o ∈ ops, Pipeline.Gives cmds o) =>
    (C83_refines (l := l) (parse := parse) (dev := dev) hfit ht hmax ops h m k).1
  have hbef : ∀ o ∈ before, Pipeline.Gives cmds o := fun o ho => hops o (List.mem_append_left _ ho)
  have ha : Pipeline.Gives cmds (.send a) := hops _ (by simp)
  have hb : Pipeline.Gives cmds op := hops _ (by simp)
  have hg1 : ∀ o ∈ before ++ [.send a], Pipeline.Gives cmds o := by
    intro o ho
    rcases List.mem_append.1 ho with ho | ho
    · exact hbef o ho
    · rw [List.mem_singleton.1 ho]; exact ha
  have hg2 : ∀ o ∈ before ++ [.send a, op], Pipeline.Gives cmds o := by
    intro o ho
    rcases List.mem_append.1 ho with ho | ho
    · exact hbef o ho
    · simp only [List.mem_cons, List.not_mem_nil, or_false] at ho
      rcases ho with rfl | rfl
      · exact ha
      · exact hb
  rw [hrefines _ hg1, hrefines before hbef] at h1
  rw [hrefines _ hg1, hrefines _ hg2] at h2
  rw [hrefines _ hops]
  have hpast := past_late_run (dev := dev) (limit := limit) (hr := hear (S := S)) (rt := ret (S := S)) before [] _ (past_init k)
  have r0 : Latest.run dev limit (hear (S := S)) (ret (S := S)) k before = Latest.runFrom dev limit hear ret (Pipeline.State.init k) before := rfl
  have r1 : Latest.run dev limit (hear (S := S)) (ret (S := S)) k (before ++ [.send a]) =
      Latest.step dev limit hear ret (Latest.runFrom dev limit hear ret (Pipeline.State.init k) before) (.send a) := by
    simp [Latest.run, Latest.runFrom, List.foldl_append]
  have r2 : Latest.run dev limit (hear (S := S)) (ret (S := S)) k (before ++ [.send a, op]) =
      Latest.step dev limit hear ret (Latest.step dev limit hear ret (Latest.runFrom dev limit hear ret (Pipeline.State.init k) before) (.send a)) op := by
    simp [Latest.run, Latest.runFrom, List.foldl_append]
  have r3 : Latest.run dev limit (hear (S := S)) (ret (S := S)) k (before ++ .send a :: op :: after) =
      Latest.runFrom dev limit hear ret
        (Latest.step dev limit hear ret (Latest.step dev limit hear ret (Latest.runFrom dev limit hear ret (Pipeline.State.init k) before) (.send a)) op)
        after := by
    simp [Latest.run, Latest.runFrom, List.foldl_append]
  rw [r0, r1] at h1
  rw [r1, r2] at h2
  rw [r3]
  generalize Latest.runFrom dev limit hear ret (Pipeline.State.init k) before = s at *
  have hs1 : t = s.next ∧ (Latest.step dev limit hear ret s (.send a)).next = s.next + 1 := by
    simp only [Latest.step, Pipeline.step] at h1 ⊢
    split at h1
    · simp at h1
    · rename_i hf
      rw [if_neg hf]
      simp only [List.append_cancel_left_eq, List.cons.injEq, Pipeline.Ev.accepted.injEq, and_true] at h1
      exact ⟨h1.symm, rfl⟩
  obtain ⟨rfl, hn1⟩ := hs1
  have hno1 : ∀ x, .told s.next x ∉ (Latest.step dev limit hear ret s (.send a)).log := by
    intro x hm
    rw [h1] at hm
    have := hpast.before s.next x (by simpa using hm)
    omega
  generalize Latest.step dev limit hear ret s (.send a) = s1 at *
  have hs2 : s1.next + 1 = (Latest.step dev limit hear ret s1 op).next ∧ ∀ x, .told s.next x ∉ (Latest.step dev limit hear ret s1 op).log := by
    rcases hop with rfl | rfl
    all_goals
      simp only [Latest.step, Pipeline.step] at h2 ⊢
      split at h2
      · exact absurd rfl h2
      · rename_i hf
        rw [if_neg hf]
        refine ⟨rfl, fun x hm => hno1 x (by simpa using hm)⟩
  exact never_told after _ (by omega) hs2.2 x

/-- What happens in the simplest case, for all devices, commands and queue sizes from 2 on: both commands are executed, the second callback is called with the
second command's data, `wait` raises `AttributeError`; another `wait` does the same. -/
theorem C83_two_false (hl : 2 ≤ limit) (a b : Req) (ha : cmds a) (hb : cmds b) (m : Mem) (k : δ) :
    (Live.run l parse dev alloc timeout limit m k [.send a, .send b, .wait, .wait]).log =
      [.accepted 0, .accepted 1, .told 1 ⟨some (delivered b (dev (dev k (asked a)).2 (asked b)).1), none⟩, .raised .attribute, .raised .attribute] := by
  rw [(C83_refines (l := l) (parse := parse) (dev := dev) hfit ht hmax _ (by
    intro o ho
    simp only [List.mem_cons, List.not_mem_nil, or_false] at ho
    rcases ho with rfl | rfl | rfl | rfl
    · exact ha
    · exact hb
    · trivial
    · trivial) m k).1]
  have n1 : ¬ limit ≤ 0 := by omega
  have n2 : ¬ limit ≤ 1 := by omega
  have n3 : limit ≠ 1 := by omega
  simp [Latest.run, Latest.runFrom, Latest.step, Pipeline.step, Pipeline.State.init, Latest.waiting, Pipeline.keep, hear, n1, n2, n3]

end

/-! ## Cases -/

/-- Every request object in the same place: there is no need for more. -/
def onePlace (_ : Nat) : Alloc := { block := 4096, sense := 4352, cmd := 4864, data := 5376 }

/-- READ(6) commands of one block. -/
def oneBlock (c : Req) : Prop := ∃ lba : UInt8, c = .read [8, 0, 0, lba, 1, 0] 512

theorem onePlace_fits : Fits onePlace oneBlock := by
  refine ⟨?_, ?_, ?_⟩
  · rintro c ⟨lba, rfl⟩; simp [Req.cdb]
  · rintro c ⟨lba, rfl⟩; simp [dataSize]
  · rintro c ⟨lba, rfl⟩ t
    simp [Separate, onePlace, dataSize, Req.cdb]

/-- A device that counts the commands it executes and answers with the address it was asked for. -/
def counting : Device Nat := fun k q => (⟨0, [], [(q.cdb.drop 3).headD 0, k.toUInt8]⟩, k + 1)

/-- Two reads sent ahead with queue size 15: only the second callback is called. -/
example (m : Mem) :
    (Live.run true (S := Unit) (fun _ => .ok none) counting onePlace 30000 15 m 0
      [.send (.read [8, 0, 0, 5, 1, 0] 512), .send (.read [8, 0, 0, 6, 1, 0] 512), .wait, .wait]).log =
    [.accepted 0, .accepted 1, .told 1 ⟨some (some (padded 512 [6, 1])), none⟩, .raised .attribute, .raised .attribute] := by
  have h := C83_two_false (l := true) (parse := fun _ => .ok (none : Option Unit)) (dev := counting) (limit := 15) (timeout := 30000) onePlace_fits (by decide)
    (by decide) (by decide) (.read [8, 0, 0, 5, 1, 0] 512) (.read [8, 0, 0, 6, 1, 0] 512) ⟨5, rfl⟩ ⟨6, rfl⟩ m 0
  rw [h]
  simp [delivered, counting, asked]

/-- A read sent ahead and waited for, then one called: a case of `C83_paired_partial`. -/
example : Latest.Paired [.send (.read [8, 0, 0, 5, 1, 0] 512), .wait, .call (.read [8, 0, 0, 6, 1, 0] 512)] := trivial

/-- With queue size 1 the second read is refused, and the first callback is called. -/
example (m : Mem) :
    let live := Live.run true (S := Unit) (fun _ => .ok none) counting onePlace 30000 1 m 0
      ([.send (.read [8, 0, 0, 5, 1, 0] 512), .send (.read [8, 0, 0, 6, 1, 0] 512)] ++ [.wait])
    .accepted 0 ∈ live.log ∧ ∃ a, .told 0 a ∈ live.log := by
  intro live
  have h := C83_one_partial (l := true) (parse := fun _ => .ok (none : Option Unit)) (dev := counting) onePlace_fits (timeout := 30000) (by decide)
    [.send (.read [8, 0, 0, 5, 1, 0] 512), .send (.read [8, 0, 0, 6, 1, 0] 512)]
    (by intro o ho; simp at ho; rcases ho with rfl | rfl <;> simp [Pipeline.Gives, oneBlock]) m 0
  have ha : .accepted 0 ∈ live.log := by
    simp only [live]
    rw [(C83_refines (l := true) (parse := fun _ => .ok (none : Option Unit)) (dev := counting) (limit := 1) onePlace_fits (timeout := 30000) (by decide) (by decide) _
      (by intro o ho; simp at ho; rcases ho with rfl | rfl | rfl <;> simp [Pipeline.Gives, oneBlock]) m 0).1]
    simp [Latest.run, Latest.runFrom, Latest.step, Pipeline.step, Pipeline.State.init, Latest.waiting, Pipeline.keep]
  exact ⟨ha, h.1 0 ha⟩

end Ahead
end Verif.Platform.Linux
