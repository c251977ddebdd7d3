import Verif.Platform.IoctlAheadFaults
import Verif.Props.MappedAhead
import Verif.Props.PipelineFaults
set_option linter.unusedSimpArgs false
set_option linter.unusedSectionVars false
/-!
# C116: commands sent ahead behind the device mapper (`linux_dm`), on a way that can fail
-/

namespace Verif.Platform.Linux
open Verif.Executer Verif.Spec

namespace Ahead
open Verif.Platform.Win32.Ahead (FPast fpast_init tried_snoc effect)

variable {S δ : Type}

/-! ## About the ideal -/

section
variable {A R : Type} {err : PyErr} {dev : Device δ} {limit : Nat} {hr : Req → Answer → A} {rt : Req → Answer → R}

theorem freply_waiting (hne : err ≠ .attribute) {next : Nat} {out : List Pipeline.Entry} :
    ((Latest.waiting (R := R) hr next out).1).filterMap (Pipeline.freply err) = [] := by
  cases out with
  | nil => rfl
  | cons e rest =>
    simp only [Latest.waiting]
    split
    · split <;> simp [Pipeline.freply, Ne.symm hne]
    · simp [Pipeline.freply, Ne.symm hne]

theorem accepted_waiting {next : Nat} {out : List Pipeline.Entry} {t : Nat} : .accepted t ∉ (Latest.waiting (R := R) hr next out).1 := by
  intro h
  cases out with
  | nil => simp [Latest.waiting] at h
  | cons e rest =>
    simp only [Latest.waiting] at h
    split at h
    · split at h <;> simp at h
    · simp at h

/-- What may be raised. -/
def Known (err e : PyErr) : Prop := e = .attribute ∨ e = err

theorem fpast_late (hne : err ≠ .attribute) {k : δ} {ops : List (Pipeline.FOp δ)} {s : Pipeline.State δ A R} (h : FPast err (Known err) dev hr rt k ops s) (op : Pipeline.FOp δ) :
    FPast err (Known err) dev hr rt k (ops ++ [op]) (Latest.fstep err dev limit hr rt s op) := by
  have hsub : (Pipeline.keep limit s).Sublist s.out := List.filter_sublist
  have refusal := h.refused op
  have waiting : ∀ f, op = (.wait, f) → FPast err (Known err) dev hr rt k (ops ++ [op]) (Latest.step dev limit hr rt s .wait) := by
    rintro f rfl
    simp only [Latest.step]
    have ht : Pipeline.tried err (ops ++ [(.wait, f)]) (s.log ++ (Latest.waiting hr s.next s.out).1) = Pipeline.tried err ops s.log := by
      rw [tried_snoc h.replies]
      simp [Pipeline.tried, Pipeline.fgiven, Pipeline.given, List.filterMap_cons]
    refine ⟨?_, ?_, ?_, ?_, ?_, ?_, ?_, ?_, ?_, ?_, ?_⟩
    · simp only [List.filterMap_append, freply_waiting hne]
      simp [List.filterMap_cons, Pipeline.fgiven, Pipeline.given, h.replies]
    · rw [ht]; exact h.next
    · rw [ht]; exact h.device
    · rw [ht]; exact fun e he => h.out e (out_waiting he)
    · rw [ht]
      intro t a ha
      rcases List.mem_append.1 ha with ha | ha
      · exact h.told t a ha
      · obtain ⟨e, he, rfl, -, rfl⟩ := told_waiting ha
        exact ⟨e.cmd, e.ans, h.out e he, rfl⟩
    · rw [ht]
      intro t r ha
      rcases List.mem_append.1 ha with ha | ha
      · exact h.returned t r ha
      · exact absurd ha returned_waiting
    · rw [ht]
      intro t ha
      rcases List.mem_append.1 ha with ha | ha
      · exact h.accepted t ha
      · exact absurd ha accepted_waiting
    · intro e ha
      rcases List.mem_append.1 ha with ha | ha
      · exact h.raised e ha
      · exact .inl (raised_waiting ha)
    · exact fun e he => h.young e (out_waiting he)
    · rw [List.filterMap_append, List.append_assoc, once_waiting]
      exact h.once
    · intro t a ha
      rcases List.mem_append.1 ha with ha | ha
      · exact h.before t a ha
      · obtain ⟨e, he, rfl, -, -⟩ := told_waiting ha
        exact h.young e he
  obtain ⟨op, f⟩ := op
  cases op with
  | wait => cases f <;> exact waiting _ rfl
  | send c =>
    cases f with
    | none =>
      simp only [Latest.fstep, Latest.step, Pipeline.step]
      split
      · exact refusal c rfl
      · exact h.reply c (.send c) rfl none (.accepted s.next) [⟨s.next, c, (dev s.dev (asked c)).1⟩] _ hsub rfl rfl (.inr ⟨rfl, rfl⟩) (by simp)
          (by rintro t he; cases he; exact ⟨rfl, rfl⟩) (by simp)
    | some g =>
      simp only [Latest.fstep, Pipeline.failed]
      split
      · exact refusal c rfl
      · exact h.reply c (.send c) rfl (some g) (.raised err) [] _ hsub (by simp [Pipeline.freply]) rfl (.inl rfl) (by simp) (by simp) (by rintro e he; cases he; exact .inr rfl)
  | call c =>
    cases f with
    | none =>
      simp only [Latest.fstep, Latest.step, Pipeline.step]
      split
      · exact refusal c rfl
      · exact h.reply c (.call c) rfl none (.returned s.next _) [] _ hsub rfl rfl (.inl rfl) (by rintro t r he; cases he; exact ⟨rfl, rfl, rfl⟩) (by simp)
          (by simp)
    | some g =>
      simp only [Latest.fstep, Pipeline.failed]
      split
      · exact refusal c rfl
      · exact h.reply c (.call c) rfl (some g) (.raised err) [] _ hsub (by simp [Pipeline.freply]) rfl (.inl rfl) (by simp) (by simp) (by rintro e he; cases he; exact .inr rfl)

theorem fpast_late_run (hne : err ≠ .attribute) {k : δ} (ops pre : List (Pipeline.FOp δ)) (s : Pipeline.State δ A R) (h : FPast err (Known err) dev hr rt k pre s) :
    FPast err (Known err) dev hr rt k (pre ++ ops) (Latest.frunFrom err dev limit hr rt s ops) := by
  induction ops generalizing pre s with
  | nil => rw [List.append_nil]; exact h
  | cons op ops ih =>
    have := ih _ _ (fpast_late hne (limit := limit) h op)
    rwa [List.append_assoc] at this

/-- A command that is not the one given to the system last is never heard of again. -/
theorem fnever_told {t : Nat} (ops : List (Pipeline.FOp δ)) (s : Pipeline.State δ A R) (hlt : t + 1 < s.next) (hno : ∀ a, .told t a ∉ s.log) (a : A) :
    .told t a ∉ (Latest.frunFrom err dev limit hr rt s ops).log := by
  induction ops generalizing s with
  | nil => exact hno a
  | cons op ops ih =>
    have hw : ∀ b, .told t b ∉ (Latest.step dev limit hr rt s .wait).log := by
      intro b
      simp only [Latest.step]
      intro hm
      rcases List.mem_append.1 hm with hm | hm
      · exact hno b hm
      · obtain ⟨e, -, h1, h2, -⟩ := told_waiting hm
        omega
    obtain ⟨op, f⟩ := op
    refine ih _ ?_ ?_
    · cases op <;> cases f <;> simp only [Latest.fstep, Latest.step, Pipeline.failed, Pipeline.step] <;> (try split) <;>
        first | exact hlt | exact Nat.lt_succ_of_lt hlt
    · intro b
      cases op with
      | wait => cases f <;> exact hw b
      | send c => cases f <;> simp only [Latest.fstep, Latest.step, Pipeline.failed, Pipeline.step] <;> split <;> simpa using hno b
      | call c => cases f <;> simp only [Latest.fstep, Latest.step, Pipeline.failed, Pipeline.step] <;> split <;> simpa using hno b

/-- All went well so far, but for the failures of the system. -/
structure FWell (err : PyErr) (s : Pipeline.State δ A R) : Prop where
  few : s.out = [] ∨ ∃ e, s.out = [e] ∧ e.t + 1 = s.next
  open' : ∀ t, .accepted t ∈ s.log → t ∈ s.out.map Pipeline.Entry.t ∨ ∃ a, .told t a ∈ s.log
  raised : ∀ e, .raised e ∈ s.log → e = err

theorem FWell.init (k : δ) : FWell err (Pipeline.State.init k : Pipeline.State δ A R) := ⟨.inl rfl, by simp [Pipeline.State.init], by simp [Pipeline.State.init]⟩

/-- An event that leaves the outstanding command as it is. -/
theorem FWell.event {s : Pipeline.State δ A R} (h : FWell err s) (d : δ) (n : Nat) (hn : s.out = [] ∨ n = s.next) (ev : Pipeline.Ev A R)
    (hacc : ∀ t, ev ≠ .accepted t) (hraise : ∀ e, ev = .raised e → e = err) : FWell err (⟨d, n, s.out, s.log ++ [ev]⟩ : Pipeline.State δ A R) := by
  refine ⟨?_, ?_, ?_⟩
  · rcases hn with hn | rfl
    · exact .inl hn
    · exact h.few
  · intro t ht
    rcases List.mem_append.1 ht with ht | ht
    · rcases h.open' t ht with h | ⟨a, ha⟩
      · exact .inl h
      · exact .inr ⟨a, List.mem_append_left _ ha⟩
    · exact absurd (List.mem_singleton.1 ht).symm (hacc t)
  · intro e hm
    rcases List.mem_append.1 hm with hm | hm
    · exact h.raised e hm
    · exact hraise e (List.mem_singleton.1 hm).symm

theorem FWell.wait {s : Pipeline.State δ A R} (h : FWell err s) : FWell err (Latest.step dev limit hr rt s .wait) ∧ (Latest.step dev limit hr rt s .wait).out = [] := by
  rcases h.few with hf | ⟨e, hf, he⟩
  · have : Latest.step dev limit hr rt s .wait = ⟨s.dev, s.next, s.out, s.log ++ [.waited]⟩ := by
      simp only [Latest.step, hf, Latest.waiting]
    rw [this]
    exact ⟨h.event _ _ (.inr rfl) _ (by simp) (by simp), hf⟩
  · have : Latest.step dev limit hr rt s .wait = ⟨s.dev, s.next, [], s.log ++ [.told e.t (hr e.cmd e.ans), .waited]⟩ := by
      simp only [Latest.step, hf, Latest.waiting, if_pos he]
      rfl
    rw [this]
    refine ⟨⟨.inl rfl, ?_, ?_⟩, rfl⟩
    · intro t ht
      right
      rcases h.open' t (by simpa using ht) with h | ⟨a, ha⟩
      · rw [hf] at h
        simp only [List.map_cons, List.map_nil, List.mem_singleton] at h
        subst h
        exact ⟨hr e.cmd e.ans, List.mem_append_right _ (by simp)⟩
      · exact ⟨a, List.mem_append_left _ ha⟩
    · intro e hm; exact h.raised e (by simpa using hm)

theorem fone_step {s : Pipeline.State δ A R} (h : FWell err s) (op : Pipeline.FOp δ) : FWell err (Latest.fstep err dev 1 hr rt s op) := by
  obtain ⟨op, f⟩ := op
  cases op with
  | wait => cases f <;> exact (h.wait (dev := dev) (limit := 1) (hr := hr) (rt := rt)).1
  | send c =>
    rcases h.few with hf | ⟨e, hf, -⟩
    · have hn : ¬ 1 ≤ s.out.length := by simp [hf]
      have hk : Pipeline.keep 1 s = s.out := by simp [Pipeline.keep, hf]
      cases f with
      | some g =>
        simp only [Latest.fstep, Pipeline.failed, if_neg hn, hk]
        exact h.event _ _ (.inl hf) _ (by simp) (by simp)
      | none =>
        simp only [Latest.fstep, Latest.step, Pipeline.step, if_neg hn, hk]
        rw [hf]
        refine ⟨.inr ⟨_, rfl, rfl⟩, ?_, ?_⟩
        · intro t ht
          rcases List.mem_append.1 ht with ht | ht
          · rcases h.open' t ht with h | ⟨a, ha⟩
            · rw [hf] at h; cases h
            · exact .inr ⟨a, List.mem_append_left _ ha⟩
          · simp only [List.mem_singleton, Pipeline.Ev.accepted.injEq] at ht
            exact .inl (by simp [ht])
        · intro e hm; exact h.raised e (by simpa using hm)
    · have hn : 1 ≤ s.out.length := by simp [hf]
      cases f <;> simp only [Latest.fstep, Latest.step, Pipeline.step, Pipeline.failed, if_pos hn] <;>
        exact h.event _ _ (.inr rfl) _ (by simp) (by simp)
  | call c =>
    rcases h.few with hf | ⟨e, hf, -⟩
    · have hn : ¬ 1 ≤ s.out.length := by simp [hf]
      have hk : Pipeline.keep 1 s = s.out := by simp [Pipeline.keep, hf]
      cases f <;> simp only [Latest.fstep, Latest.step, Pipeline.step, Pipeline.failed, if_neg hn, hk] <;>
        exact h.event _ _ (.inl hf) _ (by simp) (by simp)
    · have hn : 1 ≤ s.out.length := by simp [hf]
      cases f <;> simp only [Latest.fstep, Latest.step, Pipeline.step, Pipeline.failed, if_pos hn] <;>
        exact h.event _ _ (.inr rfl) _ (by simp) (by simp)

theorem fone_run (ops : List (Pipeline.FOp δ)) (s : Pipeline.State δ A R) (h : FWell err s) : FWell err (Latest.frunFrom err dev 1 hr rt s ops) := by
  induction ops generalizing s with
  | nil => exact h
  | cons op ops ih => exact ih _ (fone_step h op)

end

/-! ## The theorems -/

section
variable {l : Bool} {parse : Bytes → Py (Option S)} {dev : Device δ} {alloc : Nat → Alloc} {timeout : Int} {limit : Nat} {cmds : Req → Prop}
  (hfit : Fits alloc cmds) (ht : 0 ≤ timeout ∧ timeout < 2 ^ 32) (hmax : limit ≤ 2 ^ 31)
include hfit ht hmax

/-- C116 (exactly what happens): whatever is sent, called and waited for, whatever the device answers and whichever calls of the system fail, with whatever effect on
the device and on memory, the user sees exactly what the ideal shows. -/
theorem C116_refines (ops : List (LOp δ)) (hops : ∀ op ∈ ops, Pipeline.Gives cmds op.1) (m : Mem) (k : δ) :
    (Live.frun l parse dev alloc timeout limit m k ops).log = (Latest.frun .ioError dev limit hear ret k (ops.map plain)).log ∧
    (Live.frun l parse dev alloc timeout limit m k ops).world.world.kernel =
      (Latest.frun .ioError dev limit (hear (S := S)) (ret (S := S)) k (ops.map plain)).dev := by
  have h := finv_run (l := l) (parse := parse) (dev := dev) hfit ht hmax ops hops _ _ (inv_init (l := l) (parse := parse) (limit := limit) m k)
  exact ⟨h.log, h.dev⟩

/-- C116 (no mix-ups): every command that gets past the queue is given to the system once and in order; a callback that is called is that of a command that did not
fail, gets the data the device sent for that command and is called only once; `call` returns the data of its own command, which did not fail; `send` accepts no
command that failed; nothing but the system's error and `AttributeError` is ever raised. -/
theorem C116_own (ops : List (LOp δ)) (hops : ∀ op ∈ ops, Pipeline.Gives cmds op.1) (m : Mem) (k : δ) :
    let live := Live.frun l parse dev alloc timeout limit m k ops
    let cs := Pipeline.tried .ioError (ops.map plain) live.log
    live.world.world.kernel = Pipeline.fafter dev k cs ∧
    (∀ t a, .told t a ∈ live.log →
      ∃ c ans, cs[t]? = some (c, none) ∧ (Pipeline.fanswers dev k cs)[t]? = some (some ans) ∧ a = ⟨some (delivered c ans), none⟩) ∧
    (live.log.filterMap Pipeline.toldOf).Nodup ∧
    (∀ t r, .returned t r ∈ live.log →
      ∃ c ans, cs[t]? = some (c, none) ∧ (Pipeline.fanswers dev k cs)[t]? = some (some ans) ∧ r = .ok (some (delivered c ans))) ∧
    (∀ t, .accepted t ∈ live.log → ∃ c, cs[t]? = some (c, none)) ∧
    ∀ e, .raised e ∈ live.log → e = .attribute ∨ e = .ioError := by
  intro live cs
  obtain ⟨hlog, hdev⟩ := C116_refines (l := l) (parse := parse) (dev := dev) hfit ht hmax ops hops m k
  have h := fpast_late_run (err := .ioError) (by decide) (dev := dev) (limit := limit) (hr := hear (S := S)) (rt := ret (S := S)) (ops.map plain) [] _ (fpast_init k)
  simp only [cs, live]
  rw [hdev, hlog]
  refine ⟨h.device, ?_, (List.nodup_append.1 h.once).1, ?_, ?_, h.raised⟩
  · intro t a hm
    obtain ⟨c, ans, ⟨h1, h2⟩, h3⟩ := h.told t a hm
    exact ⟨c, ans, h1, h2, h3⟩
  · intro t r hm
    obtain ⟨c, ans, ⟨h1, h2⟩, h3⟩ := h.returned t r hm
    exact ⟨c, ans, h1, h2, h3⟩
  · intro t hm
    obtain ⟨c, ans, h1, -⟩ := h.accepted t hm
    exact ⟨c, h1⟩

omit hmax in
/-- C116 (as far as it holds): on an executer with queue size 1, as `linux_dm` makes it (executers.py:20-29, linux.py:280), nothing but the system's error is ever
raised, and after a `wait` the callback of every command that was accepted has been called. (By `C116_own`, once and with its own data.) Missing: other queue
sizes, see `C116_false`. -/
theorem C116_one_partial (ops : List (LOp δ)) (hops : ∀ op ∈ ops, Pipeline.Gives cmds op.1) (m : Mem) (k : δ) :
    let live := Live.frun l parse dev alloc timeout 1 m k (ops ++ [(.wait, none)])
    (∀ t, .accepted t ∈ live.log → ∃ a, .told t a ∈ live.log) ∧ ∀ e, .raised e ∈ live.log → e = .ioError := by
  intro live
  obtain ⟨hlog, -⟩ := C116_refines (l := l) (parse := parse) (dev := dev) (limit := 1) hfit ht (by decide) (ops ++ [(.wait, none)])
    (by intro o ho; rcases List.mem_append.1 ho with ho | ho
        · exact hops o ho
        · rw [List.mem_singleton.1 ho]; trivial) m k
  simp only [live]
  rw [hlog]
  have h := fone_run (dev := dev) (hr := hear (S := S)) (rt := ret (S := S)) (ops.map plain) (Pipeline.State.init k) (FWell.init (err := .ioError) k)
  obtain ⟨h1, h2⟩ := h.wait (dev := dev) (limit := 1) (hr := hear (S := S)) (rt := ret (S := S))
  have hrun : Latest.frun .ioError dev 1 (hear (S := S)) (ret (S := S)) k ((ops ++ [((.wait, none) : LOp δ)]).map plain) =
      Latest.step dev 1 hear ret (Latest.frunFrom .ioError dev 1 hear ret (Pipeline.State.init k) (ops.map plain)) .wait := by
    simp only [Latest.frun, Latest.frunFrom, List.map_append, List.foldl_append]
    rfl
  rw [hrun]
  refine ⟨?_, h1.raised⟩
  intro t ha
  rcases h1.open' t ha with hx | hx
  · rw [h2] at hx; cases hx
  · exact hx

/-- C116 fails with every queue size from 2 on: a command is sent with a callback and executed, then one `send` fails. The user is told of that failure, but the
callback of the first command is never called, whatever the user does afterwards, and `wait` raises `AttributeError`. -/
theorem C116_false (hl : 2 ≤ limit) (a b : Req) (f : Fault δ) (more : List (LOp δ))
    (hops : ∀ op ∈ [(.send a, none), (.send b, some f)] ++ more, Pipeline.Gives cmds op.1) (m : Mem) (k : δ) :
    (∀ x, .told 0 x ∉ (Live.frun l parse dev alloc timeout limit m k ([(.send a, none), (.send b, some f)] ++ more)).log) ∧
    (more = [(.wait, none)] →
      (Live.frun l parse dev alloc timeout limit m k ([(.send a, none), (.send b, some f)] ++ more)).log =
        [.accepted 0, .raised .ioError, .raised .attribute] ∧
      (Live.frun l parse dev alloc timeout limit m k ([(.send a, none), (.send b, some f)] ++ more)).world.world.kernel =
        f.dev (dev k (asked a)).2) := by
  obtain ⟨hlog, hdev⟩ := C116_refines (l := l) (parse := parse) (dev := dev) hfit ht hmax _ hops m k
  rw [hlog, hdev]
  have n1 : ¬ limit ≤ 0 := by omega
  have n2 : ¬ limit ≤ 1 := by omega
  have n3 : limit ≠ 1 := by omega
  have hrun : Latest.frun .ioError dev limit (hear (S := S)) (ret (S := S)) k (([((.send a, none) : LOp δ), (.send b, some f)] ++ more).map plain) =
      Latest.frunFrom .ioError dev limit hear ret ⟨f.dev (dev k (asked a)).2, 2, [⟨0, a, (dev k (asked a)).1⟩], [.accepted 0, .raised .ioError]⟩ (more.map plain) := by
    simp [Latest.frun, Latest.frunFrom, plain, Latest.fstep, Latest.step, Pipeline.step, Pipeline.failed, Pipeline.State.init, Pipeline.keep, n1, n2, n3]
  rw [hrun]
  refine ⟨fun x => fnever_told _ _ (by simp) (by simp) x, ?_⟩
  rintro rfl
  simp [Latest.frunFrom, plain, Latest.fstep, Latest.step, Latest.waiting]

end

/-! ## Cases -/

/-- A call that fails after the device has executed the command, and that spoils all the memory there is. -/
def spoilt : Fault Nat := ⟨(· + 1), fun _ _ => 0xFF⟩

/-- A read that fails, one that does not, and a third one sent too early, with queue size 1. -/
def failsThenReads : List (LOp Nat) :=
  [(.send (.read [8, 0, 0, 5, 1, 0] 512), some spoilt), (.send (.read [8, 0, 0, 6, 1, 0] 512), none), (.send (.read [8, 0, 0, 7, 1, 0] 512), some spoilt)]

theorem failsThenReads_gives : ∀ op ∈ failsThenReads, Pipeline.Gives oneBlock op.1 := by
  intro o ho
  simp [failsThenReads] at ho
  rcases ho with rfl | rfl | rfl <;> simp [Pipeline.Gives, oneBlock]

example (m : Mem) :
    (Live.frun true (S := Unit) (fun _ => .ok none) counting onePlace 30000 1 m 0 (failsThenReads ++ [(.wait, none)])).log =
    [.raised .ioError, .accepted 1, .refused, .told 1 ⟨some (some (padded 512 [6, 1])), none⟩, .waited] := by
  rw [(C116_refines (l := true) (parse := fun _ => .ok (none : Option Unit)) (dev := counting) (limit := 1) onePlace_fits (timeout := 30000) (by decide) (by decide) _
    (by intro o ho; rcases List.mem_append.1 ho with ho | ho
        · exact failsThenReads_gives o ho
        · rw [List.mem_singleton.1 ho]; trivial) m 0).1]
  simp [failsThenReads, spoilt, Latest.frun, Latest.frunFrom, plain, Latest.fstep, Latest.step, Latest.waiting, Pipeline.step, Pipeline.failed,
    Pipeline.State.init, Pipeline.keep, hear, delivered, counting, asked]

/-- Queue size 15: one failing `send` and the callback of the command before it is lost. -/
example (m : Mem) :
    (Live.frun true (S := Unit) (fun _ => .ok none) counting onePlace 30000 15 m 0
      ([(.send (.read [8, 0, 0, 5, 1, 0] 512), none), (.send (.read [8, 0, 0, 6, 1, 0] 512), some spoilt)] ++ [(.wait, none)])).log =
    [.accepted 0, .raised .ioError, .raised .attribute] :=
  ((C116_false (l := true) (parse := fun _ => .ok (none : Option Unit)) (dev := counting) (limit := 15) (timeout := 30000) onePlace_fits (by decide)
    (by decide) (by decide) (.read [8, 0, 0, 5, 1, 0] 512) (.read [8, 0, 0, 6, 1, 0] 512) spoilt [(.wait, none)]
    (by intro o ho; simp at ho; rcases ho with rfl | rfl | rfl <;> simp [Pipeline.Gives, oneBlock]) m 0).2 rfl).1

end Ahead
end Verif.Platform.Linux
