import Verif.Platform.Win32Ahead
set_option linter.unusedSimpArgs false
set_option linter.unusedSectionVars false
/-!
# C79: commands sent ahead on Windows (synchronous file) and the answers their callbacks get
-/

namespace Verif.Platform.Win32
open Verif.Executer Verif.Spec

namespace Ahead

variable {S δ : Type}

/-! ## C79 -/

section
variable {b : Bool} {parse : Bytes → Py (Option S)} {dev : Device δ} {alloc : Nat → Alloc} {limit : Nat} {cmds : Req → Prop}
  (hfit : Fits b alloc cmds) (hp : Parses parse dev)
include hfit hp

/-- C79 (exactly what happens): whatever is sent, called and waited for, and whatever the device answers, the user sees exactly what the ideal shows: every
callback and every `call` gets the device's answer to its own command; a command that is still outstanding when `limit` more have been accepted is forgotten. -/
theorem C79_refines (ops : List Pipeline.Op) (hops : ∀ op ∈ ops, Pipeline.Gives cmds op) (m : Mem) (k : δ)
    (hfr : Pipeline.Fresh (Apart b alloc) dev limit (hear parse) (winOutcome parse) (Pipeline.State.init k) ops) :
    (Live.run b parse dev alloc limit m k ops).log = (Pipeline.run dev limit (hear parse) (winOutcome parse) k ops).log ∧
    (Live.run b parse dev alloc limit m k ops).world.world.kernel = (Pipeline.run dev limit (hear parse) (winOutcome parse) k ops).dev := by
  have h := inv_run hfit hp ops hops _ _ (inv_init (b := b) (parse := parse) (alloc := alloc) (limit := limit) m k) hfr
  exact ⟨h.log, h.dev⟩

/-- C79 (no mix-ups): the commands that were accepted reached the device, each once and in order; a callback that is called gets the device's answer to its own
command and is called only once; `call` returns or raises the device's answer to its own command; nothing else is ever raised. -/
theorem C79_own (ops : List Pipeline.Op) (hops : ∀ op ∈ ops, Pipeline.Gives cmds op) (m : Mem) (k : δ)
    (hfr : Pipeline.Fresh (Apart b alloc) dev limit (hear parse) (winOutcome parse) (Pipeline.State.init k) ops) :
    let live := Live.run b parse dev alloc limit m k ops
    let cs := Pipeline.taken ops live.log
    live.world.world.kernel = Pipeline.after dev k cs ∧
    (∀ t a, .told t a ∈ live.log → ∃ c ans, cs[t]? = some c ∧ (Pipeline.answers dev k cs)[t]? = some ans ∧ a = hear parse c ans) ∧
    (live.log.filterMap Pipeline.toldOf).Nodup ∧
    (∀ t r, .returned t r ∈ live.log → ∃ c ans, cs[t]? = some c ∧ (Pipeline.answers dev k cs)[t]? = some ans ∧ r = winOutcome parse c ans) ∧
    ∀ e, .raised e ∉ live.log := by
  intro live cs
  obtain ⟨hlog, hdev⟩ := C79_refines (limit := limit) hfit hp ops hops m k hfr
  have h := past_run (P := fun _ => False) (dev := dev) (limit := limit) (hr := hear parse) (ret := winOutcome parse) ops [] _ (past_init k)
  simp only [cs, live]
  rw [hdev, hlog]
  refine ⟨h.device, ?_, (List.nodup_append.1 h.once).1, ?_, h.raised⟩
  · intro t a hm
    obtain ⟨c, ans, ⟨h1, h2⟩, h3⟩ := h.told t a hm
    exact ⟨c, ans, h1, h2, h3⟩
  · intro t r hm
    obtain ⟨c, ans, ⟨h1, h2⟩, h3⟩ := h.returned t r hm
    exact ⟨c, ans, h1, h2, h3⟩

/-- C79 (as far as it holds): as long as at most `limit` commands are given between one `wait` and the next, none is refused and after a `wait` the callback of
every command accepted by `send` has been called. (By `C79_own`, once and with the device's answer to that command.) Missing: commands given without a `wait`
in between, see `C79_false`. -/
theorem C79_partial (ops : List Pipeline.Op) (hops : ∀ op ∈ ops, Pipeline.Gives cmds op) (hb : Pipeline.Bursts limit limit (ops ++ [.wait])) (m : Mem) (k : δ)
    (hfr : Pipeline.Fresh (Apart b alloc) dev limit (hear parse) (winOutcome parse) (Pipeline.State.init k) (ops ++ [.wait])) :
    let live := Live.run b parse dev alloc limit m k (ops ++ [.wait])
    (∀ t, .accepted t ∈ live.log → ∃ a, .told t a ∈ live.log) ∧ .refused ∉ live.log := by
  intro live
  obtain ⟨hlog, -⟩ := C79_refines (limit := limit) hfit hp (ops ++ [.wait])
    (by intro o ho; rcases List.mem_append.1 ho with ho | ho
        · exact hops o ho
        · rw [List.mem_singleton.1 ho]; trivial) m k hfr
  obtain ⟨left, h⟩ := kept_run (dev := dev) (limit := limit) (hr := hear parse) (ret := winOutcome parse) (ops ++ [.wait]) limit (Pipeline.State.init k)
    ⟨Nat.le_refl _, by simp [Pipeline.State.init], by simp [Pipeline.State.init], by simp [Pipeline.State.init], by simp [Pipeline.State.init]⟩ hb
  simp only [live]
  rw [hlog]
  refine ⟨?_, h.accepted⟩
  intro t ht
  rcases h.open' t ht with hm | ha
  · have : (Pipeline.runFrom dev limit (hear parse) (winOutcome parse) (Pipeline.State.init k) (ops ++ [.wait])).out = [] := by
      simp [Pipeline.runFrom, List.foldl_append, Pipeline.step]
    rw [this] at hm
    cases hm
  · exact ha

/-- C79 fails with every queue size from 2 on: a command is sent with a callback, then as many commands are executed with `call` as the queue has room for. All of
them are accepted and all of them return. But the callback is never called, whatever the user does afterwards; `wait` returns at once and nothing is raised. -/
theorem C79_false (hl : 2 ≤ limit) (a : Req) (cs : List Req) (hcs : cs.length = limit) (more : List Pipeline.Op)
    (hops : ∀ op ∈ .send a :: cs.map .call ++ more, Pipeline.Gives cmds op) (m : Mem) (k : δ)
    (hfr : Pipeline.Fresh (Apart b alloc) dev limit (hear parse) (winOutcome parse) (Pipeline.State.init k) (.send a :: cs.map .call ++ more)) :
    (∀ x, .told 0 x ∉ (Live.run b parse dev alloc limit m k (.send a :: cs.map .call ++ more)).log) ∧
    (more = [.wait] → ∃ rs, (Live.run b parse dev alloc limit m k (.send a :: cs.map .call ++ more)).log = .accepted 0 :: rs ++ [.waited] ∧
      rs.length = limit ∧ ∀ ev ∈ rs, ∃ t r, ev = .returned t r) := by
  obtain ⟨hlog, -⟩ := C79_refines (limit := limit) hfit hp _ hops m k hfr
  rw [hlog]
  let s1 : Pipeline.State δ (Told S) (Result S) := Pipeline.step dev limit (hear parse) (winOutcome parse) (Pipeline.State.init k) (.send a)
  have hs1 : s1 = ⟨(dev k (asked a)).2, 1, [⟨0, a, (dev k (asked a)).1⟩], [.accepted 0]⟩ := by
    have : ¬ limit ≤ (Pipeline.State.init k : Pipeline.State δ (Told S) (Result S)).out.length := by simp [Pipeline.State.init]; omega
    simp only [s1, Pipeline.step, if_neg this]
    rfl
  obtain ⟨rs, h1, h2, h3⟩ := calls_run (dev := dev) (limit := limit) (hr := hear parse) (ret := winOutcome parse) cs s1 ⟨0, a, (dev k (asked a)).1⟩
    (by rw [hs1]) hl (by rw [hs1, hcs]; show 1 + limit = 0 + limit + 1; omega) (by rw [hs1]; exact Nat.one_pos) (by rintro rfl; simp at hcs; omega)
  have hrun : Pipeline.run dev limit (hear parse) (winOutcome parse) k (.send a :: cs.map .call ++ more) =
      Pipeline.runFrom dev limit (hear parse) (winOutcome parse) (Pipeline.runFrom dev limit (hear parse) (winOutcome parse) s1 (cs.map .call)) more := by
    simp only [Pipeline.run, Pipeline.runFrom, List.cons_append, List.foldl_cons, List.foldl_append]
    rfl
  have hnot : ∀ x, (.told 0 x : Pipeline.Ev (Told S) (Result S)) ∉ s1.log ++ rs := by
    intro x hm
    rcases List.mem_append.1 hm with hm | hm
    · rw [hs1] at hm; simp at hm
    · obtain ⟨t, r, he⟩ := h3 _ hm; cases he
  rw [hrun]
  constructor
  · intro x
    refine never_told (P := fun _ => False) (t := 0) (k := k) (pre := .send a :: cs.map .call) more _ ?_ (by rw [h1]; exact Nat.succ_pos _) (by rw [h1]; simp)
      (by rw [h1]; exact hnot) x
    have := past_run (P := fun _ => False) (dev := dev) (limit := limit) (hr := hear parse) (ret := winOutcome parse) (cs.map .call) [.send a] s1 (past_step (past_init k) _)
    exact this
  · rintro rfl
    refine ⟨rs, ?_, h2.trans hcs, h3⟩
    rw [h1, hs1]
    simp [Pipeline.runFrom, Pipeline.step]

end

/-! ## Cases -/

/-- An allocator that gives commands with numbers less than `limit` apart memory that does not overlap will do. -/
theorem fresh_of_window {A R : Type} {dev : Device δ} {limit : Nat} {hr : Req → Answer → A} {ret : Req → Answer → R} {cmds : Req → Prop}
    {apart : Nat → Req → Nat → Req → Prop} (h : ∀ t t' c c', cmds c → cmds c' → t < t' → t' < t + limit → apart t c t' c') (ops : List Pipeline.Op)
    (hops : ∀ op ∈ ops, Pipeline.Gives cmds op) (s : Pipeline.State δ A R)
    (hs : ∀ e ∈ s.out, cmds e.cmd ∧ e.t < s.next ∧ s.next ≤ e.t + limit) (_hl : 0 < limit) : Pipeline.Fresh apart dev limit hr ret s ops := by
  have hk : ∀ e, e ∈ Pipeline.keep limit s → cmds e.cmd ∧ e.t < s.next ∧ s.next < e.t + limit := by
    intro e he
    obtain ⟨h1, h2⟩ := List.mem_filter.1 he
    obtain ⟨h3, h4, h5⟩ := hs e h1
    simp only [decide_eq_true_eq] at h2
    exact ⟨h3, h4, by omega⟩
  induction ops generalizing s with
  | nil => trivial
  | cons op ops ih =>
    have hop := hops op List.mem_cons_self
    have hstep : ∀ e ∈ (Pipeline.step dev limit hr ret s op).out, cmds e.cmd ∧ e.t < (Pipeline.step dev limit hr ret s op).next ∧
        (Pipeline.step dev limit hr ret s op).next ≤ e.t + limit := by
      cases op <;> simp only [Pipeline.step] <;> (try split)
      · exact hs
      · intro e he
        rcases List.mem_cons.1 he with rfl | he
        · exact ⟨hop, Nat.lt_succ_self _, by show s.next + 1 ≤ s.next + limit; omega⟩
        · obtain ⟨h1, h2, h3⟩ := hk e he
          exact ⟨h1, Nat.lt_succ_of_lt h2, h3⟩
      · exact hs
      · intro e he
        obtain ⟨h1, h2, h3⟩ := hk e he
        exact ⟨h1, Nat.lt_succ_of_lt h2, h3⟩
      · simp
    refine ⟨?_, ih (fun o ho => hops o (List.mem_cons_of_mem _ ho)) _ hstep ?_⟩
    · cases op
      · exact fun e he => h _ _ _ _ (hk e he).1 hop (hk e he).2.1 (hk e he).2.2
      · exact fun e he => h _ _ _ _ (hk e he).1 hop (hk e he).2.1 (hk e he).2.2
      · trivial
    · intro e he
      obtain ⟨h1, h2⟩ := List.mem_filter.1 he
      obtain ⟨h3, h4, h5⟩ := hstep e h1
      simp only [decide_eq_true_eq] at h2
      exact ⟨h3, h4, by omega⟩

/-- Memory for two commands in turn. -/
def twoSlots (t : Nat) : Alloc := { block := 0x1000 + 0x1000 * (t % 2), sense := 0, cmd := 0, data := 0x8000 + 0x1000 * (t % 2) }

/-- READ(6)-like commands of one block. -/
def oneBlock (c : Req) : Prop := ∃ lba : UInt8, c = .read [8, 0, 0, lba, 1, 0] 512

theorem twoSlots_fits : Fits true twoSlots oneBlock := by
  refine ⟨?_, ?_, ?_⟩
  · rintro c ⟨lba, rfl⟩; simp [Req.cdb]
  · rintro c ⟨lba, rfl⟩; simp [dataSize]
  · rintro c ⟨lba, rfl⟩ t
    have := Nat.mod_lt t (show 0 < 2 by decide)
    simp only [Separate, winRegions, dataSize, twoSlots, bits, List.pairwise_cons, List.mem_cons, List.not_mem_nil, or_false, forall_eq_or_imp, forall_eq,
      if_true, List.Pairwise.nil, and_true, false_implies, implies_true]
    omega

theorem twoSlots_apart (t t' : Nat) (c c' : Req) (hc : oneBlock c) (hc' : oneBlock c') (h1 : t < t') (h2 : t' < t + 2) :
    Apart true twoSlots t c t' c' := by
  obtain ⟨x, rfl⟩ := hc
  obtain ⟨y, rfl⟩ := hc'
  have : t' = t + 1 := by omega
  subst this
  simp only [Apart, winRegions, dataSize, twoSlots, List.mem_cons, List.not_mem_nil, or_false, forall_eq_or_imp, forall_eq, if_true]
  omega

/-- Every history of such commands, with a queue of two, is a case. -/
theorem twoSlots_fresh {A R : Type} {dev : Device δ} {hr : Req → Answer → A} {ret : Req → Answer → R} (ops : List Pipeline.Op)
    (hops : ∀ op ∈ ops, Pipeline.Gives oneBlock op) (k : δ) :
    Pipeline.Fresh (Apart true twoSlots) dev 2 hr ret (Pipeline.State.init k) ops :=
  fresh_of_window twoSlots_apart ops hops _ (by simp [Pipeline.State.init]) (by decide)

/-- A device that counts the commands it executes and answers with the address it was asked for. -/
def counting : Device Nat := fun k q => (⟨0, [], [(q.cdb.drop 3).headD 0, k.toUInt8]⟩, k + 1)

/-- A command is sent, two more are called: its callback is lost. -/
example : ∀ x, .told 0 x ∉ (Live.run true (S := Unit) (fun _ => .ok none) counting twoSlots 2 (fun _ => 0) 0
    ([.send (.read [8, 0, 0, 5, 1, 0] 512), .call (.read [8, 0, 0, 6, 1, 0] 512), .call (.read [8, 0, 0, 7, 1, 0] 512), .wait] )).log :=
  (C79_false (limit := 2) twoSlots_fits (fun _ _ h => by simp [counting] at h) (Nat.le_refl 2) (.read [8, 0, 0, 5, 1, 0] 512)
    [.read [8, 0, 0, 6, 1, 0] 512, .read [8, 0, 0, 7, 1, 0] 512] rfl [.wait]
    (by intro o ho; simp at ho; rcases ho with rfl | rfl | rfl | rfl <;> simp [Pipeline.Gives, oneBlock]) (fun _ => 0) 0
    (twoSlots_fresh _ (by intro o ho; simp at ho; rcases ho with rfl | rfl | rfl | rfl <;> simp [Pipeline.Gives, oneBlock]) 0)).1

/-- Two commands sent ahead of a `wait` meet the condition of `C79_partial`. -/
example : Pipeline.Bursts 2 2 ([.send (.read [8, 0, 0, 5, 1, 0] 512), .call (.read [8, 0, 0, 6, 1, 0] 512)] ++ [.wait]) := trivial

end Ahead
end Verif.Platform.Win32
