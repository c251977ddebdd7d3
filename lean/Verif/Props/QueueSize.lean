import Verif.Platform.PacketZero
import Verif.Props.Solaris
import Verif.Props.Aix
import Verif.Props.Windows
import Verif.Props.Mapped
import Verif.Spec.Pipeline
set_option linter.unusedSimpArgs false
/-!
# C80: the queue size an executer is made with

Every executer takes `max_queue_size` (linux.py:217, 280; solaris.py:188; aix.py:364; win32.py:361). `calls` executes commands one at a time.
-/

namespace Verif.Platform.QueueSize
open Verif.Executer Verif.Spec

variable {S δ K : Type}

/-- An executer that was just made. -/
abbrev made (Q : Type) (K : Type) (n : Nat) : St Q (Option K) := { pending := [], index := 0, maxq := n }

/-- Whatever the device's errors, they can be decoded. -/
def Decodes (parse : Bytes → Py (Option S)) (dev : Device δ) : Prop :=
  ∀ k q, (dev k q).1.status.toNat / 2 % 2 = 1 → ∃ sn, parse (padded 255 (dev k q).1.sense) = .ok sn

/-- What the `j`-th command of a session is like on an executer that knows only the packet number 0, with queue size `n`, when the device answered `ans`: with a
number of 0 it has its result; otherwise a command that succeeded raises `AttributeError` and one that failed `AsiInternalError`. -/
def turn (parse : Bytes → Py (Option S)) (n j : Nat) (c : Req) (ans : Answer) : Except (Exn (DevErr S)) (Option (Option Bytes)) :=
  if j % n = 0 then outcome parse c ans
  else if ans.status = 0 then .error (.py .attribute) else .error (.py .asiInternal)

theorem turn_lost (parse : Bytes → Py (Option S)) (n j : Nat) (c : Req) (ans : Answer) (h : ¬ j % n = 0) :
    turn parse n j c ans = .error (.py (lost (outcome parse c ans))) := by
  simp only [turn, if_neg h, outcome]
  by_cases h0 : ans.status = 0
  · simp [h0, lost]
  · by_cases h1 : ans.status.toNat / 2 % 2 = 1
    · simp only [h0, h1, if_true, if_false]
      cases parse (padded 255 ans.sense) <;> rfl
    · simp [h0, h1, lost]

/-- The device, in state `k`, executed the commands in order, each once, and ended up in state `k'`; the `j`-th command was `c` and the device answered `ans`, and the
caller got `res j c ans`. -/
def Fair {R : Type} (dev : Device δ) (k : δ) (cs : List Req) (res : Nat → Req → Answer → R) (rs : List R) (k' : δ) : Prop :=
  rs.length = cs.length ∧ k' = Pipeline.after dev k cs ∧
  ∀ j c ans, cs[j]? = some c → (Pipeline.answers dev k cs)[j]? = some ans → rs[j]? = some (res j c ans)

theorem Fair.cons {R : Type} {dev : Device δ} {k k' : δ} {c : Req} {cs : List Req} {res : Nat → Req → Answer → R} {rs : List R}
    (h : Fair dev (dev k (asked c)).2 cs (fun j => res (j + 1)) rs k') : Fair dev k (c :: cs) res (res 0 c (dev k (asked c)).1 :: rs) k' := by
  obtain ⟨h1, h2, h3⟩ := h
  refine ⟨by simp [h1], h2, ?_⟩
  intro j c' ans hc ha
  cases j with
  | zero =>
    simp only [Pipeline.answers, List.getElem?_cons_zero, Option.some.injEq] at hc ha
    subst hc; subst ha; rfl
  | succ j =>
    simp only [Pipeline.answers, List.getElem?_cons_succ] at hc ha ⊢
    exact h3 j c' ans hc ha

theorem answers_some (dev : Device δ) (k : δ) (cs : List Req) (j : Nat) (hj : j < cs.length) :
    ∃ k', (Pipeline.answers dev k cs)[j]? = some (dev k' (asked cs[j])).1 := by
  induction cs generalizing k j with
  | nil => simp at hj
  | cons c cs ih =>
    cases j with
    | zero => exact ⟨k, by simp [Pipeline.answers]⟩
    | succ j =>
      obtain ⟨k', h⟩ := ih (dev k (asked c)).2 j (by simpa using hj)
      exact ⟨k', by simpa [Pipeline.answers] using h⟩

theorem turn_unfair {parse : Bytes → Py (Option S)} {dev : Device δ} (hp : Decodes parse dev) (n : Nat) (hn : 2 ≤ n) {k k' : δ} (cs : List Req)
    (h2 : 2 ≤ cs.length) {rs : List (Except (Exn (DevErr S)) (Option (Option Bytes)))} (hf : Fair dev k cs (turn parse n) rs k') :
    ¬ Fair dev k cs (fun _ => outcome parse) rs k' := by
  intro hg
  obtain ⟨k1, hans⟩ := answers_some dev k cs 1 (by omega)
  have hc : cs[1]? = some cs[1] := by simp
  have h1 := hf.2.2 1 _ _ hc hans
  have h3 := hg.2.2 1 _ _ hc hans
  rw [h1] at h3
  rw [turn_lost parse n 1 _ _ (by rw [Nat.mod_eq_of_lt hn]; decide)] at h3
  exact outcome_ne parse cs[1] _ (hp k1 (asked cs[1])) _ (Option.some.inj h3).symm

section
variable {Q ω : Type} {parse : Bytes → Py (Option S)} {dev : Device δ} {n : Nat}
  {recv : St Q (Option K) → ω → Py (Outcome (Option Bytes) (DevErr S) × Nat) × ω} {prep : Req → Nat → Py Q} {osSend : Q → ω → Py Unit × ω}
  {kern : ω → δ} {fits : Req → Prop}

/-- On an executer that was just made, a command has the device's answer. -/
def OneCall (parse : Bytes → Py (Option S)) (dev : Device δ) (n : Nat) (recv : St Q (Option K) → ω → Py (Outcome (Option Bytes) (DevErr S) × Nat) × ω)
    (prep : Req → Nat → Py Q) (osSend : Q → ω → Py Unit × ω) (kern : ω → δ) (fits : Req → Prop) : Prop :=
  ∀ c, fits c → ∀ i w, ∃ q, prep c i = .ok q ∧
    (call (fun _ => .ok q) osSend recv (made Q K n) w).out = outcome parse c (dev (kern w) (asked c)).1 ∧
    kern (call (fun _ => .ok q) osSend recv (made Q K n) w).os = (dev (kern w) (asked c)).2

theorem calls_zero (hz : PacketZero recv) (hn : 0 < n) (hp : Decodes parse dev) (hone : OneCall parse dev n recv prep osSend kern fits)
    (cs : List Req) (hcs : ∀ c ∈ cs, fits c) (s : St Q (Option K)) (j : Nat) (hl : Leftovers s) (hm : s.maxq = n) (hj : s.index = j % n) (w : ω) :
    Fair dev (kern w) cs (fun i => turn parse n (j + i)) (calls prep osSend recv cs s w).1 (kern (calls prep osSend recv cs s w).2) := by
  induction cs generalizing s j w with
  | nil => exact ⟨rfl, rfl, by simp⟩
  | cons c cs ih =>
    obtain ⟨q, hq, ho, hk⟩ := hone c (hcs c (List.mem_cons_self ..)) s.index w
    obtain ⟨h1, h2⟩ := call_zero hz (prep c) osSend s w q hq (hl.room (by omega)) hl.zero _ rfl (by
      intro e; rw [hm, ho]; exact outcome_ne parse c _ (hp (kern w) (asked c)) e)
    rw [hm] at h1 h2
    have hnext : (j % n + 1) % n = (j + 1) % n := by rw [Nat.add_mod (j % n), Nat.mod_mod, ← Nat.add_mod]
    have key : ∃ s1, Leftovers s1 ∧ s1.maxq = n ∧ s1.index = (j + 1) % n ∧ call (prep c) osSend recv s w =
        ⟨turn parse n j c (dev (kern w) (asked c)).1, [], s1, (call (fun _ => .ok q) osSend recv (made Q K n) w).os⟩ := by
      by_cases h0 : s.index = 0
      · refine ⟨{ s with index := 1 % n }, ⟨hl.nodup, fun i hi => hl.range i hi⟩, hm, ?_, ?_⟩
        · have : j % n = 0 := by omega
          simp only
          rw [← hnext, this, Nat.zero_add]
        · rw [h1 h0, ho, turn, if_pos (by omega), hm]
      · refine ⟨flight s q, hl.flight q h0 (by rw [hm, hj]; exact Nat.mod_lt _ hn), hm, ?_, ?_⟩
        · simp only [flight, hm, hj]; exact hnext
        · rw [h2 h0, ho, turn_lost parse n j c _ (by omega)]
    obtain ⟨s1, hl1, hm1, hj1, hcall⟩ := key
    have hrest := ih (fun c' hc' => hcs c' (List.mem_cons_of_mem _ hc')) s1 (j + 1) hl1 hm1 hj1
      (call (fun _ => .ok q) osSend recv (made Q K n) w).os
    rw [hk] at hrest
    simp only [calls, hcall]
    refine Fair.cons ?_
    refine Eq.mp ?_ hrest
    congr 1
    funext i
    rw [Nat.add_right_comm, Nat.add_assoc]

/-- Executers that are idle again after every call. -/
theorem calls_fair {R : Req → Answer → Except (Exn (DevErr S)) (Option (Option Bytes))} (hn : 0 < n)
    (hone : ∀ c, fits c → ∀ i, i < n → ∀ w,
      (call (prep c) osSend recv { pending := [], index := i, maxq := n } w).out = R c (dev (kern w) (asked c)).1 ∧
      kern (call (prep c) osSend recv { pending := [], index := i, maxq := n } w).os = (dev (kern w) (asked c)).2 ∧
      (call (prep c) osSend recv { pending := [], index := i, maxq := n } w).st = { pending := [], index := (i + 1) % n, maxq := n })
    (cs : List Req) (hcs : ∀ c ∈ cs, fits c) (i : Nat) (hi : i < n) (w : ω) :
    Fair dev (kern w) cs (fun _ => R) (calls prep osSend recv cs { pending := [], index := i, maxq := n } w).1
      (kern (calls prep osSend recv cs { pending := [], index := i, maxq := n } w).2) := by
  induction cs generalizing i w with
  | nil => exact ⟨rfl, rfl, by simp⟩
  | cons c cs ih =>
    obtain ⟨h1, h2, h3⟩ := hone c (hcs c (List.mem_cons_self ..)) i hi w
    have hrest := ih (fun c' hc' => hcs c' (List.mem_cons_of_mem _ hc')) ((i + 1) % n) (Nat.mod_lt _ hn)
      (call (prep c) osSend recv { pending := [], index := i, maxq := n } w).os
    rw [h2] at hrest
    simp only [calls, h1, h3]
    exact Fair.cons (res := fun _ => R) hrest

/-- What becomes of two commands that are sent ahead and waited for. -/
theorem ahead_zero (hz : PacketZero recv) (hn : 2 ≤ n) (hp : Decodes parse dev) (hone : OneCall parse dev n recv prep osSend kern fits)
    (a b : Req) (ha : fits a) (hb : fits b) (ka kb : K) (w : ω) :
    let r1 := send (prep a) osSend (some (some ka)) (made Q K n) w
    let r2 := send (prep b) osSend (some (some kb)) r1.st r1.os
    let r3 := wait recv r2.st r2.os
    r1.out = .ok () ∧ r2.out = .ok () ∧ kern r2.os = Pipeline.after dev (kern w) [a, b] ∧ (∃ e, r3.out = .error e) ∧
    (∀ e, outcome parse b (dev (dev (kern w) (asked a)).2 (asked b)).1 = .error (.dev e) →
      r3.fired = [(some ka, { data := none, exc := some e })]) ∧
    ((dev (dev (kern w) (asked a)).2 (asked b)).1.status = 0 → ∀ x ∈ r3.fired, x.1 = some ka ∧ x.2.exc = none) := by
  intro r1 r2 r3
  obtain ⟨qa, hqa, hoa, hka⟩ := hone a ha 0 w
  obtain ⟨oa, sa, hsa, -, -⟩ := call_sent hz osSend n (by omega) w qa _ rfl (by
    intro e; rw [show (call _ _ _ _ _).out = _ from hoa]; exact outcome_ne parse a _ (hp (kern w) (asked a)) e)
  have h1 : r1 = ⟨.ok (), { pending := [(0, (qa, some (some ka)))], index := 1, maxq := n },
      (call (fun _ => .ok qa) osSend recv (made Q K n) w).os⟩ := by
    simp only [r1, send, nextPacketIndex, made, List.length_nil]
    rw [if_neg (by omega)]
    simp only [hqa, Dict.set, hsa]
    rw [Nat.zero_add, Nat.mod_eq_of_lt hn]
  generalize (call (fun _ => .ok qa) osSend recv (made Q K n) w).os = w1 at h1 hka
  obtain ⟨qb, hqb, hob, hkb⟩ := hone b hb 1 w1
  obtain ⟨ob, sb, hsb, hrb, hout⟩ := call_sent hz osSend n (by omega) w1 qb _ rfl (by
    intro e; rw [show (call _ _ _ _ _).out = _ from hob]; exact outcome_ne parse b _ (hp (kern w1) (asked b)) e)
  have hout' := hob.symm.trans hout
  have h2 : r2 = ⟨.ok (), { pending := [(0, (qa, some (some ka))), (1, (qb, some (some kb)))], index := 2 % n, maxq := n },
      (call (fun _ => .ok qb) osSend recv (made Q K n) w1).os⟩ := by
    simp only [r2, h1, send, nextPacketIndex, List.length_cons, List.length_nil]
    rw [if_neg (by omega)]
    simp only [hqb, Dict.set, hsb]
    rfl
  generalize (call (fun _ => .ok qb) osSend recv (made Q K n) w1).os = w2 at h2 hkb hrb
  obtain ⟨h3, h4⟩ := wait_two hz qa qb ka kb (2 % n) n w2 ob sb hrb
  rw [hka] at hout'
  refine ⟨by rw [h1], by rw [h2], ?_, ?_, ?_, ?_⟩
  · rw [h2]; simp only [hkb, hka, Pipeline.after]
  · simp only [r3, h2]; exact h3
  · intro e he
    rw [he] at hout'
    simp only [r3, h2]
    cases ob with
    | data d => simp at hout'
    | exc e' => simp at hout'; subst hout'; exact h4
  · intro h0
    simp only [r3, h2]
    cases ob with
    | data d => exact h4
    | exc e' => simp [outcome, h0] at hout'

end

/-! ## Solaris -/

theorem solaris_zero (l : Bool) (parse : Bytes → Py (Option S)) : PacketZero (Solaris.osReceive (κ := δ) (K := Option K) (lp64 l) parse) := by
  have hind : ∀ (r : Option Handle) m raw e, Solaris.handleRawResponse (lp64 l) parse r m raw = .ok (.exc e, 0) →
      ∀ r', Solaris.handleRawResponse (lp64 l) parse r' m raw = .ok (.exc e, 0) := by
    intro r m raw e h r'
    unfold Solaris.handleRawResponse at h ⊢
    split at h
    · cases h
    · rename_i h1
      rw [if_neg h1]
      dsimp only at h ⊢
      split at h
      · rename_i h2; rw [if_pos h2]; exact h
      · rename_i h2
        rw [if_neg h2]
        split at h
        · rename_i h3; rw [if_pos h3]; exact h
        · rename_i h3
          rw [if_neg h3]
          split at h
          · rename_i h4; rw [if_pos h4]; exact h
          · split at h <;> simp at h
  have hdat : ∀ (r : Option Handle) m raw d, Solaris.handleRawResponse (lp64 l) parse r m raw = .ok (.data d, 0) →
      Solaris.handleRawResponse (lp64 l) parse none m raw = .error .attribute := by
    intro r m raw d h
    unfold Solaris.handleRawResponse at h ⊢
    split at h
    · cases h
    · rename_i h1
      rw [if_neg h1]
      dsimp only at h ⊢
      split at h
      · split at h <;> simp at h
      · rename_i h2
        rw [if_neg h2]
        split at h
        · simp at h
        · rename_i h3
          rw [if_neg h3]
          split at h
          · simp at h
          · rename_i h4; rw [if_neg h4]; rfl
  refine ⟨?_, ?_, ?_, ?_, ?_⟩
  · intro s s' w h; unfold Solaris.osReceive; rw [h]
  · intro s w o j w' h
    unfold Solaris.osReceive at h
    split at h
    · cases h
    · simp only [Prod.mk.injEq] at h
      have h := h.1
      unfold Solaris.handleRawResponse at h
      split at h
      · cases h
      · dsimp only at h
        split at h
        · split at h <;> simp at h
          exact h.2.symm
        · split at h
          · simp at h; exact h.2.symm
          · split at h
            · simp at h; exact h.2.symm
            · split at h <;> simp at h
              exact h.2.symm
  · intro s w; unfold Solaris.osReceive; split <;> rfl
  · intro s s' w d h hn
    unfold Solaris.osReceive at h ⊢
    split at h
    · cases h
    · simp only [Prod.mk.injEq, and_true] at h ⊢
      rw [hn]; exact hdat _ _ _ _ h
  · intro s s' w d h
    unfold Solaris.osReceive at h ⊢
    split at h
    · cases h
    · simp only [Prod.mk.injEq, and_true] at h ⊢
      exact hind _ _ _ _ h _

/-- The commands Solaris can take, with request objects anywhere in memory. -/
def SolarisFits (alloc : Nat → Alloc) (c : Req) : Prop :=
  c.cdb.length ≤ 255 ∧ dataSize c < 2 ^ 64 ∧ ∀ i, Separate 64 (regions (alloc i) c 64)

theorem solaris_one (l : Bool) (parse : Bytes → Py (Option S)) (dev : Device δ) (alloc : Nat → Alloc) (t : Int) (ht : 0 ≤ t ∧ t < 2 ^ 15) (n : Nat) (hn : 0 < n) :
    OneCall (K := K) parse dev n (Solaris.osReceive (lp64 l) parse) (Solaris.prepare (lp64 l) alloc t) (Solaris.osSend (Solaris.uscsiDevice l dev))
      (fun w => w.world.kernel) (SolarisFits alloc) := by
  intro c hc i w
  obtain ⟨h1, h2, h3⟩ := hc
  obtain ⟨⟨m, k⟩, old⟩ := w
  refine ⟨_, rfl, ?_⟩
  have := Solaris.C53_solaris (K := K) l parse dev (fun _ => alloc i) t c (made Handle K n) m k old rfl hn rfl h1 h2 ht (h3 i)
  exact ⟨this.1, this.2.1⟩

/-- C80 on Solaris, exactly: with queue size `n` the device carries out every command, in order; the caller gets the result of the first command and of every
`n`-th after it, and an exception that has nothing to do with the device for each of the others. -/
theorem C80_solaris (l : Bool) (parse : Bytes → Py (Option S)) (dev : Device δ) (hp : Decodes parse dev) (alloc : Nat → Alloc) (t : Int)
    (ht : 0 ≤ t ∧ t < 2 ^ 15) (n : Nat) (hn : 0 < n) (cs : List Req) (hcs : ∀ c ∈ cs, SolarisFits alloc c) (m : Mem) (k : δ) (old : Option Bytes) :
    let r := calls (Solaris.prepare (lp64 l) alloc t) (Solaris.osSend (Solaris.uscsiDevice l dev)) (Solaris.osReceive (lp64 l) parse) cs (made Handle K n)
      { world := { mem := m, kernel := k }, buffer := old }
    Fair dev k cs (turn parse n) r.1 r.2.world.kernel := by
  intro r
  have := calls_zero (K := K) (solaris_zero l parse) hn hp (solaris_one l parse dev alloc t ht n hn) cs hcs (made Handle K n) 0
    ⟨by simp [Dict.keys], by simp [Dict.keys]⟩ rfl (by simp) { world := { mem := m, kernel := k }, buffer := old }
  simpa using this

/-- C80 on Solaris with the queue size the executers are made with by default: every command has its result. Missing: every other queue size, see
`C80_solaris_false`. -/
theorem C80_solaris_partial (l : Bool) (parse : Bytes → Py (Option S)) (dev : Device δ) (hp : Decodes parse dev) (alloc : Nat → Alloc) (t : Int)
    (ht : 0 ≤ t ∧ t < 2 ^ 15) (cs : List Req) (hcs : ∀ c ∈ cs, SolarisFits alloc c) (m : Mem) (k : δ) (old : Option Bytes) :
    let r := calls (Solaris.prepare (lp64 l) alloc t) (Solaris.osSend (Solaris.uscsiDevice l dev)) (Solaris.osReceive (lp64 l) parse) cs (made Handle K 1)
      { world := { mem := m, kernel := k }, buffer := old }
    Fair dev k cs (fun _ => outcome parse) r.1 r.2.world.kernel := by
  intro r
  have h := C80_solaris (K := K) l parse dev hp alloc t ht 1 (by omega) cs hcs m k old
  have ht : turn parse 1 = fun _ => outcome parse := by
    funext j c ans
    simp [turn, Nat.mod_one]
  rwa [ht] at h

/-- C80 fails on Solaris for every queue size from 2 on, whatever the device and the commands, as soon as there are two of them. -/
theorem C80_solaris_false (l : Bool) (parse : Bytes → Py (Option S)) (dev : Device δ) (hp : Decodes parse dev) (alloc : Nat → Alloc) (t : Int)
    (ht : 0 ≤ t ∧ t < 2 ^ 15) (n : Nat) (hn : 2 ≤ n) (cs : List Req) (h2 : 2 ≤ cs.length) (hcs : ∀ c ∈ cs, SolarisFits alloc c) (m : Mem) (k : δ)
    (old : Option Bytes) :
    let r := calls (Solaris.prepare (lp64 l) alloc t) (Solaris.osSend (Solaris.uscsiDevice l dev)) (Solaris.osReceive (lp64 l) parse) cs (made Handle K n)
      { world := { mem := m, kernel := k }, buffer := old }
    ¬ Fair dev k cs (fun _ => outcome parse) r.1 r.2.world.kernel := by
  intro r hf
  exact turn_unfair hp n hn cs h2 (C80_solaris (K := K) l parse dev hp alloc t ht n (by omega) cs hcs m k old) hf

/-- Commands sent ahead on Solaris with a queue size from 2 on: both are accepted and carried out, but the first callback is told how the second command went (if that
failed, its error; if that succeeded, no error is told to anybody, whatever the device said to the first), the second is not called, and `wait` raises. -/
theorem C80_solaris_ahead_false (l : Bool) (parse : Bytes → Py (Option S)) (dev : Device δ) (hp : Decodes parse dev) (alloc : Nat → Alloc) (t : Int)
    (ht : 0 ≤ t ∧ t < 2 ^ 15) (n : Nat) (hn : 2 ≤ n) (a c : Req) (ha : SolarisFits alloc a) (hc : SolarisFits alloc c) (ka kc : K) (m : Mem) (k : δ)
    (old : Option Bytes) :
    let r1 := send (Solaris.prepare (lp64 l) alloc t a) (Solaris.osSend (Solaris.uscsiDevice l dev)) (some (some ka)) (made Handle K n)
      { world := { mem := m, kernel := k }, buffer := old }
    let r2 := send (Solaris.prepare (lp64 l) alloc t c) (Solaris.osSend (Solaris.uscsiDevice l dev)) (some (some kc)) r1.st r1.os
    let r3 := wait (Solaris.osReceive (lp64 l) parse) r2.st r2.os
    r1.out = .ok () ∧ r2.out = .ok () ∧ r2.os.world.kernel = Pipeline.after dev k [a, c] ∧ (∃ e, r3.out = .error e) ∧
    (∀ e, outcome parse c (dev (dev k (asked a)).2 (asked c)).1 = .error (.dev e) → r3.fired = [(some ka, { data := none, exc := some e })]) ∧
    ((dev (dev k (asked a)).2 (asked c)).1.status = 0 → ∀ x ∈ r3.fired, x.1 = some ka ∧ x.2.exc = none) := by
  exact ahead_zero (K := K) (solaris_zero l parse) hn hp (solaris_one l parse dev alloc t ht n (by omega)) a c ha hc ka kc { world := { mem := m, kernel := k }, buffer := old }

/-! ## AIX -/

/-- The response classification depends on the request only when it succeeded. -/
theorem aix_cases (parse : Bytes → Py (Option S)) (m : Mem) (raw : Bytes) :
    (∃ e, ∀ r, Aix.handleRawResponse (lp64 false) parse r m raw = .ok (.exc e, 0)) ∨
    (∃ e, ∀ r, Aix.handleRawResponse (lp64 false) parse r m raw = .error e) ∨
    ∀ r, Aix.handleRawResponse (lp64 false) parse r m raw =
      match Aix.successData (lp64 false) m r with
      | .ok d => .ok (.data d, 0)
      | .error e => .error e := by
  by_cases hl : raw.length < 168
  · exact .inr (.inl ⟨.valueError, fun r => by unfold Aix.handleRawResponse; rw [Aix.sizeValue, if_pos hl]⟩)
  · have he := fun r => Aix.handle_eq parse r m raw (by omega)
    by_cases h1 : scValidity raw ≠ 0
    · by_cases h2 : scValidity raw = 1 ∧ scBusStatus raw / 2 % 2 = 1
      · cases hc : checkCondition parse (readMem m (scSensePtr raw) 255) with
        | ok e => exact .inl ⟨e, fun r => by rw [he r, if_pos h1, if_pos h2, hc]⟩
        | error e => exact .inr (.inl ⟨e, fun r => by rw [he r, if_pos h1, if_pos h2, hc]⟩)
      · exact .inl ⟨_, fun r => by rw [he r, if_pos h1, if_neg h2]⟩
    · exact .inr (.inr fun r => by rw [he r, if_neg h1]; rfl)

theorem aix_zero (parse : Bytes → Py (Option S)) : PacketZero (Aix.osReceive (κ := δ) (K := Option K) (lp64 false) parse) := by
  refine ⟨?_, ?_, ?_, ?_, ?_⟩
  · intro s s' w h; unfold Aix.osReceive; rw [h]
  · intro s w o j w' h
    unfold Aix.osReceive at h
    split at h
    · cases h
    · rename_i raw _
      simp only [Prod.mk.injEq] at h
      rcases aix_cases parse w.world.mem raw with ⟨e, he⟩ | ⟨e, he⟩ | he
      · rw [he] at h; simp at h; exact h.1.2.symm
      · rw [he] at h; simp at h
      · rw [he] at h
        cases hs : Aix.successData (lp64 false) w.world.mem (getOsData s 0) with
        | ok d => rw [hs] at h; simp at h; exact h.1.2.symm
        | error e => rw [hs] at h; simp at h
  · intro s w; unfold Aix.osReceive; split <;> rfl
  · intro s s' w d h hn
    unfold Aix.osReceive at h ⊢
    split at h
    · cases h
    · rename_i raw _
      simp only [Prod.mk.injEq, and_true] at h ⊢
      rcases aix_cases parse w.world.mem raw with ⟨e, he⟩ | ⟨e, he⟩ | he
      · rw [he] at h; simp at h
      · rw [he] at h; simp at h
      · rw [he, hn]; rfl
  · intro s s' w e0 h
    unfold Aix.osReceive at h ⊢
    split at h
    · cases h
    · rename_i raw _
      simp only [Prod.mk.injEq, and_true] at h ⊢
      rcases aix_cases parse w.world.mem raw with ⟨e, he⟩ | ⟨e, he⟩ | he
      · rw [he] at h ⊢; exact h
      · rw [he] at h; simp at h
      · rw [he] at h
        cases hs : Aix.successData (lp64 false) w.world.mem (getOsData s 0) with
        | ok d => rw [hs] at h; simp at h
        | error e => rw [hs] at h; simp at h

/-- The commands AIX can take, with request objects anywhere in memory. -/
def AixFits (b : Aix.Binding) (alloc : Nat → Alloc) (c : Req) : Prop :=
  c.cdb.length ≤ 64 ∧ dataSize c < 2 ^ 64 ∧ ∀ i, Separate 64 (regions (alloc i) c 168) ∧ Aix.Passes b (alloc i).block

theorem aix_one (parse : Bytes → Py (Option S)) (b : Aix.Binding) (dev : Device δ) (alloc : Nat → Alloc) (t : Int) (ht : 0 ≤ t ∧ t < 2 ^ 32) (n : Nat)
    (hn : 0 < n) :
    OneCall (K := K) parse dev n (Aix.osReceive (lp64 false) parse) (Aix.prepare (lp64 false) alloc t) (Aix.osSend (lp64 false) b (Aix.scDevice dev))
      (fun w => w.world.kernel) (AixFits b alloc) := by
  intro c hc i w
  obtain ⟨h1, h2, h3⟩ := hc
  obtain ⟨⟨m, k⟩, old⟩ := w
  refine ⟨_, rfl, ?_⟩
  have := Aix.C54_aix_partial (K := K) parse b dev (fun _ => alloc i) t c (made Handle K n) m k old rfl hn rfl h1 h2 ht (h3 i).1 (h3 i).2
  exact ⟨this.1, this.2.1⟩

/-- C80 on AIX, exactly, as on Solaris. -/
theorem C80_aix (parse : Bytes → Py (Option S)) (b : Aix.Binding) (dev : Device δ) (hp : Decodes parse dev) (alloc : Nat → Alloc) (t : Int)
    (ht : 0 ≤ t ∧ t < 2 ^ 32) (n : Nat) (hn : 0 < n) (cs : List Req) (hcs : ∀ c ∈ cs, AixFits b alloc c) (m : Mem) (k : δ) (old : Option Bytes) :
    let r := calls (Aix.prepare (lp64 false) alloc t) (Aix.osSend (lp64 false) b (Aix.scDevice dev)) (Aix.osReceive (lp64 false) parse) cs (made Handle K n)
      { world := { mem := m, kernel := k }, buffer := old }
    Fair dev k cs (turn parse n) r.1 r.2.world.kernel := by
  intro r
  have := calls_zero (K := K) (aix_zero parse) hn hp (aix_one parse b dev alloc t ht n hn) cs hcs (made Handle K n) 0
    ⟨by simp [Dict.keys], by simp [Dict.keys]⟩ rfl (by simp) { world := { mem := m, kernel := k }, buffer := old }
  simpa using this

/-- C80 on AIX with the queue size the executers are made with by default: every command has its result. Missing: every other queue size, see
`C80_aix_false`. -/
theorem C80_aix_partial (parse : Bytes → Py (Option S)) (b : Aix.Binding) (dev : Device δ) (hp : Decodes parse dev) (alloc : Nat → Alloc) (t : Int)
    (ht : 0 ≤ t ∧ t < 2 ^ 32) (cs : List Req) (hcs : ∀ c ∈ cs, AixFits b alloc c) (m : Mem) (k : δ) (old : Option Bytes) :
    let r := calls (Aix.prepare (lp64 false) alloc t) (Aix.osSend (lp64 false) b (Aix.scDevice dev)) (Aix.osReceive (lp64 false) parse) cs (made Handle K 1)
      { world := { mem := m, kernel := k }, buffer := old }
    Fair dev k cs (fun _ => outcome parse) r.1 r.2.world.kernel := by
  intro r
  have h := C80_aix (K := K) parse b dev hp alloc t ht 1 (by omega) cs hcs m k old
  have ht : turn parse 1 = fun _ => outcome parse := by
    funext j c ans
    simp [turn, Nat.mod_one]
  rwa [ht] at h

/-- C80 fails on AIX for every queue size from 2 on, whatever the device and the commands, as soon as there are two of them. -/
theorem C80_aix_false (parse : Bytes → Py (Option S)) (b : Aix.Binding) (dev : Device δ) (hp : Decodes parse dev) (alloc : Nat → Alloc) (t : Int)
    (ht : 0 ≤ t ∧ t < 2 ^ 32) (n : Nat) (hn : 2 ≤ n) (cs : List Req) (h2 : 2 ≤ cs.length) (hcs : ∀ c ∈ cs, AixFits b alloc c) (m : Mem) (k : δ)
    (old : Option Bytes) :
    let r := calls (Aix.prepare (lp64 false) alloc t) (Aix.osSend (lp64 false) b (Aix.scDevice dev)) (Aix.osReceive (lp64 false) parse) cs (made Handle K n)
      { world := { mem := m, kernel := k }, buffer := old }
    ¬ Fair dev k cs (fun _ => outcome parse) r.1 r.2.world.kernel := by
  intro r hf
  exact turn_unfair hp n hn cs h2 (C80_aix (K := K) parse b dev hp alloc t ht n (by omega) cs hcs m k old) hf

/-- Commands sent ahead on AIX with a queue size from 2 on: both are accepted and carried out, but the first callback is told how the second command went (if that
failed, its error; if that succeeded, no error is told to anybody, whatever the device said to the first), the second is not called, and `wait` raises. -/
theorem C80_aix_ahead_false (parse : Bytes → Py (Option S)) (b : Aix.Binding) (dev : Device δ) (hp : Decodes parse dev) (alloc : Nat → Alloc) (t : Int)
    (ht : 0 ≤ t ∧ t < 2 ^ 32) (n : Nat) (hn : 2 ≤ n) (a c : Req) (ha : AixFits b alloc a) (hc : AixFits b alloc c) (ka kc : K) (m : Mem) (k : δ)
    (old : Option Bytes) :
    let r1 := send (Aix.prepare (lp64 false) alloc t a) (Aix.osSend (lp64 false) b (Aix.scDevice dev)) (some (some ka)) (made Handle K n)
      { world := { mem := m, kernel := k }, buffer := old }
    let r2 := send (Aix.prepare (lp64 false) alloc t c) (Aix.osSend (lp64 false) b (Aix.scDevice dev)) (some (some kc)) r1.st r1.os
    let r3 := wait (Aix.osReceive (lp64 false) parse) r2.st r2.os
    r1.out = .ok () ∧ r2.out = .ok () ∧ r2.os.world.kernel = Pipeline.after dev k [a, c] ∧ (∃ e, r3.out = .error e) ∧
    (∀ e, outcome parse c (dev (dev k (asked a)).2 (asked c)).1 = .error (.dev e) → r3.fired = [(some ka, { data := none, exc := some e })]) ∧
    ((dev (dev k (asked a)).2 (asked c)).1.status = 0 → ∀ x ∈ r3.fired, x.1 = some ka ∧ x.2.exc = none) := by
  exact ahead_zero (K := K) (aix_zero parse) hn hp (aix_one parse b dev alloc t ht n (by omega)) a c ha hc ka kc { world := { mem := m, kernel := k }, buffer := old }

/-! ## Linux and Windows -/

/-- The commands Linux can take, with request objects anywhere in memory. -/
def LinuxFits (alloc : Nat → Alloc) (c : Req) : Prop :=
  c.cdb.length ≤ 255 ∧ dataSize c < 2 ^ 32 ∧ ∀ i, Separate 64 [((alloc i).block, 88), ((alloc i).sense, 255),
    ((alloc i).cmd, c.cdb.length), ((alloc i).data, dataSize c)]

/-- C80 on Linux: every command has its result, whatever the queue size. -/
theorem C80_linux (l : Bool) (parse : Bytes → Py (Option S)) (dev : Device δ) (hp : Decodes parse dev) (alloc : Nat → Alloc) (t : Int)
    (ht : 0 ≤ t ∧ t < 2 ^ 32) (n : Nat) (hn : 0 < n) (hmax : n ≤ 2 ^ 31) (cs : List Req) (hcs : ∀ c ∈ cs, LinuxFits alloc c) (m : Mem) (k : δ)
    (old : Option Bytes) :
    let r := calls (Linux.prepare (lp64 l) alloc t) (Linux.sgSend (Linux.sgDevice l dev)) (Linux.sgReceive (lp64 l) parse (Linux.sgDevice l dev)) cs
      (made Handle K n) { mem := m, kernel := (k, old) }
    Fair dev k cs (fun _ => outcome parse) r.1 r.2.kernel.1 := by
  intro r
  refine calls_fair (K := K) (kern := fun w : World (δ × Option Bytes) => w.kernel.1) (fits := LinuxFits alloc) (R := outcome parse) hn ?_ cs hcs 0 hn
    { mem := m, kernel := (k, old) }
  intro c hc i hi w
  obtain ⟨h1, h2, h3⟩ := hc
  obtain ⟨m, k, old⟩ := w
  obtain ⟨r1, r2, r3⟩ := Linux.C52_linux (K := K) l parse dev alloc t c { pending := [], index := i, maxq := n } m k old rfl hn (by simp only; omega) h1 h2 ht
    (h3 i)
  exact ⟨r1, congrArg Prod.fst r2, r3 (by rw [r1]; exact outcome_ne parse c _ (hp k (asked c)))⟩

/-- C80 on multipath devices on Linux (`ioctl`): every command is told successful with the data it brought (C17 has what is wrong with that), whatever the
queue size. -/
theorem C80_ioctl (l : Bool) (parse : Bytes → Py (Option S)) (dev : Device δ) (alloc : Nat → Alloc) (t : Int)
    (ht : 0 ≤ t ∧ t < 2 ^ 32) (n : Nat) (hn : 0 < n) (hmax : n ≤ 2 ^ 31) (cs : List Req) (hcs : ∀ c ∈ cs, LinuxFits alloc c) (m : Mem) (k : δ)
    (old : Option Bytes) :
    let r := calls (Linux.prepare (lp64 l) alloc t) (Linux.ioctlSend (Linux.ioctlDevice l dev)) (Linux.ioctlReceive (lp64 l) parse) cs
      (made Handle K n) { world := { mem := m, kernel := k }, buffer := old }
    Fair dev k cs (fun _ c ans => (.ok (some (delivered c ans)) : Except (Exn (DevErr S)) _)) r.1 r.2.world.kernel := by
  intro r
  refine calls_fair (K := K) (kern := fun w : Linux.IoctlWorld δ => w.world.kernel) (fits := LinuxFits alloc) (R := fun c ans => .ok (some (delivered c ans)))
    hn ?_ cs hcs 0 hn { world := { mem := m, kernel := k }, buffer := old }
  intro c hc i hi w
  obtain ⟨h1, h2, h3⟩ := hc
  obtain ⟨⟨m, k⟩, old⟩ := w
  exact Linux.C66_ioctl (K := K) l parse dev alloc t c { pending := [], index := i, maxq := n } m k old rfl hn (by simp only; omega) h1 h2 ht (h3 i)

/-- The commands Windows can take, with request objects anywhere in memory. -/
def WindowsFits (b : Bool) (alloc : Nat → Alloc) (c : Req) : Prop :=
  c.cdb.length ≤ 16 ∧ dataSize c < 2 ^ 32 ∧ ∀ i, Separate (Win32.bits b) (Win32.winRegions b (alloc i) c)

/-- C80 on Windows: every command has its result, whatever the queue size. -/
theorem C80_windows (b : Bool) (parse : Bytes → Py (Option S)) (dev : Device δ)
    (hp : ∀ k q, (dev k q).1.status = 2 → ∃ sn, parse (padded 255 (dev k q).1.sense) = .ok sn) (alloc : Nat → Alloc)
    (n : Nat) (hn : 0 < n) (cs : List Req) (hcs : ∀ c ∈ cs, WindowsFits b alloc c) (m : Mem) (k : δ) (inc : List Win32.Spt) :
    let r := calls (Win32.prepare (Win32.W b) alloc) (Win32.osSend (Win32.W b) (Win32.sptDevice b dev)) (Win32.osReceive (Win32.W b) parse) cs
      (made Win32.Spt K n) { world := { mem := m, kernel := k }, incoming := inc }
    Fair dev k cs (fun _ => Win32.winOutcome parse) r.1 r.2.world.kernel := by
  intro r
  refine calls_fair (K := K) (kern := fun w : Win32.WinWorld δ => w.world.kernel) (fits := WindowsFits b alloc) (R := Win32.winOutcome parse) hn ?_ cs hcs 0 hn
    { world := { mem := m, kernel := k }, incoming := inc }
  intro c hc i hi w
  obtain ⟨h1, h2, h3⟩ := hc
  obtain ⟨⟨m, k⟩, inc⟩ := w
  obtain ⟨r1, r2, r3⟩ := Win32.C55_windows (K := K) b parse dev alloc c { pending := [], index := i, maxq := n } m k inc rfl hn h1 h2 (h3 i)
  refine ⟨r1, r2, r3 ?_⟩
  intro e
  rw [r1]
  unfold Win32.winOutcome
  split
  · rename_i hcc
    obtain ⟨sn, hsn⟩ := hp k (asked c) hcc
    rw [hsn]; simp
  · split
    · simp
    · split <;> simp

/-! ## The hypotheses are met -/

def somewhere (i : Nat) : Alloc := { block := 4096 * i + 4096, sense := 4096 * i + 4352, cmd := 4096 * i + 4864, data := 4096 * i + 5376 }

def inquiry : Req := .read [0x12, 0, 0, 0, 36, 0] 36

/-- Three times the same INQUIRY to a device that always succeeds, with queue size 2 on Solaris: the second raises `AttributeError`. -/
example (m : Mem) :
    (calls (Solaris.prepare (lp64 true) (fun _ => somewhere 0) 30) (Solaris.osSend (Solaris.uscsiDevice true (fun (k : Nat) _ => (⟨0, [], [7]⟩, k + 1))))
      (Solaris.osReceive (lp64 true) (fun b => .ok (some b))) [inquiry, inquiry, inquiry] (made Handle Unit 2)
      { world := { mem := m, kernel := 0 }, buffer := none }).1 =
    [.ok (some (some (padded 36 [7]))), .error (.py .attribute), .ok (some (some (padded 36 [7])))] := by
  have h := C80_solaris (K := Unit) true (fun b => .ok (some b)) (fun (k : Nat) _ => (⟨0, [], [7]⟩, k + 1)) (by intro _ _ _; exact ⟨_, rfl⟩)
    (fun _ => somewhere 0) 30 (by decide) 2 (by decide) [inquiry, inquiry, inquiry]
    (by
      intro c hc
      simp only [List.mem_cons, List.not_mem_nil, or_false, or_self] at hc
      subst hc
      exact ⟨by decide, by decide, fun i => ⟨by simp [regions, inquiry, somewhere, dataSize, Req.cdb], by simp [regions, somewhere]⟩⟩) m 0 none
  obtain ⟨h1, -, h3⟩ := h
  have e0 := h3 0 inquiry ⟨0, [], [7]⟩ rfl rfl
  have e1 := h3 1 inquiry ⟨0, [], [7]⟩ rfl rfl
  have e2 := h3 2 inquiry ⟨0, [], [7]⟩ rfl rfl
  generalize (calls _ _ _ _ _ _).1 = rs at *
  match rs, h1 with
  | [x, y, z], _ =>
    simp only [List.getElem?_cons_zero, List.getElem?_cons_succ, Option.some.injEq] at e0 e1 e2
    rw [e0, e1, e2]
    simp [turn, outcome, delivered, inquiry]

/-- INQUIRY, which succeeds, and TEST UNIT READY, which fails, sent ahead on AIX with queue size 15: the callback of the INQUIRY is told the error. -/
example (m : Mem) (b : Aix.Binding) :
    let r1 := send (Aix.prepare (lp64 false) (fun i => somewhere (i % 15)) 30 inquiry) (Aix.osSend (lp64 false) b (Aix.scDevice Linux.toyDevice)) (some (some "inquiry"))
      (made Handle String 15) { world := { mem := m, kernel := 0 }, buffer := none }
    let r2 := send (Aix.prepare (lp64 false) (fun i => somewhere (i % 15)) 30 (.read [0, 0, 0, 0, 0, 0] 0)) (Aix.osSend (lp64 false) b (Aix.scDevice Linux.toyDevice))
      (some (some "ready")) r1.st r1.os
    (wait (Aix.osReceive (lp64 false) (fun b => .ok (some b))) r2.st r2.os).fired =
      [(some "inquiry", { data := none, exc := some (.checkCondition (padded 255 [0x70, 0, 5]) (some (padded 255 [0x70, 0, 5]))) })] := by
  intro r1 r2
  have h := C80_aix_ahead_false (K := String) (fun b => .ok (some b)) b Linux.toyDevice (by intro _ _ _; exact ⟨_, rfl⟩) (fun i => somewhere (i % 15)) 30 (by decide) 15
    (by decide) inquiry (.read [0, 0, 0, 0, 0, 0] 0)
    ⟨by decide, by decide, fun i => ⟨⟨by simp [regions, inquiry, somewhere, dataSize, Req.cdb], by simp [regions, somewhere]; omega⟩, fun _ => by simp only [somewhere]; omega⟩⟩
    ⟨by decide, by decide, fun i => ⟨⟨by simp [regions, inquiry, somewhere, dataSize, Req.cdb], by simp [regions, somewhere]; omega⟩, fun _ => by simp only [somewhere]; omega⟩⟩
    "inquiry" "ready" m 0 none
  exact h.2.2.2.2.1 _ (by simp [outcome, Linux.toyDevice, asked])

end Verif.Platform.QueueSize
