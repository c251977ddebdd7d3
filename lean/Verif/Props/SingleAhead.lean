import Verif.Platform.SingleAhead
import Verif.Props.MappedAheadFaults
import Verif.Props.Refused
set_option linter.unusedSimpArgs false
set_option linter.unusedSectionVars false
/-!
# C117: commands sent ahead on Solaris and AIX, when calls of the system can fail
-/

namespace Verif.Platform.Single
open Verif.Executer Verif.Spec Verif.Platform.QueueSize
open Verif.Platform.Linux.Ahead (fpast_late_run FWell fone_run)
open Verif.Platform.Win32.Ahead (FPast fpast_init)

variable {F Q ω S δ : Type}

/-- What the user may rely on, given what they did (`ops`, with the failures and their effect on the device), what they saw (`log`) and the device in the end (`k'`):
every command that got past the queue was given to the system once and in order; a callback that was called is that of a command that did not fail, was told what the
device answered to that command, and was called once; `call` returned, or raised, what the device answered to its own command; no command that failed was
accepted; nothing was raised but the system's error. -/
def Right (err : PyErr) (parse : Bytes → Py (Option S)) (dev : Device δ) (k : δ) (ops : List (Pipeline.FOp δ)) (log : List (Pipeline.Ev (Told S) (Result S)))
    (k' : δ) : Prop :=
  let cs := Pipeline.tried err ops log
  k' = Pipeline.fafter dev k cs ∧
  (∀ t a, .told t a ∈ log → ∃ c ans, cs[t]? = some (c, none) ∧ (Pipeline.fanswers dev k cs)[t]? = some (some ans) ∧ a = hear parse c ans) ∧
  (log.filterMap Pipeline.toldOf).Nodup ∧
  (∀ t r, .returned t r ∈ log → ∃ c ans, cs[t]? = some (c, none) ∧ (Pipeline.fanswers dev k cs)[t]? = some (some ans) ∧ r = outcome parse c ans) ∧
  (∀ t, .accepted t ∈ log → ∃ c, cs[t]? = some (c, none)) ∧
  ∀ e, .raised e ∈ log → e = err

section
variable {kit : Kit F Q ω S} {parse : Bytes → Py (Option S)} {dev : Device δ} {kern : ω → δ} {effect : F → δ → δ} {err : PyErr} {cmds : Req → Prop} {ok : F → Prop}

theorem Sound.refines (hk : Sound kit parse dev kern effect err cmds ok) (ops : List (Pipeline.Op × Option F))
    (hops : ∀ op ∈ ops, Pipeline.Gives cmds op.1) (hf : ∀ op ∈ ops, ∀ f, op.2 = some f → ok f) (w : ω) :
    (Live.run kit w ops).log = (Latest.frun err dev 1 (hear parse) (outcome parse) (kern w) (ops.map (plain effect))).log ∧
    kern (Live.run kit w ops).os = (Latest.frun err dev 1 (hear parse) (outcome parse) (kern w) (ops.map (plain effect))).dev :=
  have h := agree_run hk ops hops hf _ _ (agree_init (kit := kit) (parse := parse) (kern := kern) w)
  ⟨h.log, h.dev⟩

theorem Sound.right (hk : Sound kit parse dev kern effect err cmds ok) (hne : err ≠ .attribute) (ops : List (Pipeline.Op × Option F))
    (hops : ∀ op ∈ ops, Pipeline.Gives cmds op.1) (hf : ∀ op ∈ ops, ∀ f, op.2 = some f → ok f) (w : ω) :
    Right err parse dev (kern w) (ops.map (plain effect)) (Live.run kit w ops).log (kern (Live.run kit w ops).os) := by
  have h := agree_run hk ops hops hf _ _ (agree_init (kit := kit) (parse := parse) (kern := kern) w)
  have hp := fpast_late_run (err := err) hne (dev := dev) (limit := 1) (hr := hear parse) (rt := outcome parse) (ops.map (plain effect)) [] _
    (fpast_init (kern w))
  have hw := fone_run (err := err) (dev := dev) (hr := hear parse) (rt := outcome parse) (ops.map (plain effect)) (Pipeline.State.init (kern w)) (FWell.init (kern w))
  rw [List.nil_append] at hp
  simp only [Right, Live.run]
  rw [h.dev, h.log]
  refine ⟨hp.device, ?_, (List.nodup_append.1 hp.once).1, ?_, ?_, hw.raised⟩
  · intro t a hm
    obtain ⟨c, ans, ⟨h1, h2⟩, h3⟩ := hp.told t a hm
    exact ⟨c, ans, h1, h2, h3⟩
  · intro t r hm
    obtain ⟨c, ans, ⟨h1, h2⟩, h3⟩ := hp.returned t r hm
    exact ⟨c, ans, h1, h2, h3⟩
  · intro t hm
    obtain ⟨c, ans, h1, -⟩ := hp.accepted t hm
    exact ⟨c, h1⟩

theorem Sound.told (hk : Sound kit parse dev kern effect err cmds ok) (ops : List (Pipeline.Op × Option F))
    (hops : ∀ op ∈ ops, Pipeline.Gives cmds op.1) (hf : ∀ op ∈ ops, ∀ f, op.2 = some f → ok f) (w : ω) (t : Nat)
    (ht : .accepted t ∈ (Live.run kit w (ops ++ [(.wait, none)])).log) : ∃ a, .told t a ∈ (Live.run kit w (ops ++ [(.wait, none)])).log := by
  have h := agree_run hk (ops ++ [(.wait, none)])
    (by intro o ho; rcases List.mem_append.1 ho with ho | ho
        · exact hops o ho
        · rw [List.mem_singleton.1 ho]; trivial)
    (by intro o ho f hof; rcases List.mem_append.1 ho with ho | ho
        · exact hf o ho f hof
        · rw [List.mem_singleton.1 ho] at hof; cases hof) _ _ (agree_init (kit := kit) (parse := parse) (kern := kern) w)
  have hw := fone_run (err := err) (dev := dev) (hr := hear parse) (rt := outcome parse) (ops.map (plain effect)) (Pipeline.State.init (kern w)) (FWell.init (kern w))
  obtain ⟨h1, h2⟩ := hw.wait (dev := dev) (limit := 1) (hr := hear parse) (rt := outcome parse)
  have hrun : Latest.frunFrom err dev 1 (hear parse) (outcome parse) (Pipeline.State.init (kern w)) ((ops ++ [((.wait, none) : Pipeline.Op × Option F)]).map (plain effect)) =
      Latest.step dev 1 (hear parse) (outcome parse)
        (Latest.frunFrom err dev 1 (hear parse) (outcome parse) (Pipeline.State.init (kern w)) (ops.map (plain effect))) .wait := by
    simp only [Latest.frunFrom, List.map_append, List.foldl_append]
    rfl
  simp only [Live.run] at ht ⊢
  rw [h.log, hrun] at ht ⊢
  rcases h1.open' t ht with hx | hx
  · rw [h2] at hx; cases hx
  · exact hx

end

/-! ## Solaris -/

/-- A call of `ioctl` that fails on Solaris: what it did to the device and what it left in memory, wherever. -/
structure SolarisFault (δ : Type) where
  dev : δ → δ
  mem : Mem → Mem

/-- `SolarisCommandExecuter` (solaris.py:187-236): `fcntl.ioctl` raises `IOError` when it fails. -/
def solaris (l : Bool) (parse : Bytes → Py (Option S)) (dev : Device δ) (alloc : Nat → Alloc) (t : Int) : Kit (SolarisFault δ) Handle (Solaris.SolWorld δ) S where
  prep := fun n => Solaris.prepare (lp64 l) (fun _ => alloc n) t
  send := fun f => Solaris.osSend (match f with
    | none => Solaris.uscsiDevice l dev
    | some f => { ioctl := fun _ _ w => (.error .ioError, ⟨f.mem w.mem, f.dev w.kernel⟩) })
  recv := Solaris.osReceive (lp64 l) parse

theorem solaris_sound (l : Bool) (parse : Bytes → Py (Option S)) (dev : Device δ) (hp : Decodes parse dev) (alloc : Nat → Alloc) (t : Int) (ht : 0 ≤ t ∧ t < 2 ^ 15) :
    Sound (solaris l parse dev alloc t) parse dev (fun w => w.world.kernel) SolarisFault.dev .ioError (SolarisFits alloc) (fun _ => True) where
  decodes := hp
  zero := solaris_zero l parse
  one := fun n c hc => solaris_one l parse dev (fun _ => alloc n) t ht 1 (by decide) c ⟨hc.1, hc.2.1, fun _ => hc.2.2 n⟩
  fails := fun n c f w _ _ => ⟨_, rfl, rfl, rfl⟩
  err := by decide

/-- C117 on Solaris (refinement): what the user sees and what becomes of the device is what one place for a command in flight makes of it, each command answered by
the device or failing, with no memory, no blocks and no pointers. -/
theorem C117_solaris_refines (l : Bool) (parse : Bytes → Py (Option S)) (dev : Device δ) (hp : Decodes parse dev) (alloc : Nat → Alloc) (t : Int)
    (ht : 0 ≤ t ∧ t < 2 ^ 15) (ops : List (Pipeline.Op × Option (SolarisFault δ))) (hops : ∀ op ∈ ops, Pipeline.Gives (SolarisFits alloc) op.1) (m : Mem) (k : δ)
    (old : Option Bytes) :
    let live := Live.run (solaris l parse dev alloc t) ⟨⟨m, k⟩, old⟩ ops
    let ideal := Latest.frun .ioError dev 1 (hear parse) (outcome parse) k (ops.map (plain SolarisFault.dev))
    live.log = ideal.log ∧ live.os.world.kernel = ideal.dev :=
  (solaris_sound l parse dev hp alloc t ht).refines ops hops (fun _ _ _ _ => trivial) ⟨⟨m, k⟩, old⟩

/-- C117 on Solaris (no mix-ups): whatever is sent, called and waited for, whatever the device answers and whichever calls of the system fail, with whatever effect. -/
theorem C117_solaris (l : Bool) (parse : Bytes → Py (Option S)) (dev : Device δ) (hp : Decodes parse dev) (alloc : Nat → Alloc) (t : Int) (ht : 0 ≤ t ∧ t < 2 ^ 15)
    (ops : List (Pipeline.Op × Option (SolarisFault δ))) (hops : ∀ op ∈ ops, Pipeline.Gives (SolarisFits alloc) op.1) (m : Mem) (k : δ) (old : Option Bytes) :
    let live := Live.run (solaris l parse dev alloc t) ⟨⟨m, k⟩, old⟩ ops
    Right .ioError parse dev k (ops.map (plain SolarisFault.dev)) live.log live.os.world.kernel :=
  (solaris_sound l parse dev hp alloc t ht).right (by decide) ops hops (fun _ _ _ _ => trivial) ⟨⟨m, k⟩, old⟩

/-- C117 on Solaris (nothing is lost): after a `wait` the callback of every command that was accepted has been called. -/
theorem C117_solaris_told (l : Bool) (parse : Bytes → Py (Option S)) (dev : Device δ) (hp : Decodes parse dev) (alloc : Nat → Alloc) (t : Int)
    (ht : 0 ≤ t ∧ t < 2 ^ 15) (ops : List (Pipeline.Op × Option (SolarisFault δ))) (hops : ∀ op ∈ ops, Pipeline.Gives (SolarisFits alloc) op.1) (m : Mem) (k : δ)
    (old : Option Bytes) :
    let live := Live.run (solaris l parse dev alloc t) ⟨⟨m, k⟩, old⟩ (ops ++ [(.wait, none)])
    ∀ j, .accepted j ∈ live.log → ∃ a, .told j a ∈ live.log :=
  (solaris_sound l parse dev hp alloc t ht).told ops hops (fun _ _ _ _ => trivial) ⟨⟨m, k⟩, old⟩

/-! ## AIX -/

/-- A call of `ioctl` that fails on AIX without the device having answered: what it did to the device, the data that arrived, and the reason told in `einval_arg`. -/
structure AixFault (δ : Type) where
  dev : δ → δ
  failure : Spec.Refused.Failure

/-- `AixCommandExecuter` (aix.py:363-411), with either of the functions `get_ioctl_function` may return. -/
def aix (parse : Bytes → Py (Option S)) (b : Aix.Binding) (dev : Device δ) (alloc : Nat → Alloc) (t : Int) : Kit (AixFault δ) Handle (Aix.AixWorld δ) S where
  prep := fun n => Aix.prepare (lp64 false) (fun _ => alloc n) t
  send := fun f => Aix.osSend (lp64 false) b (match f with
    | none => Aix.scDevice dev
    | some f => Aix.scServed (fun k _ => (.error f.failure, f.dev k)))
  recv := Aix.osReceive (lp64 false) parse

theorem aix_fails (parse : Bytes → Py (Option S)) (dev : Device δ) (alloc : Nat → Alloc) (t : Int) (ht : 0 ≤ t ∧ t < 2 ^ 32) (n : Nat) (c : Req) (f : AixFault δ)
    (w : Aix.AixWorld δ) (hc : AixFits .fcntl alloc c) :
    ((aix parse .fcntl dev alloc t).send (some f) (Aix.create (lp64 false) (alloc n) c t) w).1 = .error .asiOs ∧
    ((aix parse .fcntl dev alloc t).send (some f) (Aix.create (lp64 false) (alloc n) c t) w).2.world.kernel = f.dev w.world.kernel := by
  obtain ⟨hcdb, hd, hfit⟩ := hc
  obtain ⟨hsep, hp⟩ := hfit n
  obtain ⟨⟨m, k⟩, old⟩ := w
  obtain ⟨hv, -⟩ := Aix.C18_aix (alloc n) c t m hcdb hd ht hsep
  have hbu := Aix.create_built false (alloc n) c t
  have hib := install_block (Aix.create (lp64 false) (alloc n) c t) m
  rw [hbu.len, hbu.blockAddr] at hib
  simp only [aix]
  have hsend : ∃ w1, w1.world.kernel = f.dev k ∧
      Aix.osSend (lp64 false) .fcntl (Aix.scServed (fun k _ => (.error f.failure, f.dev k))) (Aix.create (lp64 false) (alloc n) c t)
        { world := { mem := m, kernel := k }, buffer := old } = (.error .asiOs, w1) := by
    rw [Aix.osSend_eq _ _ alloc _ _ n _ hp]
    have hsub : ∃ m', Aix.submitted (Aix.scServed (fun k _ => (.error f.failure, f.dev k))) alloc t c n { world := { mem := m, kernel := k }, buffer := old } =
        (true, { mem := writeMem m' ((alloc n).block + 2) [0, 0], kernel := f.dev k }) := by
      unfold Aix.submitted
      simp only [Aix.scServed]
      rw [if_neg (by decide), hib, hv]
      exact ⟨_, rfl⟩
    obtain ⟨m', hm⟩ := hsub
    rw [hm]
    have hval : scValidity (Aix.blockAfter { mem := writeMem m' ((alloc n).block + 2) [0, 0], kernel := f.dev k } (alloc n)) = 0 := by
      unfold Aix.blockAfter
      simp only
      rw [readMem_writeMem_inside _ _ 2 168 _ (by simp only [List.length_cons, List.length_nil]; omega)]
      exact (Aix.splice_status _ 0 0 (readMem_length _ _ _)).1
    exact ⟨_, rfl, if_pos ⟨rfl, rfl, .inr hval⟩⟩
  obtain ⟨w1, h1, h2⟩ := hsend
  rw [h2]
  exact ⟨rfl, h1⟩

theorem aix_sound (parse : Bytes → Py (Option S)) (dev : Device δ) (hp : Decodes parse dev) (alloc : Nat → Alloc) (t : Int) (ht : 0 ≤ t ∧ t < 2 ^ 32) :
    Sound (aix parse .fcntl dev alloc t) parse dev (fun w => w.world.kernel) AixFault.dev .asiOs (AixFits .fcntl alloc) (fun _ => True) where
  decodes := hp
  zero := aix_zero parse
  one := fun n c hc => aix_one parse .fcntl dev (fun _ => alloc n) t ht 1 (by decide) c ⟨hc.1, hc.2.1, fun _ => hc.2.2 n⟩
  fails := fun n c f w hc _ => ⟨_, rfl, aix_fails parse dev alloc t ht n c f w hc⟩
  err := by decide

/-- C117 on AIX (refinement), where `ioctl` is that of `fcntl`. Missing: libc's, see `C117_aix_false`. -/
theorem C117_aix_refines_partial (parse : Bytes → Py (Option S)) (dev : Device δ) (hp : Decodes parse dev) (alloc : Nat → Alloc) (t : Int)
    (ht : 0 ≤ t ∧ t < 2 ^ 32) (ops : List (Pipeline.Op × Option (AixFault δ))) (hops : ∀ op ∈ ops, Pipeline.Gives (AixFits .fcntl alloc) op.1) (m : Mem) (k : δ)
    (old : Option Bytes) :
    let live := Live.run (aix parse .fcntl dev alloc t) ⟨⟨m, k⟩, old⟩ ops
    let ideal := Latest.frun .asiOs dev 1 (hear parse) (outcome parse) k (ops.map (plain AixFault.dev))
    live.log = ideal.log ∧ live.os.world.kernel = ideal.dev :=
  (aix_sound parse dev hp alloc t ht).refines ops hops (fun _ _ _ _ => trivial) ⟨⟨m, k⟩, old⟩

/-- C117 on AIX (no mix-ups), where `ioctl` is that of `fcntl`. Missing: libc's, see `C117_aix_false`. -/
theorem C117_aix_partial (parse : Bytes → Py (Option S)) (dev : Device δ) (hp : Decodes parse dev) (alloc : Nat → Alloc) (t : Int) (ht : 0 ≤ t ∧ t < 2 ^ 32)
    (ops : List (Pipeline.Op × Option (AixFault δ))) (hops : ∀ op ∈ ops, Pipeline.Gives (AixFits .fcntl alloc) op.1) (m : Mem) (k : δ) (old : Option Bytes) :
    let live := Live.run (aix parse .fcntl dev alloc t) ⟨⟨m, k⟩, old⟩ ops
    Right .asiOs parse dev k (ops.map (plain AixFault.dev)) live.log live.os.world.kernel :=
  (aix_sound parse dev hp alloc t ht).right (by decide) ops hops (fun _ _ _ _ => trivial) ⟨⟨m, k⟩, old⟩

/-- C117 on AIX (nothing is lost), where `ioctl` is that of `fcntl`: after a `wait` the callback of every command that was accepted has been called. -/
theorem C117_aix_told_partial (parse : Bytes → Py (Option S)) (dev : Device δ) (hp : Decodes parse dev) (alloc : Nat → Alloc) (t : Int)
    (ht : 0 ≤ t ∧ t < 2 ^ 32) (ops : List (Pipeline.Op × Option (AixFault δ))) (hops : ∀ op ∈ ops, Pipeline.Gives (AixFits .fcntl alloc) op.1) (m : Mem) (k : δ)
    (old : Option Bytes) :
    let live := Live.run (aix parse .fcntl dev alloc t) ⟨⟨m, k⟩, old⟩ (ops ++ [(.wait, none)])
    ∀ j, .accepted j ∈ live.log → ∃ a, .told j a ∈ live.log :=
  (aix_sound parse dev hp alloc t ht).told ops hops (fun _ _ _ _ => trivial) ⟨⟨m, k⟩, old⟩

/-- C117 fails on AIX with libc's `ioctl`, which the library takes where it can be loaded: a write whose call failed, with whatever effect on the device, is
told to have gone well. -/
theorem C117_aix_false (parse : Bytes → Py (Option S)) (dev : Device δ) (alloc : Nat → Alloc) (t : Int) (ht : 0 ≤ t ∧ t < 2 ^ 32) (cdb data : Bytes)
    (hc : AixFits .libc alloc (.write cdb data)) (f : AixFault δ) (m : Mem) (k : δ) (old : Option Bytes) :
    let live := Live.run (aix parse .libc dev alloc t) ⟨⟨m, k⟩, old⟩ [(.call (.write cdb data), some f)]
    live.log = [.returned 0 (.ok (some none))] ∧ live.os.world.kernel = f.dev k := by
  intro live
  obtain ⟨h1, h2, h3⟩ := hc
  obtain ⟨r1, r2⟩ := Aix.unnoticed (K := Nat) parse (fun k _ => (.error f.failure, f.dev k)) (fun _ => alloc 0) t cdb data (made Handle Nat 1) m k old rfl (by decide) rfl
    h1 h2 ht (h3 0).1 f.failure rfl
  simp only [Aix.aixCall] at r1 r2
  have hstep : live = Live.step (aix parse .libc dev alloc t) (Live.init ⟨⟨m, k⟩, old⟩) (.call (.write cdb data), some f) := rfl
  have hfired : (Executer.call ((aix parse .libc dev alloc t).prep 0 (.write cdb data)) ((aix parse .libc dev alloc t).send (some f)) (aix parse .libc dev alloc t).recv
      (made Handle Nat 1) ⟨⟨m, k⟩, old⟩).fired = [] := by
    rw [call_idle _ _ _ _ _ rfl (by decide) _ (show (aix parse .libc dev alloc t).prep 0 (.write cdb data) 0 = .ok _ from rfl)]
    split
    · rfl
    · split
      · rfl
      · split <;> rfl
  rw [hstep]
  simp only [Live.step, Live.init]
  simp only [show (Executer.call ((aix parse .libc dev alloc t).prep 0 (.write cdb data)) ((aix parse .libc dev alloc t).send (some f)) (aix parse .libc dev alloc t).recv
      (made Handle Nat 1) ⟨⟨m, k⟩, old⟩).out = _ from r1, hfired]
  exact ⟨rfl, r2⟩

/-! ## Cases -/

/-- A device that counts the commands and answers with the number of the block asked for and the count. -/
def counting : Device Nat := fun k q => (⟨0, [], [(q.cdb.drop 3).headD 0, k.toUInt8]⟩, k + 1)

def readBlock (n : UInt8) : Req := .read [8, 0, 0, n, 1, 0] 512

/-- A read that fails after the device executed it, one that does not, one sent too early, and one that is called. -/
def session {F : Type} (f : F) : List (Pipeline.Op × Option F) :=
  [(.send (readBlock 5), some f), (.send (readBlock 6), none), (.send (readBlock 7), none), (.wait, none), (.call (readBlock 8), none)]

theorem reads_solaris (n : UInt8) : SolarisFits (fun _ => somewhere 0) (readBlock n) :=
  ⟨by simp [readBlock, Req.cdb], by simp [readBlock, dataSize], fun _ => ⟨by simp [regions, readBlock, somewhere, dataSize, Req.cdb], by simp [regions, somewhere]⟩⟩

theorem reads_aix (b : Aix.Binding) (n : UInt8) : AixFits b (fun _ => somewhere 0) (readBlock n) :=
  ⟨by simp [readBlock, Req.cdb], by simp [readBlock, dataSize],
    fun _ => ⟨⟨by simp [regions, readBlock, somewhere, dataSize, Req.cdb], by simp [regions, somewhere]⟩, fun _ => by simp [somewhere]⟩⟩

theorem session_gives {F : Type} (f : F) (cmds : Req → Prop) (h : ∀ n, cmds (readBlock n)) : ∀ op ∈ session f, Pipeline.Gives cmds op.1 := by
  intro o ho
  simp [session] at ho
  rcases ho with rfl | rfl | rfl | rfl | rfl <;> simp [Pipeline.Gives, h]

/-- On Solaris; the failing call spoils all the memory there is. -/
example (m : Mem) :
    (Live.run (solaris true (fun _ => .ok (none : Option Unit)) counting (fun _ => somewhere 0) 30) ⟨⟨m, 0⟩, none⟩ (session ⟨(· + 1), fun _ _ => 0xFF⟩)).log =
    [.raised .ioError, .accepted 1, .refused, .told 1 ⟨some (some (padded 512 [6, 1])), none⟩, .waited, .returned 2 (.ok (some (some (padded 512 [8, 2]))))] := by
  have h := agree_run (solaris_sound true (fun _ => .ok (none : Option Unit)) counting (fun _ _ _ => ⟨_, rfl⟩) (fun _ => somewhere 0) 30 (by decide))
    (session ⟨(· + 1), fun _ _ => 0xFF⟩) (session_gives _ _ reads_solaris) (fun _ _ _ _ => trivial) _ _ (agree_init ⟨⟨m, 0⟩, none⟩)
  rw [Live.run, h.log]
  simp [session, readBlock, Latest.frunFrom, plain, Latest.fstep, Latest.step, Latest.waiting, Pipeline.step, Pipeline.failed, Pipeline.State.init, Pipeline.keep, hear, outcome,
    delivered, counting, asked]

/-- On AIX; the failing call leaves a reason and some data. -/
example (m : Mem) :
    (Live.run (aix (fun _ => .ok (none : Option Unit)) .fcntl counting (fun _ => somewhere 0) 30) ⟨⟨m, 0⟩, none⟩ (session ⟨(· + 1), ⟨[1, 2, 3], 4⟩⟩)).log =
    [.raised .asiOs, .accepted 1, .refused, .told 1 ⟨some (some (padded 512 [6, 1])), none⟩, .waited, .returned 2 (.ok (some (some (padded 512 [8, 2]))))] := by
  have h := agree_run (aix_sound (fun _ => .ok (none : Option Unit)) counting (fun _ _ _ => ⟨_, rfl⟩) (fun _ => somewhere 0) 30 (by decide))
    (session ⟨(· + 1), ⟨[1, 2, 3], 4⟩⟩) (session_gives _ _ (reads_aix _)) (fun _ _ _ _ => trivial) _ _ (agree_init ⟨⟨m, 0⟩, none⟩)
  rw [Live.run, h.log]
  simp [session, readBlock, Latest.frunFrom, plain, Latest.fstep, Latest.step, Latest.waiting, Pipeline.step, Pipeline.failed, Pipeline.State.init, Pipeline.keep, hear, outcome,
    delivered, counting, asked]

/-- A write on AIX with libc's `ioctl` that never got to the device. -/
example (m : Mem) :
    (Live.run (aix (fun _ => .ok (none : Option Unit)) .libc counting (fun _ => somewhere 0) 30) ⟨⟨m, 0⟩, none⟩
      [(.call (.write [10, 0, 0, 5, 1, 0] [1, 2, 3]), some ⟨id, ⟨[], 0⟩⟩)]).log = [.returned 0 (.ok (some none))] :=
  (C117_aix_false (fun _ => .ok (none : Option Unit)) counting (fun _ => somewhere 0) 30 (by decide) [10, 0, 0, 5, 1, 0] [1, 2, 3]
    ⟨by decide, by decide, fun _ => ⟨⟨by simp [regions, somewhere, dataSize, Req.cdb], by simp [regions, somewhere]⟩, fun _ => by simp [somewhere]⟩⟩ ⟨id, ⟨[], 0⟩⟩ m 0 none).1

end Verif.Platform.Single
