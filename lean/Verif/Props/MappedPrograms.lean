import Verif.Props.Mapped
import Verif.Props.Refused
/-!
# C111: programs on a disk behind the device mapper (`linux_dm`)

C66 is about lists of commands given in advance and calls of `ioctl` that succeed. Here the commands are chosen by what the ones before returned or raised, and the calls can fail.
-/
set_option linter.unusedSimpArgs false
set_option linter.unusedSectionVars false

namespace Verif.Platform.Linux
open Verif.Executer Verif.Spec Verif.Spec.Refused

variable {S δ K : Type}

/-- `ioctl(SG_IO)` in front of a device, when it can fail. -/
def ioctlServed (l : Bool) (dev : Served δ) : IoctlDriver δ :=
  { ioctl := fun raw w =>
      match sgView l raw w.mem with
      | none => (.error .ioError, w)
      | some req =>
        match (dev w.kernel req).1 with
        | .error f => (.error .ioError, { mem := writeMem w.mem (word l raw 16 8) (f.data.take req.fromDevice), kernel := (dev w.kernel req).2 })
        | .ok _ => (ioctlDevice l (sound dev)).ioctl raw w }

/-- What the caller of one command is told. -/
theorem served_ioctl (l : Bool) (parse : Bytes → Py (Option S)) (dev : Served δ) (alloc : Nat → Alloc) (t : Int) (c : Req)
    (s : St Handle (Option K)) (m : Mem) (k : δ) (old : Option Bytes) (hs : s.pending = []) (hq : 0 < s.maxq) (hidx : s.index < 2 ^ 31)
    (hcdb : c.cdb.length ≤ 255) (hd : dataSize c < 2 ^ 32) (ht : 0 ≤ t ∧ t < 2 ^ 32)
    (hsep : Separate 64 [((alloc s.index).block, 88), ((alloc s.index).sense, 255), ((alloc s.index).cmd, c.cdb.length), ((alloc s.index).data, dataSize c)]) :
    let r := ioctlCall l parse (ioctlServed l dev) alloc t c s { world := { mem := m, kernel := k }, buffer := old }
    r.out = heard .ioError (fun c ans => .ok (some (delivered c ans))) c (dev k (asked c)).1 ∧ r.os.world.kernel = (dev k (asked c)).2 ∧ r.st = { s with index := (s.index + 1) % s.maxq } := by
  intro r
  obtain ⟨hv, -⟩ := C18_linux l (alloc s.index) s.index c t m hidx hcdb hd ht hsep
  have hr : r = call (prepare (lp64 l) alloc t c) (ioctlSend (ioctlServed l dev)) (ioctlReceive (lp64 l) parse) s { world := { mem := m, kernel := k }, buffer := old } := rfl
  have hprep : prepare (lp64 l) alloc t c s.index = .ok _ := rfl
  cases hx : (dev k (asked c)).1 with
  | error f =>
    obtain ⟨w1, h1, h2⟩ : ∃ w1 : IoctlWorld δ, w1.world.kernel = (dev k (asked c)).2 ∧
        ioctlSend (ioctlServed l dev) (create (lp64 l) (alloc s.index) s.index c t) { world := { mem := m, kernel := k }, buffer := old } = (.error .ioError, w1) := by
      simp only [ioctlSend, ioctlServed]
      rw [hv]
      simp only [hx]
      exact ⟨_, rfl, rfl⟩
    rw [call_refused _ _ _ s _ hs hq _ hprep .ioError _ h2] at hr
    rw [hr]
    exact ⟨rfl, h1, rfl⟩
  | ok ans =>
    have hr2 : r = ioctlCall l parse (ioctlDevice l (sound dev)) alloc t c s { world := { mem := m, kernel := k }, buffer := old } := by
      rw [hr]
      exact call_congr _ (ioctlSend (ioctlServed l dev)) (ioctlSend (ioctlDevice l (sound dev))) (ioctlReceive (lp64 l) parse) s _ hs hq _ hprep (by
        simp only [ioctlSend, ioctlServed]
        rw [hv]
        simp only [hx])
    have hsound : sound dev k (asked c) = (ans, (dev k (asked c)).2) := by
      rw [sound, show dev k (asked c) = (.ok ans, (dev k (asked c)).2) from Prod.ext hx rfl]
    obtain ⟨r1, r2, r3⟩ := C66_ioctl l parse (sound dev) alloc t c s m k old hs hq hidx hcdb hd ht hsep
    rw [← hr2] at r1 r2 r3
    rw [hsound] at r1 r2
    exact ⟨r1, r2, r3⟩

end Verif.Platform.Linux

namespace Verif.Commands.Clients.Mapped

open Verif.Executer Verif.Coroutine Verif.ExecuterGen Verif.Platform Verif.Spec Verif.Spec.Cdb Verif.Sense Verif.Spec.Disk Verif.Spec.Refused
open Verif.Spec.Aborted (Again partly)
open Verif.Spec.Patient (patient)
open Verif.Commands.Clients.Refused

variable {K S R T δ σ A A' : Type}

/-- **C111, failed calls.** Any sequence of commands, each executed with `sync_wait(cmd.execute(executer))` on the executer of `linux_dm`, in front of any device, when any of the calls of `ioctl` can fail,
after any effect on the device and on the caller's buffer: the device gets exactly the requests that can be built, in order, each once and as asked; a caller whose call failed gets `OSError`;
every other caller the data of its own command, as if the device had succeeded. -/
theorem C111_calls [DecidableEq K] (l : Bool) (parse : Bytes → Py (Option S)) (dev : Served δ) (alloc : Nat → Alloc) (t : Int) (ht : 0 ≤ t ∧ t < 2 ^ 32)
    (cmds : List (Command Req (Option Bytes) R)) (hok : ∀ c ∈ cmds, ∀ q, c.request = .ok q → LinuxOk alloc q)
    (w : W Handle K (Option Bytes) (DevErr S) (Linux.IoctlWorld δ)) (k : δ) (hw : MappedIdle w.st w.os k) :
    ∃ w', RunAll (machine (T := T) (Linux.ioctlBlocking (lp64 l) parse (Linux.ioctlServed l dev)).plat (Linux.prepare (lp64 l) alloc t)) cmds w (askServed .ioError unlooked dev cmds k).1 w' ∧
      MappedIdle w'.st w'.os (askServed .ioError (unlooked (S := S)) dev cmds k).2 := by
  have hP := (Linux.ioctlBlocking (K := K) (lp64 l) parse (Linux.ioctlServed l dev)).implements (R := R) (T := T) .actual
  rw [Linux.ioctlBlocking_send, Linux.ioctlBlocking_receive] at hP
  refine session hP ?_ cmds hok w k hw
  rintro c s ⟨⟨m, k'⟩, old⟩ k ⟨h1, h2, h3⟩ ⟨hs, hq, hmax, hidx, hk⟩
  simp only at hk
  subst hk
  obtain ⟨r1, r2, r3⟩ := Linux.served_ioctl l parse dev alloc t c s m k' old hs hq (by omega) h1 h2 ht (h3 s.index)
  simp only [Linux.ioctlCall] at r1 r2 r3
  exact ⟨r1, by rw [r3]; exact hs, by rw [r3]; exact hq, by rw [r3]; exact hmax, by rw [r3]; exact Nat.mod_lt _ hq, r2⟩

/-- The operation on the array of bytes, for somebody who is never told of a failure. -/
def OnBlind (g : Geometry) (op : Op) (m : Contents) (r : Reply) (m' : Contents) : Prop := r = op.blind g (op.run g m).1 ∧ m' = (op.run g m).2

/-- The operation on the array of bytes, when it does not fail. -/
def OnGood (g : Geometry) (op : Op) (m : Contents) (r : Reply) (m' : Contents) : Prop := OnArray g op m r m' ∧ ∀ key asc ascq, r ≠ .failed key asc ascq

theorem good_blind {g : Geometry} {op : Op} {m m' : Contents} {r : Reply} (h : OnGood g op m r m') : OnBlind g op m r m' := by
  obtain ⟨h1, h2⟩ := h
  rw [OnArray] at h1
  rw [OnBlind, h1]
  refine ⟨?_, rfl⟩
  cases r with
  | failed k a q => exact absurd rfl (h2 k a q)
  | ready => rfl
  | capacity a b => rfl
  | data a => rfl
  | done => rfl

theorem runs_mono {ω C α : Type} {p : Client σ C α A} {ok : σ → Prop} {e e' : C → ω → α → ω → Prop} (he : ∀ c w r w', e c w r w' → e' c w r w') {s : σ} {w w' : ω} {a : A} {n : Nat}
    (h : p.Runs ok e s w a w' n) : p.Runs ok e' s w a w' n := by
  induction h with
  | done ho hd hn => exact .done ho (he _ _ _ _ hd) hn
  | more ho hd hn _ ih => exact .more ho (he _ _ _ _ hd) hn ih

section direct

variable (L : Lib) (B : Parse.BufLib) (other : Bytes → Py (List (String × Int))) {g : Geometry} (hg : Valid g)
include hg

/-- One command. -/
theorem blind_direct {c : Cmd} {op : Op} (h : Asks g c op) (s : State) :
    (s.faults.headD none = none ∧ ∃ r : Seen, DirectServed .ioError unlooked (unreliable g) (c.command L B other) s r ⟨(op.run g s.contents).2, s.faults.tail⟩ ∧ Shows r (op.blind g (op.run g s.contents).1)) ∨
    ∃ f, s.faults = some f :: s.faults.tail ∧
      ∃ r : Seen, DirectServed .ioError unlooked (unreliable g) (c.command L B other) s r ⟨partly g f.which s.contents (op.run g s.contents).2, s.faults.tail⟩ ∧ isFailure .ioError r = true := by
  obtain ⟨q, hq, hm, hs⟩ := blind_step L B other s.contents hg h
  cases hf : s.faults.headD none with
  | none =>
    refine .inl ⟨rfl, _, ?_, hs⟩
    simp only [DirectServed, askServed, hq, unreliable, hf, heard, hm]
  | some f =>
    have hcons : s.faults = some f :: s.faults.tail := by
      cases h : s.faults with
      | nil => rw [h] at hf; cases hf
      | cons a as => rw [h] at hf; rw [show a = some f from hf]; rfl
    refine .inr ⟨f, hcons, .error (.py .ioError), ?_, by simp [isFailure]⟩
    simp only [DirectServed, askServed, hq, unreliable, hf, heard, hm]
    rfl

/-- The attempts at one command. -/
theorem blind_attempts {p : Client σ Cmd Seen A} {ok : σ → Prop} {s : σ} (ho : ok s) {op : Op} (hask : Asks g (p.ask s) op) : ∀ (fs : List (Option Fault)) (m : Contents), (Again op ∨ ahead fs = 0) →
    ∃ (fs' : List (Option Fault)) (j : Nat) (r : Seen), fs' = fs.drop (j + 1) ∧ ahead fs = j + ahead fs' ∧ Shows r (op.blind g (op.run g m).1) ∧
      (∀ a, p.next s r = .inr a → (on L B other (patient (isFailure .ioError) p)).Runs ok (DirectServed .ioError unlooked (unreliable g)) s ⟨m, fs⟩ a ⟨(op.run g m).2, fs'⟩ (j + 1)) ∧
      ∀ s' a k n, p.next s r = .inl s' → (on L B other (patient (isFailure .ioError) p)).Runs ok (DirectServed .ioError unlooked (unreliable g)) s' ⟨(op.run g m).2, fs'⟩ a k n →
        (on L B other (patient (isFailure .ioError) p)).Runs ok (DirectServed .ioError unlooked (unreliable g)) s ⟨m, fs⟩ a k (n + j + 1) := by
  intro fs
  induction fs with
  | nil =>
    intro m _
    rcases blind_direct L B other hg hask ⟨m, []⟩ with ⟨-, r, h1, h2⟩ | ⟨f, h, -⟩
    · refine ⟨[], 0, r, rfl, rfl, h2, fun a h => .done ho h1 ?_, fun s' a k n h h' => .more ho h1 ?_ h'⟩ <;>
      · show (if isFailure .ioError r then _ else _) = _
        rw [shown_none h2]
        exact h
    · cases h
  | cons x fs ih =>
    intro m ha
    rcases blind_direct L B other hg hask ⟨m, x :: fs⟩ with ⟨hx, r, h1, h2⟩ | ⟨f, hx, r, h1, h2⟩
    · rw [show x = none from hx]
      rw [show x = none from hx] at h1
      refine ⟨fs, 0, r, rfl, by simp [ahead], h2, fun a h => .done ho h1 ?_, fun s' a k n h h' => .more ho h1 ?_ h'⟩ <;>
      · show (if isFailure .ioError r then _ else _) = _
        rw [shown_none h2]
        exact h
    · rw [show x = some f from (List.cons.inj hx).1] at ha ⊢
      rw [show x = some f from (List.cons.inj hx).1] at h1
      have ha : Again op := ha.resolve_right (by simp [ahead])
      obtain ⟨fs', j, r', hdrop, h3, h4, h5, h6⟩ := ih (partly g f.which m (op.run g m).2) (.inl ha)
      rw [Aborted.run_again g f.which m ha] at h4 h5 h6
      have hnext : (on L B other (patient (isFailure .ioError) p)).next s r = .inl s := by
        show (if isFailure .ioError r then _ else _) = _
        rw [h2]; rfl
      refine ⟨fs', j + 1, r', hdrop, ?_, h4, fun a h => .more ho h1 hnext (h5 a h), fun s' a k n h h' => .more ho h1 hnext (h6 s' a k n h h')⟩
      rw [show ahead (some f :: fs) = ahead fs + 1 from by simp [ahead], h3]
      omega

theorem blind_repeated {p : Client σ Cmd Seen A} {q : Client σ Op Reply A'} {ok : σ → Prop} {Rel : A → A' → Prop} (hask : ∀ s, ok s → Asks g (p.ask s) (q.ask s))
    (hnext : ∀ s r reply, ok s → Shows r reply → Along Rel (p.next s r) (q.next s reply)) {s : σ} {m m' : Contents} {a' : A'} {n : Nat}
    (h : q.Runs ok (OnBlind g) s m a' m' n) : ∀ fs : List (Option Fault), ((∀ s, ok s → Again (q.ask s)) ∨ ahead fs = 0) → ∃ a fs' j, Rel a a' ∧ fs' = fs.drop (n + j) ∧ ahead fs = j + ahead fs' ∧
      (on L B other (patient (isFailure .ioError) p)).Runs ok (DirectServed .ioError unlooked (unreliable g)) s ⟨m, fs⟩ a ⟨m', fs'⟩ (n + j) := by
  induction h with
  | @done s m reply m' a' ho hd hn =>
    intro fs ha
    obtain ⟨fs', j, r, h0, h1, h2, h3, -⟩ := blind_attempts L B other hg (p := p) ho (hask s ho) fs m (ha.imp_left fun h => h s ho)
    obtain ⟨rfl, rfl⟩ := hd
    have h5 := hnext s r _ ho h2
    rw [hn] at h5
    cases hp : p.next s r with
    | inl s' => rw [hp] at h5; exact h5.elim
    | inr a => rw [hp] at h5; exact ⟨a, fs', j, h5, by rw [Nat.add_comm]; exact h0, h1, by rw [Nat.add_comm]; exact h3 a hp⟩
  | @more s m reply m' s' a' m'' n ho hd hn _ ih =>
    intro fs ha
    obtain ⟨fs', j, r, h0, h1, h2, -, h3⟩ := blind_attempts L B other hg (p := p) ho (hask s ho) fs m (ha.imp_left fun h => h s ho)
    obtain ⟨rfl, rfl⟩ := hd
    have h5 := hnext s r _ ho h2
    rw [hn] at h5
    cases hp : p.next s r with
    | inl s1 =>
      rw [hp] at h5
      obtain ⟨a, fs'', i, h6, h9, h7, h8⟩ := ih fs' (ha.imp_right fun h => by omega)
      refine ⟨a, fs'', i + j, h6, ?_, by omega, ?_⟩
      · rw [h9, h0, List.drop_drop]
        exact congrArg (fs.drop ·) (by omega)
      rw [← show s1 = s' from h5] at h8
      have := h3 s1 a _ (n + i) hp h8
      rw [show n + 1 + (i + j) = n + i + j + 1 by omega]
      exact this
    | inr a => rw [hp] at h5; exact h5.elim

end direct

/-- **C111, what programs see.** `q` is a program on an array of bytes that is never told of a failure (`OnBlind`); `p` is the same program with command objects of the library, executed on the executer of `linux_dm`, and gives
each again while it ends with `OSError`. Whichever calls of `ioctl` fail, and however far the commands came: when `q` ends, `p` ends, in one way only, with the same result, leaving the same contents; it
executed as many commands more as failed. If calls can fail, `q` does not use COMPARE AND WRITE. -/
theorem C111_told [DecidableEq K] (l : Bool) (alloc : Nat → Alloc) (t : Int) (ht : 0 ≤ t ∧ t < 2 ^ 32) (L : Lib) (B : Parse.BufLib) (other : Bytes → Py (List (String × Int)))
    (g : Geometry) (hg : Valid g) (p : Client σ Cmd Seen A) (q : Client σ Op Reply A') (ok : σ → Prop) (Rel : A → A' → Prop)
    (hask : ∀ s, ok s → Asks g (p.ask s) (q.ask s)) (hfit : ∀ s, ok s → ∀ r, Cdb.request L (p.ask s).cdb = .ok r → LinuxOk alloc r)
    (hnext : ∀ s r reply, ok s → Shows r reply → Along Rel (p.next s r) (q.next s reply))
    (w : W Handle K (Option Bytes) (DevErr Sense) (Linux.IoctlWorld State)) (m m' : Contents) (fs : List (Option Fault)) (hagain : (∀ s, ok s → Again (q.ask s)) ∨ ahead fs = 0)
    (hw : MappedIdle w.st w.os ⟨m, fs⟩) (s : σ) (a' : A') (n : Nat) (h : q.Runs ok (OnBlind g) s m a' m' n) :
    let Runs := fun a w' N => (on L B other (patient (isFailure .ioError) p)).Runs ok (Through (machine (T := T) (Linux.ioctlBlocking (lp64 l) getSense (Linux.ioctlServed l (unreliable g))).plat (Linux.prepare (lp64 l) alloc t))) s w a w' N
    (∃ a w' N, Runs a w' N) ∧ ∀ a w' N, Runs a w' N → Rel a a' ∧ MappedIdle w'.st w'.os ⟨m', fs.drop N⟩ ∧ N + ahead (fs.drop N) = n + ahead fs := by
  intro Runs
  obtain ⟨a, _, j, h1, rfl, h2, h3⟩ := blind_repeated L B other hg hask hnext h fs hagain
  have same := fun a N => same_served (idle := fun w k => MappedIdle w.st w.os k) (p := on L B other (patient (isFailure .ioError) p)) (ok := ok)
    (fun c w k hc hw => C111_calls (T := T) l getSense (unreliable g) alloc t ht [c] (fun c' h => by rw [List.mem_singleton.1 h]; exact hc) w k hw) hfit s w ⟨m, fs⟩ hw a N
  obtain ⟨w', h4, -⟩ := (same a (n + j)).1 ⟨m', fs.drop (n + j)⟩ h3
  refine ⟨⟨a, w', n + j, h4⟩, fun a₁ w₁ N₁ h => ?_⟩
  obtain ⟨k₁, h5, h6⟩ := (same a₁ N₁).2 w₁ h
  obtain ⟨rfl, rfl, rfl⟩ := runs_unique served_unique h3 h5
  exact ⟨h1, h6, by omega⟩

/-- **C111, programs whose operations do not fail**: the same with the array of bytes itself. -/
theorem C111_good [DecidableEq K] (l : Bool) (alloc : Nat → Alloc) (t : Int) (ht : 0 ≤ t ∧ t < 2 ^ 32) (L : Lib) (B : Parse.BufLib) (other : Bytes → Py (List (String × Int)))
    (g : Geometry) (hg : Valid g) (p : Client σ Cmd Seen A) (q : Client σ Op Reply A') (ok : σ → Prop) (Rel : A → A' → Prop)
    (hask : ∀ s, ok s → Asks g (p.ask s) (q.ask s)) (hfit : ∀ s, ok s → ∀ r, Cdb.request L (p.ask s).cdb = .ok r → LinuxOk alloc r)
    (hnext : ∀ s r reply, ok s → Shows r reply → Along Rel (p.next s r) (q.next s reply))
    (w : W Handle K (Option Bytes) (DevErr Sense) (Linux.IoctlWorld State)) (m m' : Contents) (fs : List (Option Fault)) (hagain : (∀ s, ok s → Again (q.ask s)) ∨ ahead fs = 0)
    (hw : MappedIdle w.st w.os ⟨m, fs⟩) (s : σ) (a' : A') (n : Nat) (h : q.Runs ok (OnGood g) s m a' m' n) :
    let Runs := fun a w' N => (on L B other (patient (isFailure .ioError) p)).Runs ok (Through (machine (T := T) (Linux.ioctlBlocking (lp64 l) getSense (Linux.ioctlServed l (unreliable g))).plat (Linux.prepare (lp64 l) alloc t))) s w a w' N
    (∃ a w' N, Runs a w' N) ∧ ∀ a w' N, Runs a w' N → Rel a a' ∧ MappedIdle w'.st w'.os ⟨m', fs.drop N⟩ ∧ N + ahead (fs.drop N) = n + ahead fs :=
  C111_told l alloc t ht L B other g hg p q ok Rel hask hfit hnext w m m' fs hagain hw s a' n (runs_mono (fun _ _ _ _ => good_blind) h)

/-! ## A program that relies on being told -/

def dm (m : Contents) (fs : List (Option Fault)) : W Handle Unit (Option Bytes) (DevErr Sense) (Linux.IoctlWorld State) :=
  { st := { pending := [], index := 0, maxq := 1 }, os := { world := { mem := fun _ => 0xEE, kernel := ⟨m, fs⟩ }, buffer := none }, fired := [], box := fun _ => [] }

theorem dm_idle (m : Contents) (fs : List (Option Fault)) : MappedIdle (dm m fs).st (dm m fs).os ⟨m, fs⟩ := ⟨rfl, by simp [dm], by simp [dm], by simp [dm], rfl⟩

abbrev host := machine (R := Result) (T := Unit) (Linux.ioctlBlocking (K := Unit) (lp64 true) getSense (Linux.ioctlServed true (unreliable ⟨512, 1000⟩))).plat (Linux.prepare (lp64 true) lockAlloc 30000)

theorem search_fits {L : Lib} {lba : Nat} (h : lba < 2 ^ 64) {q : Req} (hq : Cdb.request L (search.ask lba).cdb = .ok q) : LinuxOk lockAlloc q := by
  cases (Cdb.C26_read16 L lba 1 512 ⟨by omega, by omega⟩ ⟨by omega, by omega⟩).symm.trans hq
  exact ⟨by simp [Req.cdb, Spec.Cdb.read16, cdb16], by simp [dataSize], fun _ => ⟨by simp [dataSize, Req.cdb, Spec.Cdb.read16, cdb16, lockAlloc], by simp [lockAlloc]⟩⟩

theorem zero_data (lba : Nat) : (Op.read lba 1).blind ⟨512, 1000⟩ ((Op.read lba 1).run ⟨512, 1000⟩ fun _ => 0).1 = .data (zeros 512) := by
  have h : ∀ a n, readAt (fun _ => 0) a n = zeros n := fun a n => by
    apply List.ext_getElem
    · rw [readAt_length, zeros_length]
    · intro i _ _
      simp only [readAt, zeros, List.getElem_map, List.getElem_replicate]
  simp only [Op.run, h]
  split
  · next h => simp only [Op.blind, Nat.one_mul]
  · simp only [Op.blind, Nat.one_mul]

theorem zero_state (lba : Nat) : ((Op.read lba 1).run ⟨512, 1000⟩ fun _ => 0).2 = fun _ => 0 := by
  simp only [Op.run]; split <;> rfl

/-- On the array, the program that looks for a block that does not begin with a zero ends at the end of a disk of zeros, with the error it gets there. -/
theorem search_array : ∀ d lba, lba + d = 1000 → searchArray.Runs (· < 2 ^ 64) (OnArray ⟨512, 1000⟩) lba (fun _ => 0) none (fun _ => 0) (d + 1)
  | 0, lba, h => by
    refine .done (r := .failed 5 0x21 0) (show lba < 2 ^ 64 by omega) ?_ rfl
    simp only [searchArray, OnArray, Op.run]
    rw [if_neg (by show ¬ lba + 1 ≤ 1000; omega)]
  | d + 1, lba, h => by
    refine .more (r := .data (0 :: zeros 511)) (w' := fun _ => 0) (show lba < 2 ^ 64 by omega) ?_ rfl (search_array d (lba + 1) (by omega))
    have := zero_data lba
    have h2 := zero_state lba
    simp only [searchArray, OnArray]
    simp only [Op.run] at this h2 ⊢
    rw [if_pos (by show lba + 1 ≤ 1000; omega)] at this ⊢
    simp only [Op.blind] at this
    rw [this]
    rfl

/-- **Programs that rely on being told of failures are not right on `linux_dm`**: the same program executed there does not end while there are addresses a
READ(16) can be made for, because blocks after the end of the disk are zeros to it. (On the other platforms it ends after
1001 commands, `C98_disk_linux` with `search_array`.) -/
theorem C111_search_false (L : Lib) (B : Parse.BufLib) (other : Bytes → Py (List (String × Int))) :
    searchArray.Runs (· < 2 ^ 64) (OnArray ⟨512, 1000⟩) 0 (fun _ => 0) none (fun _ => 0) 1001 ∧
    ¬ ∃ a w' n, (on L B other search).Runs (· < 2 ^ 64) (Through host) 0 (dm (fun _ => 0) []) a w' n := by
  refine ⟨search_array 1000 0 rfl, ?_⟩
  rintro ⟨a, w', n, h⟩
  obtain ⟨k', h, -⟩ := (same_served (idle := fun w k => MappedIdle w.st w.os k)
    (fun c w k hc hw => C111_calls (K := Unit) (T := Unit) (R := Result) true getSense (unreliable ⟨512, 1000⟩) lockAlloc 30000 (by decide) [c] (fun c' h => by rw [List.mem_singleton.1 h]; exact hc) w k hw)
    (p := on L B other search) (ok := fun lba => lba < 2 ^ 64) (fun s hs q hq => search_fits hs hq) 0 (dm (fun _ => 0) []) (State.mk (fun _ => 0) []) (dm_idle _ _) a n).2 w' h
  have never : ∀ (s : Nat) (k : State) (a : Option Nat) (k' : State) (n : Nat), (on L B other search).Runs (· < 2 ^ 64) (DirectServed .ioError unlooked (unreliable ⟨512, 1000⟩)) s k a k' n → k = ⟨fun _ => 0, []⟩ → False := by
    intro s k a k' n h
    have read : ∀ (s : Nat) r k', s < 2 ^ 64 → DirectServed .ioError unlooked (unreliable ⟨512, 1000⟩) ((search.ask s).command L B other) ⟨fun _ => 0, []⟩ r k' → k' = ⟨fun _ => 0, []⟩ ∧ search.next s r = .inl (s + 1) := by
      intro s r k' hs he
      rcases blind_direct (g := ⟨512, 1000⟩) L B other ⟨by decide, by decide⟩ (c := search.ask s) (op := .read s 1) (.read16 hs (by decide)) ⟨fun _ => 0, []⟩ with ⟨-, r', h1, h2⟩ | ⟨f, h, -⟩
      · obtain ⟨rfl, rfl⟩ := served_unique _ _ _ _ _ _ he h1
        refine ⟨by rw [zero_state]; rfl, ?_⟩
        rw [zero_data] at h2
        rw [show r = .ok (some (.obj (.raw (some (0 :: zeros 511))))) from h2]
        rfl
      · cases h
    induction h with
    | @done s k r k' a ho hd hn =>
      rintro rfl
      have := (read s r _ ho hd).2
      rw [show search.next s r = .inr a from hn] at this
      cases this
    | @more s k r k' s' a k'' n ho hd hn _ ih =>
      rintro rfl
      exact ih (read s r _ ho hd).1
  exact never _ _ _ _ _ h rfl

/-! The hypotheses of `C111_told` and `C111_good` are met: `writer` of C108 asks whether the disk is ready, then writes two blocks; any calls may fail. -/

theorem writes_good (m : Contents) (data : Bytes) (hd : data.length = 2 * 512) : (writes data).Runs (fun _ => True) (OnGood ⟨512, 1000⟩) false m .done (writeAt m (7 * 512) data) 2 := by
  refine .more (s' := true) (w' := m) (r := .ready) trivial ⟨show Op.run ⟨512, 1000⟩ m .ready = _ from rfl, nofun⟩ rfl (.done (r := .done) trivial ⟨?_, nofun⟩ rfl)
  simp only [writes, if_true, OnArray, Op.run, hd, Nat.reduceMul, Nat.reduceDiv, Nat.reduceAdd, Nat.reduceLeDiff]

theorem writer_fits (L : Lib) (data : Bytes) (hd : data.length = 2 * 512) (b : Bool) (q : Req) (hq : Cdb.request L ((writer data).ask b).cdb = .ok q) : LinuxOk lockAlloc q := by
  cases b with
  | true =>
    obtain ⟨-, _, -, -, -, rfl⟩ := (Cdb.C28_write16 L 7 data 512 q).1 hq
    exact ⟨by simp [Req.cdb, Spec.Cdb.write16, cdb16], by simp [dataSize, hd], fun _ => ⟨by simp [dataSize, Req.cdb, Spec.Cdb.write16, cdb16, lockAlloc, hd], by simp [lockAlloc]⟩⟩
  | false =>
    cases (Cdb.C36_test_unit_ready L).symm.trans hq
    exact ⟨by simp [Req.cdb, Spec.Cdb.testUnitReady, cdb6], by simp [dataSize], fun _ => ⟨by simp [dataSize, Req.cdb, Spec.Cdb.testUnitReady, cdb6, lockAlloc], by simp [lockAlloc]⟩⟩

example (L : Lib) (B : Parse.BufLib) (other : Bytes → Py (List (String × Int))) (m : Contents) (data : Bytes) (hd : data.length = 2 * 512) :
    ∃ r w', (on L B other (patient (isFailure .ioError) (writer data))).Runs (fun _ => True) (Through host) false (dm m [none, some noMemory, some interrupted, some lost]) r w' 5 ∧ Shows r .done ∧
      MappedIdle w'.st w'.os ⟨writeAt m (7 * 512) data, []⟩ := by
  obtain ⟨⟨a, w', N, h⟩, hall⟩ := C111_good (K := Unit) (T := Unit) true lockAlloc 30000 (by decide) L B other ⟨512, 1000⟩ ⟨by decide, by decide⟩ (writer data) (writes data) (fun _ => True) Shows
    (fun b _ => writer_asks data hd b) (fun b _ q hq => writer_fits L data hd b q hq) (fun b r reply _ hs => writer_next data b r reply hs)
    (dm m [none, some noMemory, some interrupted, some lost]) m (writeAt m (7 * 512) data) [none, some noMemory, some interrupted, some lost]
    (.inl fun b _ => by cases b <;> trivial) (dm_idle _ _) false .done 2 (writes_good m data hd)
  obtain ⟨h1, h2, h3⟩ := hall a w' N h
  have hN : N = 5 := by
    rcases N with _ | _ | _ | _ | _ | N <;> simp [ahead] at h3 ⊢ <;> omega
  subst hN
  exact ⟨a, w', h, h1, h2⟩

end Verif.Commands.Clients.Mapped
