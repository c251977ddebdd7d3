import Verif.Spec.Client
import Verif.Props.Disk
import Verif.Props.Reservations
/-!
# C98: programs that decide what to do next by what they were told

The theorems about sessions (C51, C59, C65) are about lists of commands given in advance. Here the commands are chosen one by one, by a program that looks at the
results: whatever the program, using the library is using the device; and a loop that asks for the registered keys until they fit ends.
-/
set_option linter.unusedSimpArgs false
set_option linter.unusedSectionVars false

namespace Verif.Commands.Clients

open Verif.Executer Verif.Coroutine Verif.ExecuterGen Verif.Platform Verif.Spec Verif.Spec.Cdb Verif.Sense

variable {C Q K D E R Gp T ω δ σ A : Type}

/-- Executing a command through the library: `sync_wait(cmd.execute(executer))`. -/
def Through (M : Machine (Frame C Q K D R Gp) (W Q K D E ω) (Val D E R) (Exn E) T) (c : Command C D R) (w : W Q K D E ω)
    (r : Except (Exn E) (Option (Val D E R))) (w' : W Q K D E ω) : Prop :=
  RunAll M [c] w [r] w'

/-- Giving it to the device directly. -/
def Direct (dev : Device δ) (out : Req → Answer → Except (Exn E) (Option D)) (c : Command Req D R) (k : δ) (r : Except (Exn E) (Option (Val D E R)))
    (k' : δ) : Prop :=
  askAll dev out [c] k = ([r], k')

/-- A platform that carries one command at a time. -/
def Serves (M : Machine (Frame Req Q K D R Gp) (W Q K D E ω) (Val D E R) (Exn E) T) (dev : Device δ) (out : Req → Answer → Except (Exn E) (Option D))
    (fits : Req → Prop) (idle : W Q K D E ω → δ → Prop) : Prop :=
  ∀ (c : Command Req D R) w k, (∀ q, c.request = .ok q → fits q) → idle w k →
    ∃ w', RunAll M [c] w (askAll dev out [c] k).1 w' ∧ idle w' (askAll dev out [c] k).2

theorem ask_one (dev : Device δ) (out : Req → Answer → Except (Exn E) (Option D)) (c : Command Req D R) (k : δ) :
    ∃ r, (askAll dev out [c] k).1 = [r] := by
  unfold askAll
  split <;> exact ⟨_, rfl⟩

section

variable [DecidableEq K] {M : Machine (Frame Req Q K D R Gp) (W Q K D E ω) (Val D E R) (Exn E) T} {dev : Device δ} {out : Req → Answer → Except (Exn E) (Option D)}
  {fits : Req → Prop} {idle : W Q K D E ω → δ → Prop} {p : Client σ (Command Req D R) (Except (Exn E) (Option (Val D E R))) A} {ok : σ → Prop}

theorem through_direct (hS : Serves M dev out fits idle) (hok : ∀ s, ok s → ∀ q, (p.ask s).request = .ok q → fits q) {s : σ} {k k' : δ} {a : A} {n : Nat}
    (h : p.Runs ok (Direct dev out) s k a k' n) (w : W Q K D E ω) (hw : idle w k) : ∃ w', p.Runs ok (Through M) s w a w' n ∧ idle w' k' := by
  induction h generalizing w with
  | @done s k r k' a ho he hn =>
    obtain ⟨w', h1, h2⟩ := hS (p.ask s) w k (hok s ho) hw
    rw [Direct] at he
    rw [he] at h1 h2
    exact ⟨w', .done ho h1 hn, h2⟩
  | @more s k r k' s' a k'' n ho he hn _ ih =>
    obtain ⟨w', h1, h2⟩ := hS (p.ask s) w k (hok s ho) hw
    rw [Direct] at he
    rw [he] at h1 h2
    obtain ⟨w'', h3, h4⟩ := ih w' h2
    exact ⟨w'', .more ho h1 hn h3, h4⟩

theorem direct_through (hS : Serves M dev out fits idle) (hok : ∀ s, ok s → ∀ q, (p.ask s).request = .ok q → fits q) {s : σ} {w w' : W Q K D E ω} {a : A} {n : Nat}
    (h : p.Runs ok (Through M) s w a w' n) (k : δ) (hw : idle w k) : ∃ k', p.Runs ok (Direct dev out) s k a k' n ∧ idle w' k' := by
  induction h generalizing k with
  | @done s w r w' a ho he hn =>
    obtain ⟨w1, h1, h2⟩ := hS (p.ask s) w k (hok s ho) hw
    obtain ⟨e1, e2⟩ := runAll_unique he h1
    exact ⟨_, .done ho (Prod.ext e1 rfl) hn, by rw [← e2]; exact h2⟩
  | @more s w r w' s' a w'' n ho he hn _ ih =>
    obtain ⟨w1, h1, h2⟩ := hS (p.ask s) w k (hok s ho) hw
    obtain ⟨e1, e2⟩ := runAll_unique he h1
    obtain ⟨k'', h3, h4⟩ := ih _ (by rw [← e2]; exact h2)
    exact ⟨k'', .more ho (Prod.ext e1 rfl) hn h3, h4⟩

/-- Using the library is using the device. -/
theorem same (hS : Serves M dev out fits idle) (hok : ∀ s, ok s → ∀ q, (p.ask s).request = .ok q → fits q) (s : σ) (w : W Q K D E ω) (k : δ) (hw : idle w k)
    (a : A) (n : Nat) :
    (∀ k', p.Runs ok (Direct dev out) s k a k' n → ∃ w', p.Runs ok (Through M) s w a w' n ∧ idle w' k') ∧
    (∀ w', p.Runs ok (Through M) s w a w' n → ∃ k', p.Runs ok (Direct dev out) s k a k' n ∧ idle w' k') :=
  ⟨fun _ h => through_direct hS hok h w hw, fun _ h => direct_through hS hok h k hw⟩

end

/-! ## The platforms -/

section

variable [DecidableEq K] {S : Type}

theorem serves_linux (l : Bool) (parse : Bytes → Py (Option S)) (dev : Device δ) (alloc : Nat → Alloc) (t : Int) (ht : 0 ≤ t ∧ t < 2 ^ 32)
    (hparse : ∀ k q, (dev k q).1.status.toNat / 2 % 2 = 1 → ∃ sn, parse (padded 255 (dev k q).1.sense) = .ok sn) :
    Serves (R := R) (machine (K := K) (T := T) (Linux.sgBlocking (lp64 l) parse (Linux.sgDevice l dev)).plat (Linux.prepare (lp64 l) alloc t)) dev
      (Platform.outcome parse) (LinuxOk alloc) (fun w k => LinuxIdle w.st w.os k) :=
  fun c w k hc hw => C51_linux l parse dev alloc t ht hparse [c] (fun c' h => by rw [List.mem_singleton.1 h]; exact hc) w k hw

theorem serves_solaris (l : Bool) (parse : Bytes → Py (Option S)) (dev : Device δ) (alloc : Nat → Alloc) (t : Int) (ht : 0 ≤ t ∧ t < 2 ^ 15)
    (hparse : ∀ k q, (dev k q).1.status.toNat / 2 % 2 = 1 → ∃ sn, parse (padded 255 (dev k q).1.sense) = .ok sn) :
    Serves (R := R) (machine (K := K) (T := T) (Solaris.solBlocking (lp64 l) parse (Solaris.uscsiDevice l dev)).plat (Solaris.prepare (lp64 l) alloc t)) dev
      (Platform.outcome parse) (SolarisOk alloc) (fun w k => SolarisIdle w.st w.os k) :=
  fun c w k hc hw => C51_solaris l parse dev alloc t ht hparse [c] (fun c' h => by rw [List.mem_singleton.1 h]; exact hc) w k hw

theorem serves_aix (parse : Bytes → Py (Option S)) (b : Aix.Binding) (dev : Device δ) (alloc : Nat → Alloc) (t : Int) (ht : 0 ≤ t ∧ t < 2 ^ 32)
    (hparse : ∀ k q, (dev k q).1.status.toNat / 2 % 2 = 1 → ∃ sn, parse (padded 255 (dev k q).1.sense) = .ok sn) :
    Serves (R := R) (machine (K := K) (T := T) (Aix.aixBlocking (lp64 false) parse b (Aix.scDevice dev)).plat (Aix.prepare (lp64 false) alloc t)) dev
      (Platform.outcome parse) (AixOk b alloc) (fun w k => AixIdle w.st w.os k) :=
  fun c w k hc hw => C51_aix parse b dev alloc t ht hparse [c] (fun c' h => by rw [List.mem_singleton.1 h]; exact hc) w k hw

theorem serves_windows (b : Bool) (parse : Bytes → Py (Option S)) (dev : Device δ) (alloc : Nat → Alloc)
    (hparse : ∀ k q, (dev k q).1.status = 2 → ∃ sn, parse (padded 255 (dev k q).1.sense) = .ok sn) :
    Serves (R := R) (machine (K := K) (T := T) (Win32.winPlat (Win32.W b) parse (Win32.sptDevice b dev)) (Win32.prepare (Win32.W b) alloc)) dev
      (Win32.winOutcome parse) (WindowsOk b alloc) (fun w k => WindowsIdle w.st w.os k) :=
  fun c w k hc hw => C51_windows b parse dev alloc hparse [c] (fun c' h => by rw [List.mem_singleton.1 h]; exact hc) w k hw

end

/-- **C98 on Linux.** Whatever a program does with what its commands return and raise: used through the sg executer it ends exactly when it ends using the
device itself, after as many commands, with the same result, leaving the device in the same state. -/
theorem C98_linux {S : Type} [DecidableEq K] (l : Bool) (parse : Bytes → Py (Option S)) (dev : Device δ) (alloc : Nat → Alloc) (t : Int) (ht : 0 ≤ t ∧ t < 2 ^ 32)
    (hparse : ∀ k q, (dev k q).1.status.toNat / 2 % 2 = 1 → ∃ sn, parse (padded 255 (dev k q).1.sense) = .ok sn)
    (p : Client σ (Command Req (Option Bytes) R) (Except (Exn (DevErr S)) (Option (Val (Option Bytes) (DevErr S) R))) A) (ok : σ → Prop)
    (hok : ∀ s, ok s → ∀ q, (p.ask s).request = .ok q → LinuxOk alloc q) (s : σ)
    (w : W Handle K (Option Bytes) (DevErr S) (World (δ × Option Bytes))) (k : δ) (hw : LinuxIdle w.st w.os k) (a : A) (n : Nat) :
    let M := machine (T := T) (Linux.sgBlocking (lp64 l) parse (Linux.sgDevice l dev)).plat (Linux.prepare (lp64 l) alloc t)
    (∀ k', p.Runs ok (Direct dev (Platform.outcome parse)) s k a k' n → ∃ w', p.Runs ok (Through M) s w a w' n ∧ LinuxIdle w'.st w'.os k') ∧
    (∀ w', p.Runs ok (Through M) s w a w' n → ∃ k', p.Runs ok (Direct dev (Platform.outcome parse)) s k a k' n ∧ LinuxIdle w'.st w'.os k') :=
  same (serves_linux l parse dev alloc t ht hparse) hok s w k hw a n

/-- **C98 on Solaris.** -/
theorem C98_solaris {S : Type} [DecidableEq K] (l : Bool) (parse : Bytes → Py (Option S)) (dev : Device δ) (alloc : Nat → Alloc) (t : Int) (ht : 0 ≤ t ∧ t < 2 ^ 15)
    (hparse : ∀ k q, (dev k q).1.status.toNat / 2 % 2 = 1 → ∃ sn, parse (padded 255 (dev k q).1.sense) = .ok sn)
    (p : Client σ (Command Req (Option Bytes) R) (Except (Exn (DevErr S)) (Option (Val (Option Bytes) (DevErr S) R))) A) (ok : σ → Prop)
    (hok : ∀ s, ok s → ∀ q, (p.ask s).request = .ok q → SolarisOk alloc q) (s : σ)
    (w : W Handle K (Option Bytes) (DevErr S) (Solaris.SolWorld δ)) (k : δ) (hw : SolarisIdle w.st w.os k) (a : A) (n : Nat) :
    let M := machine (T := T) (Solaris.solBlocking (lp64 l) parse (Solaris.uscsiDevice l dev)).plat (Solaris.prepare (lp64 l) alloc t)
    (∀ k', p.Runs ok (Direct dev (Platform.outcome parse)) s k a k' n → ∃ w', p.Runs ok (Through M) s w a w' n ∧ SolarisIdle w'.st w'.os k') ∧
    (∀ w', p.Runs ok (Through M) s w a w' n → ∃ k', p.Runs ok (Direct dev (Platform.outcome parse)) s k a k' n ∧ SolarisIdle w'.st w'.os k') :=
  same (serves_solaris l parse dev alloc t ht hparse) hok s w k hw a n

/-- **C98 on AIX**, with either ioctl binding. -/
theorem C98_aix {S : Type} [DecidableEq K] (parse : Bytes → Py (Option S)) (b : Aix.Binding) (dev : Device δ) (alloc : Nat → Alloc) (t : Int)
    (ht : 0 ≤ t ∧ t < 2 ^ 32) (hparse : ∀ k q, (dev k q).1.status.toNat / 2 % 2 = 1 → ∃ sn, parse (padded 255 (dev k q).1.sense) = .ok sn)
    (p : Client σ (Command Req (Option Bytes) R) (Except (Exn (DevErr S)) (Option (Val (Option Bytes) (DevErr S) R))) A) (ok : σ → Prop)
    (hok : ∀ s, ok s → ∀ q, (p.ask s).request = .ok q → AixOk b alloc q) (s : σ)
    (w : W Handle K (Option Bytes) (DevErr S) (Aix.AixWorld δ)) (k : δ) (hw : AixIdle w.st w.os k) (a : A) (n : Nat) :
    let M := machine (T := T) (Aix.aixBlocking (lp64 false) parse b (Aix.scDevice dev)).plat (Aix.prepare (lp64 false) alloc t)
    (∀ k', p.Runs ok (Direct dev (Platform.outcome parse)) s k a k' n → ∃ w', p.Runs ok (Through M) s w a w' n ∧ AixIdle w'.st w'.os k') ∧
    (∀ w', p.Runs ok (Through M) s w a w' n → ∃ k', p.Runs ok (Direct dev (Platform.outcome parse)) s k a k' n ∧ AixIdle w'.st w'.os k') :=
  same (serves_aix parse b dev alloc t ht hparse) hok s w k hw a n

/-- **C98 on Windows**, 32 and 64 bit. -/
theorem C98_windows {S : Type} [DecidableEq K] (b : Bool) (parse : Bytes → Py (Option S)) (dev : Device δ) (alloc : Nat → Alloc)
    (hparse : ∀ k q, (dev k q).1.status = 2 → ∃ sn, parse (padded 255 (dev k q).1.sense) = .ok sn)
    (p : Client σ (Command Req (Option Bytes) R) (Except (Exn (DevErr S)) (Option (Val (Option Bytes) (DevErr S) R))) A) (ok : σ → Prop)
    (hok : ∀ s, ok s → ∀ q, (p.ask s).request = .ok q → WindowsOk b alloc q) (s : σ)
    (w : W Win32.Spt K (Option Bytes) (DevErr S) (Win32.WinWorld δ)) (k : δ) (hw : WindowsIdle w.st w.os k) (a : A) (n : Nat) :
    let M := machine (T := T) (Win32.winPlat (Win32.W b) parse (Win32.sptDevice b dev)) (Win32.prepare (Win32.W b) alloc)
    (∀ k', p.Runs ok (Direct dev (Win32.winOutcome parse)) s k a k' n → ∃ w', p.Runs ok (Through M) s w a w' n ∧ WindowsIdle w'.st w'.os k') ∧
    (∀ w', p.Runs ok (Through M) s w a w' n → ∃ k', p.Runs ok (Direct dev (Win32.winOutcome parse)) s k a k' n ∧ WindowsIdle w'.st w'.os k') :=
  same (serves_windows b parse dev alloc hparse) hok s w k hw a n

/-! ## Programs that use a disk, or reservations -/

/-- What a command object of the library returns or raises. -/
abbrev Seen := Except (Exn (DevErr Sense)) (Option (Val (Option Bytes) (DevErr Sense) Result))

/-- The program with its command objects. -/
def on (L : Lib) (B : Parse.BufLib) (other : Bytes → Py (List (String × Int))) (p : Client σ Cmd Seen A) :
    Client σ (Command Req (Option Bytes) Result) Seen A :=
  { ask := fun s => (p.ask s).command L B other, next := p.next }

theorem in_step {D E R A' Op Reply : Type} {dev : Device δ} {out : Req → Answer → Except (Exn E) (Option D)}
    {p : Client σ (Command Req D R) (Except (Exn E) (Option (Val D E R))) A} {ok : σ → Prop} {q : Client σ Op Reply A'}
    {does : Op → δ → Reply → δ → Prop} {Rel : A → A' → Prop} (Inv : δ → Prop)
    (hstep : ∀ s k reply k', ok s → Inv k → does (q.ask s) k reply k' →
      Inv k' ∧ ∃ r, Direct dev out (p.ask s) k r k' ∧ Along Rel (p.next s r) (q.next s reply))
    {s : σ} {k k' : δ} {a' : A'} {n : Nat} (h : q.Runs ok does s k a' k' n) (hk : Inv k) :
    ∃ a, Rel a a' ∧ p.Runs ok (Direct dev out) s k a k' n := by
  induction h with
  | @done s k reply k' a' ho hd hn =>
    obtain ⟨-, r, h1, h2⟩ := hstep _ _ _ _ ho hk hd
    rw [hn] at h2
    cases hp : p.next s r with
    | inl s' => rw [hp] at h2; exact h2.elim
    | inr a => rw [hp] at h2; exact ⟨a, h2, .done ho h1 hp⟩
  | @more s k reply k' s' a' k'' n ho hd hn _ ih =>
    obtain ⟨hi, r, h1, h2⟩ := hstep _ _ _ _ ho hk hd
    rw [hn] at h2
    obtain ⟨a, h3, h4⟩ := ih hi
    cases hp : p.next s r with
    | inl s1 =>
      rw [hp] at h2
      rw [show s1 = s' from h2] at hp
      exact ⟨a, h3, .more ho h1 hp h4⟩
    | inr _ => rw [hp] at h2; exact h2.elim

section disk

open Verif.Spec.Disk

variable {A' : Type}

/-- The operation on the array of bytes itself. -/
def OnArray (g : Geometry) (op : Op) (m : Contents) (r : Reply) (m' : Contents) : Prop := op.run g m = (r, m')

theorem disk_direct {out : Req → Answer → Except (Exn (DevErr Sense)) (Option (Option Bytes))} (L : Lib) (B : Parse.BufLib)
    (other : Bytes → Py (List (String × Int))) {g : Geometry} (hg : Valid g) (hD : Delivers out) {p : Client σ Cmd Seen A} {q : Client σ Op Reply A'}
    {ok : σ → Prop} {Rel : A → A' → Prop} (hask : ∀ s, ok s → Asks g (p.ask s) (q.ask s))
    (hnext : ∀ s r reply, ok s → Shows r reply → Along Rel (p.next s r) (q.next s reply)) {s : σ} {m m' : Contents} {a' : A'} {n : Nat}
    (h : q.Runs ok (OnArray g) s m a' m' n) : ∃ a, Rel a a' ∧ (on L B other p).Runs ok (Direct (disk g) out) s m a m' n := by
  refine in_step (Inv := fun _ => True) (fun s m reply m' ho _ hd => ⟨trivial, ?_⟩) h trivial
  obtain ⟨q', hq, hm, hs⟩ := step L B other m hg hD (hask s ho)
  rw [OnArray] at hd
  rw [hd] at hm hs
  refine ⟨_, ?_, hnext s _ reply ho hs⟩
  show askAll (disk g) out [(p.ask s).command L B other] m = _
  simp only [askAll, hq, hm]

/-- **C98, disks on Linux.** -/
theorem C98_disk_linux [DecidableEq K] (l : Bool) (alloc : Nat → Alloc) (t : Int) (ht : 0 ≤ t ∧ t < 2 ^ 32) (L : Lib) (B : Parse.BufLib) (other : Bytes → Py (List (String × Int)))
    (g : Geometry) (hg : Valid g) (p : Client σ Cmd Seen A) (q : Client σ Op Reply A') (ok : σ → Prop) (Rel : A → A' → Prop)
    (hask : ∀ s, ok s → Asks g (p.ask s) (q.ask s)) (hfit : ∀ s, ok s → ∀ r, Cdb.request L (p.ask s).cdb = .ok r → LinuxOk alloc r)
    (hnext : ∀ s r reply, ok s → Shows r reply → Along Rel (p.next s r) (q.next s reply))
    (w : W Handle K (Option Bytes) (DevErr Sense) (World (Contents × Option Bytes))) (m m' : Contents) (hw : LinuxIdle w.st w.os m) (s : σ) (a' : A') (n : Nat)
    (h : q.Runs ok (OnArray g) s m a' m' n) :
    ∃ a w', Rel a a' ∧ (on L B other p).Runs ok (Through (machine (T := T) (Linux.sgBlocking (lp64 l) getSense (Linux.sgDevice l (disk g))).plat (Linux.prepare (lp64 l) alloc t))) s w a w' n ∧ LinuxIdle w'.st w'.os m' := by
  obtain ⟨a, h1, h2⟩ := disk_direct L B other hg outcome_delivers hask hnext h
  obtain ⟨w', h3, h4⟩ := through_direct (serves_linux l getSense (disk g) alloc t ht fun m q h => disk_parses g m q (by intro h0; rw [h0] at h; simp at h)) hfit h2 w hw
  exact ⟨a, w', h1, h3, h4⟩

/-- **C98, disks on Solaris.** -/
theorem C98_disk_solaris [DecidableEq K] (l : Bool) (alloc : Nat → Alloc) (t : Int) (ht : 0 ≤ t ∧ t < 2 ^ 15) (L : Lib) (B : Parse.BufLib) (other : Bytes → Py (List (String × Int)))
    (g : Geometry) (hg : Valid g) (p : Client σ Cmd Seen A) (q : Client σ Op Reply A') (ok : σ → Prop) (Rel : A → A' → Prop)
    (hask : ∀ s, ok s → Asks g (p.ask s) (q.ask s)) (hfit : ∀ s, ok s → ∀ r, Cdb.request L (p.ask s).cdb = .ok r → SolarisOk alloc r)
    (hnext : ∀ s r reply, ok s → Shows r reply → Along Rel (p.next s r) (q.next s reply))
    (w : W Handle K (Option Bytes) (DevErr Sense) (Solaris.SolWorld Contents)) (m m' : Contents) (hw : SolarisIdle w.st w.os m) (s : σ) (a' : A') (n : Nat)
    (h : q.Runs ok (OnArray g) s m a' m' n) :
    ∃ a w', Rel a a' ∧ (on L B other p).Runs ok (Through (machine (T := T) (Solaris.solBlocking (lp64 l) getSense (Solaris.uscsiDevice l (disk g))).plat (Solaris.prepare (lp64 l) alloc t))) s w a w' n ∧ SolarisIdle w'.st w'.os m' := by
  obtain ⟨a, h1, h2⟩ := disk_direct L B other hg outcome_delivers hask hnext h
  obtain ⟨w', h3, h4⟩ := through_direct (serves_solaris l getSense (disk g) alloc t ht fun m q h => disk_parses g m q (by intro h0; rw [h0] at h; simp at h)) hfit h2 w hw
  exact ⟨a, w', h1, h3, h4⟩

/-- **C98, disks on AIX.** -/
theorem C98_disk_aix [DecidableEq K] (b : Aix.Binding) (alloc : Nat → Alloc) (t : Int) (ht : 0 ≤ t ∧ t < 2 ^ 32) (L : Lib) (B : Parse.BufLib) (other : Bytes → Py (List (String × Int)))
    (g : Geometry) (hg : Valid g) (p : Client σ Cmd Seen A) (q : Client σ Op Reply A') (ok : σ → Prop) (Rel : A → A' → Prop)
    (hask : ∀ s, ok s → Asks g (p.ask s) (q.ask s)) (hfit : ∀ s, ok s → ∀ r, Cdb.request L (p.ask s).cdb = .ok r → AixOk b alloc r)
    (hnext : ∀ s r reply, ok s → Shows r reply → Along Rel (p.next s r) (q.next s reply))
    (w : W Handle K (Option Bytes) (DevErr Sense) (Aix.AixWorld Contents)) (m m' : Contents) (hw : AixIdle w.st w.os m) (s : σ) (a' : A') (n : Nat)
    (h : q.Runs ok (OnArray g) s m a' m' n) :
    ∃ a w', Rel a a' ∧ (on L B other p).Runs ok (Through (machine (T := T) (Aix.aixBlocking (lp64 false) getSense b (Aix.scDevice (disk g))).plat (Aix.prepare (lp64 false) alloc t))) s w a w' n ∧ AixIdle w'.st w'.os m' := by
  obtain ⟨a, h1, h2⟩ := disk_direct L B other hg outcome_delivers hask hnext h
  obtain ⟨w', h3, h4⟩ := through_direct (serves_aix getSense b (disk g) alloc t ht fun m q h => disk_parses g m q (by intro h0; rw [h0] at h; simp at h)) hfit h2 w hw
  exact ⟨a, w', h1, h3, h4⟩

/-- **C98, disks on Windows.** -/
theorem C98_disk_windows [DecidableEq K] (b : Bool) (alloc : Nat → Alloc) (L : Lib) (B : Parse.BufLib) (other : Bytes → Py (List (String × Int)))
    (g : Geometry) (hg : Valid g) (p : Client σ Cmd Seen A) (q : Client σ Op Reply A') (ok : σ → Prop) (Rel : A → A' → Prop)
    (hask : ∀ s, ok s → Asks g (p.ask s) (q.ask s)) (hfit : ∀ s, ok s → ∀ r, Cdb.request L (p.ask s).cdb = .ok r → WindowsOk b alloc r)
    (hnext : ∀ s r reply, ok s → Shows r reply → Along Rel (p.next s r) (q.next s reply))
    (w : W Win32.Spt K (Option Bytes) (DevErr Sense) (Win32.WinWorld Contents)) (m m' : Contents) (hw : WindowsIdle w.st w.os m) (s : σ) (a' : A') (n : Nat)
    (h : q.Runs ok (OnArray g) s m a' m' n) :
    ∃ a w', Rel a a' ∧ (on L B other p).Runs ok (Through (machine (T := T) (Win32.winPlat (Win32.W b) getSense (Win32.sptDevice b (disk g))) (Win32.prepare (Win32.W b) alloc))) s w a w' n ∧ WindowsIdle w'.st w'.os m' := by
  obtain ⟨a, h1, h2⟩ := disk_direct L B other hg winOutcome_delivers hask hnext h
  obtain ⟨w', h3, h4⟩ := through_direct (serves_windows b getSense (disk g) alloc fun m q h => disk_parses g m q (by rw [h]; decide)) hfit h2 w hw
  exact ⟨a, w', h1, h3, h4⟩

/-- A program that reads block after block until one does not begin with a zero, and ends with the address of that block; `none` when the disk gives an error. -/
def search : Client Nat Cmd Seen (Option Nat) where
  ask lba := .read16 lba 1 512
  next lba r :=
    match r with
    | .ok (some (.obj (.raw (some (0 :: _))))) => .inl (lba + 1)
    | .ok _ => .inr (some lba)
    | .error _ => .inr none

/-- The same on the array. -/
def searchArray : Client Nat Op Reply (Option Nat) where
  ask lba := .read lba 1
  next lba r :=
    match r with
    | .data (0 :: _) => .inl (lba + 1)
    | .failed _ _ _ => .inr none
    | _ => .inr (some lba)

theorem search_ends (m : Contents) (b : Nat) (hb : m (b * 512) ≠ 0) (hl : b < 1000) (d : Nat) : ∀ lba, lba + d = b → (∀ i, lba ≤ i → i < b → m (i * 512) = 0) →
    searchArray.Runs (· < 2 ^ 64) (OnArray ⟨512, 1000⟩) lba m (some b) m (d + 1) := by
  have read : ∀ lba, lba ≤ b → ∃ rest, OnArray ⟨512, 1000⟩ (searchArray.ask lba) m (.data (m (lba * 512) :: rest)) m := by
    intro lba h
    refine ⟨((List.range 511).map Nat.succ).map fun i => m (lba * 512 + i), ?_⟩
    simp only [OnArray, searchArray, Op.run, readAt]
    rw [if_pos (by omega), show 1 * 512 = 511 + 1 from rfl, List.range_succ_eq_map, List.map_cons, Nat.add_zero]
  induction d with
  | zero =>
    intro lba h _
    obtain ⟨rest, hr⟩ := read lba (by omega)
    refine .done (show lba < 2 ^ 64 by omega) hr ?_
    simp only [searchArray]
    rw [show lba = b by omega]
    split
    · next h => exact absurd (List.cons.inj (Reply.data.inj h)).1 hb
    · next h => cases h
    · rfl
  | succ d ih =>
    intro lba h hz
    obtain ⟨rest, hr⟩ := read lba (by omega)
    rw [hz lba (Nat.le_refl _) (by omega)] at hr
    exact .more (show lba < 2 ^ 64 by omega) hr rfl (ih (lba + 1) (by omega) fun i h1 h2 => hz i (by omega) h2)

/-- The hypotheses are met: on a disk of 1000 blocks, the first that does not begin with a zero being `b`, the program ends after `b + 1` commands with `b`. -/
example (L : Lib) (B : Parse.BufLib) (other : Bytes → Py (List (String × Int))) (m : Contents) (b : Nat) (hb : m (b * 512) ≠ 0) (hl : b < 1000)
    (hz : ∀ i, i < b → m (i * 512) = 0) :
    ∃ w', (on L B other search).Runs (· < 2 ^ 64) (Through (machine (T := Unit)
        (Linux.sgBlocking (K := Unit) (lp64 true) getSense (Linux.sgDevice true (disk ⟨512, 1000⟩))).plat
        (Linux.prepare (lp64 true) (fun _ => { block := 4096, sense := 8192, cmd := 12288, data := 16384 }) 30000)))
        0 { st := { pending := [], index := 6, maxq := 7 }, os := { mem := fun _ => 0xEE, kernel := (m, none) }, fired := [], box := fun _ => [] }
        (some b) w' (b + 1) := by
  have fit : ∀ lba : Nat, lba < 2 ^ 64 → ∀ q, Cdb.request L (search.ask lba).cdb = .ok q →
      LinuxOk (fun _ => { block := 4096, sense := 8192, cmd := 12288, data := 16384 }) q := by
    intro lba h q hq
    cases (Cdb.C26_read16 L lba 1 512 ⟨by omega, by omega⟩ ⟨by omega, by omega⟩).symm.trans hq
    refine ⟨by simp [Req.cdb, Spec.Cdb.read16, cdb16], by simp [dataSize], fun _ => ⟨by simp [dataSize, Req.cdb, Spec.Cdb.read16, cdb16], by simp⟩⟩
  have steps : ∀ (lba : Nat) r reply, lba < 2 ^ 64 → Shows r reply → Along (· = ·) (search.next lba r) (searchArray.next lba reply) := by
    intro lba r reply _ hs
    cases reply with
    | ready => cases hs; rfl
    | capacity last size => obtain ⟨attrs, rfl, -⟩ := hs; rfl
    | done => cases hs; rfl
    | failed => obtain ⟨raw, s, rfl, -⟩ := hs; rfl
    | data bs =>
      cases hs
      cases bs with
      | nil => rfl
      | cons x bs =>
        simp only [search, searchArray, if_neg (List.cons_ne_nil x bs)]
        by_cases hx : x = 0
        · subst hx; rfl
        · split
          · next h => simp at h; exact absurd h.1 hx
          · split
            · next h => exact absurd (List.cons.inj (Reply.data.inj h)).1 hx
            · next h => cases h
            · rfl
          · next h => cases h
  obtain ⟨a, w', ha, h, -⟩ := C98_disk_linux (T := Unit) (K := Unit) true (fun _ => { block := 4096, sense := 8192, cmd := 12288, data := 16384 }) 30000 (by decide) L B other
    ⟨512, 1000⟩ ⟨by decide, by decide⟩ search searchArray (· < 2 ^ 64) (· = ·)
    (fun lba h => Asks.read16 (g := ⟨512, 1000⟩) (lba := lba) (n := 1) h (by decide)) fit steps
    { st := { pending := [], index := 6, maxq := 7 }, os := { mem := fun _ => 0xEE, kernel := (m, none) }, fired := [], box := fun _ => [] }
    m m ⟨rfl, by simp, by simp, by simp, rfl⟩ 0 (some b) (b + 1) (search_ends m b hb hl b 0 (by omega) fun i _ h => hz i h)
  exact ⟨w', ha ▸ h⟩

end disk

section keys

open Verif.Spec.Reservations
open Verif.Commands.Reserve (Bounded)

/-- A loop in the manner of

    while True:
        response = sync_wait(PersistentReserveInCommand(READ_KEYS, allocation_length=length).execute(asi))
        if response.key_list is not None:
            return response.key_list
        length = response.required_allocation_length()

its state is `length`. -/
def allKeys : Client Nat Cmd Seen (Except (Exn (DevErr Sense)) (Option (List Nat))) where
  ask length := .persistentReserveIn 0 length
  next _ r :=
    match r with
    | .error e => .inr (.error e)
    | .ok (some (.obj (.reservations (.keys k)))) =>
      match k.keys with
      | some l => .inr (.ok (some l))
      | none => .inl (Parse.requiredLength k.attrs).toNat
    | .ok _ => .inr (.ok none)

/-- The same loop over the operations of the unit. -/
def loop : Client Nat Op Reply (Except (Nat × Nat × Nat) (List Key)) where
  ask length := .keys ((length - 8) / 8)
  next _ r :=
    match r with
    | .keys _ l => .inr (.ok l)
    | .tooMany _ count => .inl (8 + 8 * count)
    | .failed key asc ascq => .inr (.error (key, asc, ascq))
    | _ => .inr (.error (0, 0, 0))

/-- An operation of ours, after what the others do before it. -/
def OnUnit (op : Op) (k : Lun × List (List (Nat × Action))) (r : Reply) (k' : Lun × List (List (Nat × Action))) : Prop :=
  op.run (others k.1 (k.2.headD [])) = (r, k'.1) ∧ k'.2 = k.2.tail

/-- The program has the list of keys, or the sense data. -/
def Matches : Except (Exn (DevErr Sense)) (Option (List Nat)) → Except (Nat × Nat × Nat) (List Key) → Prop
  | .ok (some l), .ok ks => l = ks.map UInt64.toNat
  | .error e, .error (key, asc, ascq) => ∃ raw s, e = .dev (.checkCondition raw (some s)) ∧ Says s key asc ascq
  | _, _ => False

/-- Lengths a READ KEYS command can have. -/
def Length (n : Nat) : Prop := 8 ≤ n ∧ n < 2 ^ 16

theorem warn_limit (u : Lun) (d : Nat) (w : Notice) (c : Bool) : (warn u d w c).limit = u.limit := by
  unfold warn; split <;> rfl

theorem act_limit (u : Lun) (host : Nat) (a : Action) : (act u host a).2.limit = u.limit := by
  cases a <;> simp only [act, unregister, enroll] <;> repeat' split
  all_goals first
    | rfl
    | (rw [warn_limit]; rfl)
    | rw [warn_limit]

theorem others_limit : ∀ (l : List (Nat × Action)) (u : Lun), (others u l).limit = u.limit
  | [], _ => rfl
  | (_, _) :: l, u => by rw [others, others_limit l, act_limit]

theorem others_append : ∀ (a b : List (Nat × Action)) (u : Lun), others u (a ++ b) = others (others u a) b
  | [], _, _ => rfl
  | (_, _) :: a, b, u => by rw [List.cons_append, others, others_append a b, others]

/-- What the loop ends with after reading the unit in state `v`. -/
def Ends (v : Lun) (a : Except (Nat × Nat × Nat) (List Key)) (u : Lun) : Prop :=
  (a = .ok (v.keys.map (·.2)) ∧ u = v) ∨ (∃ why, v.attention = some why ∧ a = .error (6, 0x2A, why.ascq) ∧ u = { v with attention := none })

theorem loop_ends (d : Nat) : ∀ (n : Nat) (u : Lun) (s : List (List (Nat × Action))), Bounded u → 8 + 8 * u.limit < 2 ^ 16 → Length n →
    u.limit - (n - 8) / 8 ≤ d →
    ∃ i a u', loop.Runs Length OnUnit n (u, s) a (u', s.drop (i + 1)) (i + 1) ∧ i ≤ d ∧ Ends (others u (s.take (i + 1)).flatten) a u' := by
  induction d with
  | zero =>
    intro n u s hb hl hn hd
    have hv := Reserve.others_bounded (s.headD []) hb
    have hlim := others_limit (s.headD []) u
    have hfl : (s.take 1).flatten = s.headD [] := by cases s <;> simp
    have hdr : s.drop 1 = s.tail := by cases s <;> rfl
    cases ha : (others u (s.headD [])).attention with
    | some why =>
      refine ⟨0, _, _, .done hn (r := .failed 6 0x2A why.ascq) ⟨?_, hdr⟩ rfl, Nat.le_refl _, .inr ⟨why, by rw [hfl]; exact ha, rfl, rfl⟩⟩
      simp only [loop, Op.run, ha, hfl]
    | none =>
      have hle : (others u (s.headD [])).keys.length ≤ (n - 8) / 8 := by have := hv.1; omega
      refine ⟨0, _, _, .done hn (r := .keys ((others u (s.headD [])).generation % 2 ^ 32) ((others u (s.headD [])).keys.map (·.2))) ⟨?_, hdr⟩ rfl, Nat.le_refl _, .inl ⟨by rw [hfl], rfl⟩⟩
      simp only [loop, Op.run, ha, if_pos hle, hfl]
  | succ d ih =>
    intro n u s hb hl hn hd
    have hv := Reserve.others_bounded (s.headD []) hb
    have hlim := others_limit (s.headD []) u
    have hfl : (s.take 1).flatten = s.headD [] := by cases s <;> simp
    have hdr : s.drop 1 = s.tail := by cases s <;> rfl
    cases ha : (others u (s.headD [])).attention with
    | some why =>
      refine ⟨0, _, _, .done hn (r := .failed 6 0x2A why.ascq) ⟨?_, hdr⟩ rfl, Nat.zero_le _, .inr ⟨why, by rw [hfl]; exact ha, rfl, rfl⟩⟩
      simp only [loop, Op.run, ha, hfl]
    | none =>
      by_cases hle : (others u (s.headD [])).keys.length ≤ (n - 8) / 8
      · refine ⟨0, _, _, .done hn (r := .keys ((others u (s.headD [])).generation % 2 ^ 32) ((others u (s.headD [])).keys.map (·.2))) ⟨?_, hdr⟩ rfl, Nat.zero_le _, .inl ⟨by rw [hfl], rfl⟩⟩
        simp only [loop, Op.run, ha, if_pos hle, hfl]
      · have hc := hv.1
        obtain ⟨i, a, u', h1, h2, h3⟩ := ih (8 + 8 * (others u (s.headD [])).keys.length) (others u (s.headD [])) s.tail hv (by rw [hlim]; exact hl)
          ⟨by omega, by omega⟩ (by omega)
        have e1 : s.drop (i + 1 + 1) = s.tail.drop (i + 1) := by cases s <;> simp
        have e2 : others u (s.take (i + 1 + 1)).flatten = others (others u (s.headD [])) (s.tail.take (i + 1)).flatten := by
          cases s with
          | nil => simp [others]
          | cons x s => rw [List.take_succ_cons, List.flatten_cons, others_append]; rfl
        refine ⟨i + 1, a, u', .more hn (r := .tooMany ((others u (s.headD [])).generation % 2 ^ 32) (others u (s.headD [])).keys.length) (s' := 8 + 8 * (others u (s.headD [])).keys.length)
          (w' := (others u (s.headD []), s.tail)) ⟨?_, rfl⟩ rfl ?_, by omega, ?_⟩
        · simp only [loop, Op.run, ha, if_neg hle]
        · rw [e1]; exact h1
        · rw [e2]; exact h3

theorem keys_direct {tail : Nat → Bytes → Bytes → Prop} {out : Req → Answer → Except (Exn (DevErr Sense)) (Option (Option Bytes))} (L : Lib) (B : Parse.BufLib)
    (other : Bytes → Py (List (String × Int))) (hB : Reserve.Brings tail out) {n i : Nat} {k k' : Lun × List (List (Nat × Action))}
    {a' : Except (Nat × Nat × Nat) (List Key)} (hb : Bounded k.1) (h : loop.Runs Length OnUnit n k a' k' i) :
    ∃ a, Matches a a' ∧ (on L B other allKeys).Runs Length (Direct shared out) n k a k' i := by
  refine in_step (Inv := fun k => Bounded k.1) (fun n k reply k' ho hb hd => ?_) h hb
  obtain ⟨u, s⟩ := k
  obtain ⟨u', s'⟩ := k'
  obtain ⟨hd, hs'⟩ := hd
  simp only at hd hs' hb
  have hv := Reserve.others_bounded (s.headD []) hb
  have hr := Reserve.run_bounded hv (loop.ask n)
  obtain ⟨q', hq, hm, hs⟩ := Reserve.step L B other hB hv (Reserve.Asks.keys ho.1 ho.2)
  rw [show (Op.keys ((n - 8) / 8)) = loop.ask n from rfl, hd] at hm hs
  rw [hd] at hr
  refine ⟨hr, decoded ((Cmd.persistentReserveIn 0 n).command L B other) (out q' (serve (others u (s.headD [])) (asked q')).1), ?_, ?_⟩
  · show askAll shared out [(Cmd.persistentReserveIn 0 n).command L B other] (u, s) = _
    simp only [askAll, hq, shared, hm, hs']
  · have hrep : (∃ why, reply = .failed 6 0x2A why) ∨ (∃ g l, reply = .keys g l) ∨ ∃ g c, reply = .tooMany g c := by
      have := congrArg Prod.fst hd
      simp only [loop, Op.run] at this
      split at this
      · exact .inl ⟨_, this.symm⟩
      · split at this
        · exact .inr (.inl ⟨_, _, this.symm⟩)
        · exact .inr (.inr ⟨_, _, this.symm⟩)
    rcases hrep with ⟨why, rfl⟩ | ⟨g, l, rfl⟩ | ⟨g, c, rfl⟩
    · obtain ⟨raw, sn, e, hsay⟩ := hs
      rw [e]
      exact ⟨raw, sn, rfl, hsay⟩
    · obtain ⟨k, e, -, hk⟩ := hs
      rw [e]
      simp only [on, allKeys, hk, loop]
      rfl
    · obtain ⟨k, e, -, hk, hlen⟩ := hs
      rw [e]
      simp only [on, allKeys, hk, hlen, loop, Int.toNat_natCast]
      rfl

/-- What the program has in the end, the unit having been in state `v` when it was asked the last time: the keys registered with it, or the news that
something happened to our registration or reservation. -/
def Learns (v : Lun) : Except (Exn (DevErr Sense)) (Option (List Nat)) → Prop
  | .ok l => l = some (v.keys.map (·.2.toNat))
  | .error e => ∃ why raw s, v.attention = some why ∧ e = .dev (.checkCondition raw (some s)) ∧ Says s 6 0x2A why.ascq

theorem learns {v u' : Lun} {a : Except (Exn (DevErr Sense)) (Option (List Nat))} {a' : Except (Nat × Nat × Nat) (List Key)} (h : Matches a a') (he : Ends v a' u') :
    Learns v a := by
  rcases he with ⟨rfl, -⟩ | ⟨why, hw, rfl, -⟩
  · cases a with
    | error e => exact h.elim
    | ok o =>
      cases o with
      | none => exact h.elim
      | some l => simp only [Learns]; rw [show l = _ from h, List.map_map]; rfl
  · cases a with
    | error e => obtain ⟨raw, s, h1, h2⟩ := h; exact ⟨why, raw, s, hw, h1, h2⟩
    | ok o => cases o <;> exact h.elim

/-- **C98, registered keys on Linux.** The loop ends, whatever other hosts do meanwhile, after at most one command more than the unit has room for registrations; it
has the keys that were registered when its last command was carried out, or was told of a unit attention. -/
theorem C98_keys_linux [DecidableEq K] (l : Bool) (alloc : Nat → Alloc) (t : Int) (ht : 0 ≤ t ∧ t < 2 ^ 32) (L : Lib) (B : Parse.BufLib) (other : Bytes → Py (List (String × Int)))
    (hfit : ∀ n, Length n → ∀ r, Cdb.request L (Cmd.persistentReserveIn 0 n).cdb = .ok r → LinuxOk alloc r) (u : Lun) (hu : Bounded u) (hlim : 8 + 8 * u.limit < 2 ^ 16)
    (s : List (List (Nat × Action))) (n : Nat) (hn : Length n) (w : W Handle K (Option Bytes) (DevErr Sense) (World ((Lun × List (List (Nat × Action))) × Option Bytes))) (hw : LinuxIdle w.st w.os (u, s)) :
    ∃ i a w' u', (on L B other allKeys).Runs Length (Through (machine (T := T) (Linux.sgBlocking (lp64 l) getSense (Linux.sgDevice l shared)).plat (Linux.prepare (lp64 l) alloc t))) n w a w' (i + 1) ∧ i ≤ u.limit ∧
      Learns (others u (s.take (i + 1)).flatten) a ∧ LinuxIdle w'.st w'.os (u', s.drop (i + 1)) := by
  obtain ⟨i, a', u', h1, h2, h3⟩ := loop_ends u.limit n u s hu hlim hn (Nat.sub_le _ _)
  obtain ⟨a, h4, h5⟩ := keys_direct L B other Reserve.outcome_brings hu h1
  obtain ⟨w', h6, h7⟩ := through_direct (serves_linux l getSense shared alloc t ht Reserve.shared_parses) hfit h5 w hw
  exact ⟨i, a, w', u', h6, h2, learns h4 h3, h7⟩

/-- **C98, registered keys on Solaris.** The loop ends, whatever other hosts do meanwhile, after at most one command more than the unit has room for registrations; it
has the keys that were registered when its last command was carried out, or was told of a unit attention. -/
theorem C98_keys_solaris [DecidableEq K] (l : Bool) (alloc : Nat → Alloc) (t : Int) (ht : 0 ≤ t ∧ t < 2 ^ 15) (L : Lib) (B : Parse.BufLib) (other : Bytes → Py (List (String × Int)))
    (hfit : ∀ n, Length n → ∀ r, Cdb.request L (Cmd.persistentReserveIn 0 n).cdb = .ok r → SolarisOk alloc r) (u : Lun) (hu : Bounded u) (hlim : 8 + 8 * u.limit < 2 ^ 16)
    (s : List (List (Nat × Action))) (n : Nat) (hn : Length n) (w : W Handle K (Option Bytes) (DevErr Sense) (Solaris.SolWorld (Lun × List (List (Nat × Action))))) (hw : SolarisIdle w.st w.os (u, s)) :
    ∃ i a w' u', (on L B other allKeys).Runs Length (Through (machine (T := T) (Solaris.solBlocking (lp64 l) getSense (Solaris.uscsiDevice l shared)).plat (Solaris.prepare (lp64 l) alloc t))) n w a w' (i + 1) ∧ i ≤ u.limit ∧
      Learns (others u (s.take (i + 1)).flatten) a ∧ SolarisIdle w'.st w'.os (u', s.drop (i + 1)) := by
  obtain ⟨i, a', u', h1, h2, h3⟩ := loop_ends u.limit n u s hu hlim hn (Nat.sub_le _ _)
  obtain ⟨a, h4, h5⟩ := keys_direct L B other Reserve.outcome_brings hu h1
  obtain ⟨w', h6, h7⟩ := through_direct (serves_solaris l getSense shared alloc t ht Reserve.shared_parses) hfit h5 w hw
  exact ⟨i, a, w', u', h6, h2, learns h4 h3, h7⟩

/-- **C98, registered keys on AIX.** The loop ends, whatever other hosts do meanwhile, after at most one command more than the unit has room for registrations; it
has the keys that were registered when its last command was carried out, or was told of a unit attention. -/
theorem C98_keys_aix [DecidableEq K] (b : Aix.Binding) (alloc : Nat → Alloc) (t : Int) (ht : 0 ≤ t ∧ t < 2 ^ 32) (L : Lib) (B : Parse.BufLib) (other : Bytes → Py (List (String × Int)))
    (hfit : ∀ n, Length n → ∀ r, Cdb.request L (Cmd.persistentReserveIn 0 n).cdb = .ok r → AixOk b alloc r) (u : Lun) (hu : Bounded u) (hlim : 8 + 8 * u.limit < 2 ^ 16)
    (s : List (List (Nat × Action))) (n : Nat) (hn : Length n) (w : W Handle K (Option Bytes) (DevErr Sense) (Aix.AixWorld (Lun × List (List (Nat × Action))))) (hw : AixIdle w.st w.os (u, s)) :
    ∃ i a w' u', (on L B other allKeys).Runs Length (Through (machine (T := T) (Aix.aixBlocking (lp64 false) getSense b (Aix.scDevice shared)).plat (Aix.prepare (lp64 false) alloc t))) n w a w' (i + 1) ∧ i ≤ u.limit ∧
      Learns (others u (s.take (i + 1)).flatten) a ∧ AixIdle w'.st w'.os (u', s.drop (i + 1)) := by
  obtain ⟨i, a', u', h1, h2, h3⟩ := loop_ends u.limit n u s hu hlim hn (Nat.sub_le _ _)
  obtain ⟨a, h4, h5⟩ := keys_direct L B other Reserve.outcome_brings hu h1
  obtain ⟨w', h6, h7⟩ := through_direct (serves_aix getSense b shared alloc t ht Reserve.shared_parses) hfit h5 w hw
  exact ⟨i, a, w', u', h6, h2, learns h4 h3, h7⟩

/-- **C98, registered keys on Windows.** The loop ends, whatever other hosts do meanwhile, after at most one command more than the unit has room for registrations; it
has the keys that were registered when its last command was carried out, or was told of a unit attention. -/
theorem C98_keys_windows [DecidableEq K] (b : Bool) (alloc : Nat → Alloc) (L : Lib) (B : Parse.BufLib) (other : Bytes → Py (List (String × Int)))
    (hfit : ∀ n, Length n → ∀ r, Cdb.request L (Cmd.persistentReserveIn 0 n).cdb = .ok r → WindowsOk b alloc r) (u : Lun) (hu : Bounded u) (hlim : 8 + 8 * u.limit < 2 ^ 16)
    (s : List (List (Nat × Action))) (n : Nat) (hn : Length n) (w : W Win32.Spt K (Option Bytes) (DevErr Sense) (Win32.WinWorld (Lun × List (List (Nat × Action))))) (hw : WindowsIdle w.st w.os (u, s)) :
    ∃ i a w' u', (on L B other allKeys).Runs Length (Through (machine (T := T) (Win32.winPlat (Win32.W b) getSense (Win32.sptDevice b shared)) (Win32.prepare (Win32.W b) alloc))) n w a w' (i + 1) ∧ i ≤ u.limit ∧
      Learns (others u (s.take (i + 1)).flatten) a ∧ WindowsIdle w'.st w'.os (u', s.drop (i + 1)) := by
  obtain ⟨i, a', u', h1, h2, h3⟩ := loop_ends u.limit n u s hu hlim hn (Nat.sub_le _ _)
  obtain ⟨a, h4, h5⟩ := keys_direct L B other Reserve.winOutcome_brings hu h1
  obtain ⟨w', h6, h7⟩ := through_direct (serves_windows b getSense shared alloc fun k q h => Reserve.shared_parses k q (by rw [h]; decide)) hfit h5 w hw
  exact ⟨i, a, w', u', h6, h2, learns h4 h3, h7⟩

/-- The hypotheses are met: a unit with three keys, asked with the shortest length; another host registers between the first command and the second. -/
def three : Lun := { generation := 3, keys := [(0, 0xA), (1, 0xB), (2, 0xC)], limit := 100, holder := none, attention := none }

example (L : Lib) (B : Parse.BufLib) (other : Bytes → Py (List (String × Int))) :
    ∃ i a w' u', (on L B other allKeys).Runs Length (Through (machine (T := Unit) (Linux.sgBlocking (K := Unit) (lp64 true) getSense (Linux.sgDevice true shared)).plat
        (Linux.prepare (lp64 true) (fun _ => { block := 4096, sense := 8192, cmd := 12288, data := 16384 }) 30000))) 8
        { st := { pending := [], index := 6, maxq := 7 }, os := { mem := fun _ => 0xEE, kernel := ((three, [[], [(6, .register 0 0xD)]]), none) }, fired := [],
          box := fun _ => [] } a w' (i + 1) ∧ i ≤ 100 ∧
      Learns (others three (([[], [(6, .register 0 0xD)]] : List (List (Nat × Action))).take (i + 1)).flatten) a ∧
      LinuxIdle w'.st w'.os (u', [[], [(6, .register 0 0xD)]].drop (i + 1)) := by
  refine C98_keys_linux true (fun _ => { block := 4096, sense := 8192, cmd := 12288, data := 16384 }) 30000 (by decide) L B other ?_ three ⟨by decide, by decide⟩
    (by decide) _ 8 ⟨by decide, by decide⟩ _ ⟨rfl, by simp, by simp, by simp, rfl⟩
  intro n hn q hq
  obtain ⟨h1, h2⟩ := Reserve.asks_size L (Reserve.Asks.keys hn.1 hn.2) q hq
  refine ⟨by omega, by omega, fun _ => ⟨?_, ?_⟩⟩
  · simp; omega
  · simp

end keys

end Verif.Commands.Clients
