import Verif.Spec.Clone
import Verif.Props.Client
/-!
# C101: programs that use several devices, and the copy of a disk

The program of C98 may now use any number of executers, one command at a time. They are in one process: what a call to one of them leaves in memory is there
when the next is called. Whatever the program, using the executers is using the devices; and a program that copies a disk to another copies it.
-/
set_option linter.unusedSimpArgs false
set_option linter.unusedSectionVars false

namespace Verif.Commands.Clients

open Verif.Executer Verif.Coroutine Verif.ExecuterGen Verif.Platform Verif.Spec Verif.Spec.Cdb Verif.Sense Verif.Spec.Disk Verif.Spec.Clone

variable {ι C Q K D E R Gp T ω δ σ A : Type}

/-- The memory in what an executer sees of the world. -/
class HasMem (ω : Type) where
  mem : ω → Mem
  put : Mem → ω → ω

instance {κ : Type} : HasMem (World κ) := ⟨World.mem, fun m o => { o with mem := m }⟩
instance {κ : Type} : HasMem (Solaris.SolWorld κ) := ⟨fun o => o.world.mem, fun m o => { o with world := { o.world with mem := m } }⟩
instance {κ : Type} : HasMem (Aix.AixWorld κ) := ⟨fun o => o.world.mem, fun m o => { o with world := { o.world with mem := m } }⟩
instance {κ : Type} : HasMem (Win32.WinWorld κ) := ⟨fun o => o.world.mem, fun m o => { o with world := { o.world with mem := m } }⟩

/-- Executing a command with one of the executers of the process. The others find the memory as this call leaves it. -/
def ThroughOne [HasMem ω] (M : ι → Machine (Frame C Q K D R Gp) (W Q K D E ω) (Val D E R) (Exn E) T) (x : ι × Command C D R) (w : ι → W Q K D E ω)
    (r : Except (Exn E) (Option (Val D E R))) (w' : ι → W Q K D E ω) : Prop :=
  Through (M x.1) x.2 (w x.1) r (w' x.1) ∧ ∀ j, j ≠ x.1 → w' j = { w j with os := HasMem.put (HasMem.mem (w' x.1).os) (w j).os }

/-- Giving it to one of the devices directly. -/
def DirectOne (dev : ι → Device δ) (out : Req → Answer → Except (Exn E) (Option D)) (x : ι × Command Req D R) (k : ι → δ)
    (r : Except (Exn E) (Option (Val D E R))) (k' : ι → δ) : Prop :=
  Direct (dev x.1) out x.2 (k x.1) r (k' x.1) ∧ ∀ j, j ≠ x.1 → k' j = k j

/-- One program in two worlds that correspond. -/
theorem runs_sim {ω₁ ω₂ α : Type} {p : Client σ C α A} {ok : σ → Prop} {exec₁ : C → ω₁ → α → ω₁ → Prop} {exec₂ : C → ω₂ → α → ω₂ → Prop} {rel : ω₁ → ω₂ → Prop}
    (hsim : ∀ s, ok s → ∀ w k r w', rel w k → exec₁ (p.ask s) w r w' → ∃ k', exec₂ (p.ask s) k r k' ∧ rel w' k') {s : σ} {w w' : ω₁} {a : A} {n : Nat}
    (h : p.Runs ok exec₁ s w a w' n) (k : ω₂) (hk : rel w k) : ∃ k', p.Runs ok exec₂ s k a k' n ∧ rel w' k' := by
  induction h generalizing k with
  | done ho he hn =>
    obtain ⟨k', h1, h2⟩ := hsim _ ho _ _ _ _ hk he
    exact ⟨k', .done ho h1 hn, h2⟩
  | more ho he hn _ ih =>
    obtain ⟨k', h1, h2⟩ := hsim _ ho _ _ _ _ hk he
    obtain ⟨k'', h3, h4⟩ := ih k' h2
    exact ⟨k'', .more ho h1 hn h3, h4⟩

section

variable [DecidableEq ι] [DecidableEq K] [HasMem ω] {M : ι → Machine (Frame Req Q K D R Gp) (W Q K D E ω) (Val D E R) (Exn E) T} {dev : ι → Device δ}
  {out : Req → Answer → Except (Exn E) (Option D)} {fits : ι → Req → Prop} {idle : W Q K D E ω → δ → Prop}
  {p : Client σ (ι × Command Req D R) (Except (Exn E) (Option (Val D E R))) A} {ok : σ → Prop}

/-- Using the executers is using the devices. -/
theorem same_several (hS : ∀ i, Serves (M i) (dev i) out (fits i) idle)
    (hput : ∀ (w : W Q K D E ω) k m, idle w k → idle { w with os := HasMem.put m w.os } k)
    (hok : ∀ s, ok s → ∀ q, (p.ask s).2.request = .ok q → fits (p.ask s).1 q) (s : σ) (w : ι → W Q K D E ω) (k : ι → δ) (hw : ∀ i, idle (w i) (k i))
    (a : A) (n : Nat) :
    (∀ k', p.Runs ok (DirectOne dev out) s k a k' n → ∃ w', p.Runs ok (ThroughOne M) s w a w' n ∧ ∀ i, idle (w' i) (k' i)) ∧
    (∀ w', p.Runs ok (ThroughOne M) s w a w' n → ∃ k', p.Runs ok (DirectOne dev out) s k a k' n ∧ ∀ i, idle (w' i) (k' i)) := by
  constructor
  · intro k' h
    refine runs_sim (rel := fun (k : ι → δ) (w : ι → W Q K D E ω) => ∀ i, idle (w i) (k i)) ?_ h w hw
    rintro s ho k w r k' hw ⟨he, hother⟩
    obtain ⟨v, h1, h2⟩ := hS (p.ask s).1 (p.ask s).2 (w (p.ask s).1) (k (p.ask s).1) (hok s ho) (hw _)
    rw [Direct] at he
    rw [he] at h1 h2
    refine ⟨fun j => if j = (p.ask s).1 then v else { w j with os := HasMem.put (HasMem.mem v.os) (w j).os }, ⟨?_, ?_⟩, ?_⟩
    · simpa only [Through, if_true] using h1
    · intro j hj
      simp only [if_neg hj, if_true]
    · intro j
      by_cases hj : j = (p.ask s).1
      · subst hj; simpa only [if_true] using h2
      · simp only [if_neg hj, hother j hj]
        exact hput _ _ _ (hw j)
  · intro w' h
    refine runs_sim (rel := fun (w : ι → W Q K D E ω) (k : ι → δ) => ∀ i, idle (w i) (k i)) ?_ h k hw
    rintro s ho w k r w' hw ⟨he, hother⟩
    obtain ⟨v, h1, h2⟩ := hS (p.ask s).1 (p.ask s).2 (w (p.ask s).1) (k (p.ask s).1) (hok s ho) (hw _)
    obtain ⟨e1, e2⟩ := runAll_unique he h1
    refine ⟨fun j => if j = (p.ask s).1 then (askAll (dev (p.ask s).1) out [(p.ask s).2] (k (p.ask s).1)).2 else k j, ⟨?_, ?_⟩, ?_⟩
    · simp only [if_true]
      exact Prod.ext e1 rfl
    · intro j hj
      simp only [if_neg hj]
    · intro j
      by_cases hj : j = (p.ask s).1
      · subst hj
        simp only [if_true]
        rw [e2] at h2
        exact h2
      · simp only [if_neg hj, hother j hj]
        exact hput _ _ _ (hw j)

end

/-! ## The platforms -/

/-- **C101 on Linux.** A program uses any number of executers, with any timeouts, one command at a time, deciding what to do next by what it was told. It ends exactly when it ends using the devices themselves, after as many commands, with the same result, leaving all devices in the same states.-/
theorem C101_linux {S : Type} [DecidableEq ι] [DecidableEq K] (l : Bool) (parse : Bytes → Py (Option S)) (dev : ι → Device δ) (alloc : ι → Nat → Alloc) (t : ι → Int) (ht : ∀ i, 0 ≤ t i ∧ t i < 2 ^ 32)
    (hparse : ∀ i k q, (dev i k q).1.status.toNat / 2 % 2 = 1 → ∃ sn, parse (padded 255 (dev i k q).1.sense) = .ok sn)
    (p : Client σ (ι × Command Req (Option Bytes) R) (Except (Exn (DevErr S)) (Option (Val (Option Bytes) (DevErr S) R))) A) (ok : σ → Prop)
    (hok : ∀ s, ok s → ∀ q, (p.ask s).2.request = .ok q → LinuxOk (alloc (p.ask s).1) q) (s : σ)
    (w : ι → W Handle K (Option Bytes) (DevErr S) (World (δ × Option Bytes))) (k : ι → δ) (hw : ∀ i, LinuxIdle (w i).st (w i).os (k i)) (a : A) (n : Nat) :
    let M := fun i => machine (T := T) (Linux.sgBlocking (lp64 l) parse (Linux.sgDevice l (dev i))).plat (Linux.prepare (lp64 l) (alloc i) (t i))
    (∀ k', p.Runs ok (DirectOne dev (Platform.outcome parse)) s k a k' n → ∃ w', p.Runs ok (ThroughOne M) s w a w' n ∧ ∀ i, LinuxIdle (w' i).st (w' i).os (k' i)) ∧
    (∀ w', p.Runs ok (ThroughOne M) s w a w' n → ∃ k', p.Runs ok (DirectOne dev (Platform.outcome parse)) s k a k' n ∧ ∀ i, LinuxIdle (w' i).st (w' i).os (k' i)) :=
  same_several (idle := fun w k => LinuxIdle w.st w.os k) (fun i => serves_linux l parse (dev i) (alloc i) (t i) (ht i) (hparse i)) (fun _ _ _ h => h) hok s w k hw a n

/-- **C101 on Solaris.** -/
theorem C101_solaris {S : Type} [DecidableEq ι] [DecidableEq K] (l : Bool) (parse : Bytes → Py (Option S)) (dev : ι → Device δ) (alloc : ι → Nat → Alloc) (t : ι → Int) (ht : ∀ i, 0 ≤ t i ∧ t i < 2 ^ 15)
    (hparse : ∀ i k q, (dev i k q).1.status.toNat / 2 % 2 = 1 → ∃ sn, parse (padded 255 (dev i k q).1.sense) = .ok sn)
    (p : Client σ (ι × Command Req (Option Bytes) R) (Except (Exn (DevErr S)) (Option (Val (Option Bytes) (DevErr S) R))) A) (ok : σ → Prop)
    (hok : ∀ s, ok s → ∀ q, (p.ask s).2.request = .ok q → SolarisOk (alloc (p.ask s).1) q) (s : σ)
    (w : ι → W Handle K (Option Bytes) (DevErr S) (Solaris.SolWorld δ)) (k : ι → δ) (hw : ∀ i, SolarisIdle (w i).st (w i).os (k i)) (a : A) (n : Nat) :
    let M := fun i => machine (T := T) (Solaris.solBlocking (lp64 l) parse (Solaris.uscsiDevice l (dev i))).plat (Solaris.prepare (lp64 l) (alloc i) (t i))
    (∀ k', p.Runs ok (DirectOne dev (Platform.outcome parse)) s k a k' n → ∃ w', p.Runs ok (ThroughOne M) s w a w' n ∧ ∀ i, SolarisIdle (w' i).st (w' i).os (k' i)) ∧
    (∀ w', p.Runs ok (ThroughOne M) s w a w' n → ∃ k', p.Runs ok (DirectOne dev (Platform.outcome parse)) s k a k' n ∧ ∀ i, SolarisIdle (w' i).st (w' i).os (k' i)) :=
  same_several (idle := fun w k => SolarisIdle w.st w.os k) (fun i => serves_solaris l parse (dev i) (alloc i) (t i) (ht i) (hparse i)) (fun _ _ _ h => h) hok s w k hw a n

/-- **C101 on AIX.** -/
theorem C101_aix {S : Type} [DecidableEq ι] [DecidableEq K] (parse : Bytes → Py (Option S)) (b : Aix.Binding) (dev : ι → Device δ) (alloc : ι → Nat → Alloc) (t : ι → Int) (ht : ∀ i, 0 ≤ t i ∧ t i < 2 ^ 32)
    (hparse : ∀ i k q, (dev i k q).1.status.toNat / 2 % 2 = 1 → ∃ sn, parse (padded 255 (dev i k q).1.sense) = .ok sn)
    (p : Client σ (ι × Command Req (Option Bytes) R) (Except (Exn (DevErr S)) (Option (Val (Option Bytes) (DevErr S) R))) A) (ok : σ → Prop)
    (hok : ∀ s, ok s → ∀ q, (p.ask s).2.request = .ok q → AixOk b (alloc (p.ask s).1) q) (s : σ)
    (w : ι → W Handle K (Option Bytes) (DevErr S) (Aix.AixWorld δ)) (k : ι → δ) (hw : ∀ i, AixIdle (w i).st (w i).os (k i)) (a : A) (n : Nat) :
    let M := fun i => machine (T := T) (Aix.aixBlocking (lp64 false) parse b (Aix.scDevice (dev i))).plat (Aix.prepare (lp64 false) (alloc i) (t i))
    (∀ k', p.Runs ok (DirectOne dev (Platform.outcome parse)) s k a k' n → ∃ w', p.Runs ok (ThroughOne M) s w a w' n ∧ ∀ i, AixIdle (w' i).st (w' i).os (k' i)) ∧
    (∀ w', p.Runs ok (ThroughOne M) s w a w' n → ∃ k', p.Runs ok (DirectOne dev (Platform.outcome parse)) s k a k' n ∧ ∀ i, AixIdle (w' i).st (w' i).os (k' i)) :=
  same_several (idle := fun w k => AixIdle w.st w.os k) (fun i => serves_aix parse b (dev i) (alloc i) (t i) (ht i) (hparse i)) (fun _ _ _ h => h) hok s w k hw a n

/-- **C101 on Windows.** -/
theorem C101_windows {S : Type} [DecidableEq ι] [DecidableEq K] (b : Bool) (parse : Bytes → Py (Option S)) (dev : ι → Device δ) (alloc : ι → Nat → Alloc)
    (hparse : ∀ i k q, (dev i k q).1.status = 2 → ∃ sn, parse (padded 255 (dev i k q).1.sense) = .ok sn)
    (p : Client σ (ι × Command Req (Option Bytes) R) (Except (Exn (DevErr S)) (Option (Val (Option Bytes) (DevErr S) R))) A) (ok : σ → Prop)
    (hok : ∀ s, ok s → ∀ q, (p.ask s).2.request = .ok q → WindowsOk b (alloc (p.ask s).1) q) (s : σ)
    (w : ι → W Win32.Spt K (Option Bytes) (DevErr S) (Win32.WinWorld δ)) (k : ι → δ) (hw : ∀ i, WindowsIdle (w i).st (w i).os (k i)) (a : A) (n : Nat) :
    let M := fun i => machine (T := T) (Win32.winPlat (Win32.W b) parse (Win32.sptDevice b (dev i))) (Win32.prepare (Win32.W b) (alloc i))
    (∀ k', p.Runs ok (DirectOne dev (Win32.winOutcome parse)) s k a k' n → ∃ w', p.Runs ok (ThroughOne M) s w a w' n ∧ ∀ i, WindowsIdle (w' i).st (w' i).os (k' i)) ∧
    (∀ w', p.Runs ok (ThroughOne M) s w a w' n → ∃ k', p.Runs ok (DirectOne dev (Win32.winOutcome parse)) s k a k' n ∧ ∀ i, WindowsIdle (w' i).st (w' i).os (k' i)) :=
  same_several (idle := fun w k => WindowsIdle w.st w.os k) (fun i => serves_windows b parse (dev i) (alloc i) (hparse i)) (fun _ _ _ h => h) hok s w k hw a n

/-! ## Disks -/

section disks

variable {A' : Type}

/-- The program with its command objects. -/
def onSeveral (L : Lib) (B : Parse.BufLib) (other : Bytes → Py (List (String × Int))) (p : Client σ (ι × Cmd) Seen A) :
    Client σ (ι × Command Req (Option Bytes) Result) Seen A :=
  { ask := fun s => ((p.ask s).1, (p.ask s).2.command L B other), next := p.next }

/-- Two programs in step, in one world. -/
theorem runs_step {C₁ C₂ α₁ α₂ : Type} {p : Client σ C₁ α₁ A} {q : Client σ C₂ α₂ A'} {ok : σ → Prop} {exec₁ : C₁ → ω → α₁ → ω → Prop} {exec₂ : C₂ → ω → α₂ → ω → Prop}
    {Rel : A → A' → Prop}
    (hstep : ∀ s k reply k', ok s → exec₂ (q.ask s) k reply k' → ∃ r, exec₁ (p.ask s) k r k' ∧ Along Rel (p.next s r) (q.next s reply))
    {s : σ} {k k' : ω} {a' : A'} {n : Nat} (h : q.Runs ok exec₂ s k a' k' n) : ∃ a, Rel a a' ∧ p.Runs ok exec₁ s k a k' n := by
  induction h with
  | @done s k reply k' a' ho hd hn =>
    obtain ⟨r, h1, h2⟩ := hstep _ _ _ _ ho hd
    rw [hn] at h2
    cases hp : p.next s r with
    | inl s' => rw [hp] at h2; exact h2.elim
    | inr a => rw [hp] at h2; exact ⟨a, h2, .done ho h1 hp⟩
  | @more s k reply k' s' a' k'' n ho hd hn _ ih =>
    obtain ⟨r, h1, h2⟩ := hstep _ _ _ _ ho hd
    rw [hn] at h2
    obtain ⟨a, h3, h4⟩ := ih
    cases hp : p.next s r with
    | inl s1 =>
      rw [hp] at h2
      rw [show s1 = s' from h2] at hp
      exact ⟨a, h3, .more ho h1 hp h4⟩
    | inr _ => rw [hp] at h2; exact h2.elim

/-- When a command has one result only, so has the program. -/
theorem runs_unique {C α : Type} {p : Client σ C α A} {ok : σ → Prop} {exec : C → ω → α → ω → Prop}
    (hex : ∀ c k r k' r₁ k₁, exec c k r k' → exec c k r₁ k₁ → r = r₁ ∧ k' = k₁) {s : σ} {k k' : ω} {a : A} {n : Nat} (h : p.Runs ok exec s k a k' n) :
    ∀ {a₁ k₁ n₁}, p.Runs ok exec s k a₁ k₁ n₁ → a = a₁ ∧ k' = k₁ ∧ n = n₁ := by
  induction h with
  | done _ hd hn =>
    intro a₁ k₁ n₁ h
    cases h with
    | done _ hd' hn' =>
      obtain ⟨rfl, rfl⟩ := hex _ _ _ _ _ _ hd hd'
      rw [hn] at hn'
      exact ⟨Sum.inr.inj hn', rfl, rfl⟩
    | more _ hd' hn' _ =>
      obtain ⟨rfl, rfl⟩ := hex _ _ _ _ _ _ hd hd'
      rw [hn] at hn'
      cases hn'
  | more _ hd hn _ ih =>
    intro a₁ k₁ n₁ h
    cases h with
    | done _ hd' hn' =>
      obtain ⟨rfl, rfl⟩ := hex _ _ _ _ _ _ hd hd'
      rw [hn] at hn'
      cases hn'
    | more _ hd' hn' h' =>
      obtain ⟨rfl, rfl⟩ := hex _ _ _ _ _ _ hd hd'
      rw [hn] at hn'
      cases hn'
      obtain ⟨h1, h2, h3⟩ := ih h'
      exact ⟨h1, h2, by rw [h3]⟩

theorem direct_unique {D E R : Type} {dev : ι → Device δ} {out : Req → Answer → Except (Exn E) (Option D)} (c : ι × Command Req D R) (k : ι → δ) (r) (k' : ι → δ) (r₁)
    (k₁ : ι → δ) (h : DirectOne dev out c k r k') (h₁ : DirectOne dev out c k r₁ k₁) : r = r₁ ∧ k' = k₁ := by
  have he := h.1.symm.trans h₁.1
  refine ⟨(List.cons.inj (Prod.mk.inj he).1).1, funext fun j => Classical.byCases (p := j = c.1) (fun hj => ?_) fun hj => ?_⟩
  · subst hj; exact (Prod.mk.inj he).2
  · rw [h.2 j hj, h₁.2 j hj]

theorem disks_direct {out : Req → Answer → Except (Exn (DevErr Sense)) (Option (Option Bytes))} (L : Lib) (B : Parse.BufLib)
    (other : Bytes → Py (List (String × Int))) {g : ι → Geometry} (hg : ∀ i, Valid (g i)) (hD : Delivers out) {p : Client σ (ι × Cmd) Seen A}
    {q : Client σ (ι × Op) Reply A'} {ok : σ → Prop} {Rel : A → A' → Prop}
    (hask : ∀ s, ok s → (p.ask s).1 = (q.ask s).1 ∧ Asks (g (q.ask s).1) (p.ask s).2 (q.ask s).2)
    (hnext : ∀ s r reply m m', ok s → OnArrays g (q.ask s) m reply m' → Shows r reply → Along Rel (p.next s r) (q.next s reply))
    {s : σ} {m m' : ι → Contents} {a' : A'} {n : Nat} (h : q.Runs ok (OnArrays g) s m a' m' n) :
    ∃ a, Rel a a' ∧ (onSeveral L B other p).Runs ok (DirectOne (fun i => disk (g i)) out) s m a m' n := by
  refine runs_step (fun s m reply m' ho hd => ?_) h
  obtain ⟨hi, ha⟩ := hask s ho
  obtain ⟨q', hq, hm, hs⟩ := step L B other (m (q.ask s).1) (hg _) hD ha
  have hrun := hd.1
  rw [hrun] at hm hs
  refine ⟨_, ⟨?_, ?_⟩, hnext s _ reply m m' ho hd hs⟩
  · show askAll (disk (g (p.ask s).1)) out [(p.ask s).2.command L B other] (m (p.ask s).1) = ([_], m' (p.ask s).1)
    rw [hi]
    simp only [askAll, hq, hm]
  · intro j hj
    exact hd.2 j (by rw [← hi]; exact hj)

end disks

/-! ## The copy -/

/-- A program in the manner of

    capacity = sync_wait(ReadCapacity16Command().execute(source))
    lba, last, size = 0, capacity.last_logical_block_address, capacity.block_length_in_bytes
    while True:
        count = min(n, last + 1 - lba)
        data = sync_wait(Read16Command(lba, count, size).execute(source))
        sync_wait(Write16Command(lba, data, size).execute(target))
        lba += count
        if lba > last:
            break
-/
def copyDisk (n : Nat) : Client Stage (Bool × Cmd) Seen (Except (Exn (DevErr Sense)) Unit) where
  ask
    | .start => (false, .readCapacity16 0 0)
    | .reading lba last size => (false, .read16 lba (chunk n lba last) size)
    | .writing lba _ size data => (true, .write16 lba data size)
  next s r :=
    match s, r with
    | _, .error e => .inr (.error e)
    | .start, .ok (some (.obj (.capacity attrs))) =>
      .inl (.reading 0 ((attrs.lookup "last_logical_block_address").getD 0) ((attrs.lookup "block_length_in_bytes").getD 0))
    | .reading lba last size, .ok (some (.obj (.raw (some d)))) => .inl (.writing lba last size d)
    | .writing lba last size _, .ok _ =>
      if last < lba + chunk n lba last then .inr (.ok ()) else .inl (.reading (lba + chunk n lba last) last size)
    | _, _ => .inr (.error (.py .typeError))

/-- The program knows the size of the source, and has the data of whole blocks of it. -/
def Knows (g : Geometry) (n : Nat) : Stage → Prop
  | .start => True
  | .reading lba last size => last + 1 = g.blocks ∧ size = g.size ∧ lba ≤ last
  | .writing lba last size data => last + 1 = g.blocks ∧ size = g.size ∧ lba ≤ last ∧ data.length = chunk n lba last * size

/-- The copy is done, or the exception has the sense data. -/
def Copied : Except (Exn (DevErr Sense)) Unit → Except (Nat × Nat × Nat) Unit → Prop
  | .ok (), .ok () => True
  | .error e, .error (key, asc, ascq) => ∃ raw s, e = .dev (.checkCondition raw (some s)) ∧ Says s key asc ascq
  | _, _ => False

/-- The first array and the second. -/
def both (a b : Contents) : Bool → Contents
  | false => a
  | true => b

theorem write_upTo (a b : Contents) (k l : Nat) : writeAt (upTo k a b) k (readAt a k l) = upTo (k + l) a b := by
  funext x
  simp only [writeAt, upTo, readAt, List.length_map, List.length_range]
  by_cases h : k ≤ x ∧ x < k + l
  · rw [if_pos h, if_pos h.2, List.getD_eq_getElem?_getD, List.getElem?_map, List.getElem?_range (by omega)]
    simp only [Option.map_some, Option.getD_some]
    rw [Nat.add_sub_cancel' h.1]
  · rw [if_neg h]
    by_cases hx : x < k
    · rw [if_pos hx, if_pos (by omega)]
    · rw [if_neg hx, if_neg (by omega)]

section array

variable {gs gd : Geometry} (hsize : gd.size = gs.size) (hpos : 0 < gs.size) {n : Nat} (hn : 0 < n) (a b : Contents)
include hsize hpos hn

/-- The geometries. -/
def geometries (gs gd : Geometry) : Bool → Geometry
  | false => gs
  | true => gd

theorem read_step {lba last : Nat} (hl : last + 1 = gs.blocks) (hle : lba ≤ last) (t : Contents) :
    OnArrays (geometries gs gd) ((copyArray n).ask (.reading lba last gs.size)) (both a t) (.data (readAt a (lba * gs.size) (chunk n lba last * gs.size))) (both a t) := by
  refine ⟨?_, fun _ _ => rfl⟩
  show Op.run gs a (.read lba (chunk n lba last)) = _
  simp only [Op.run]
  rw [if_pos (by unfold chunk; omega)]
  rfl

theorem write_step {lba last : Nat} (hl : lba + chunk n lba last ≤ gd.blocks) :
    OnArrays (geometries gs gd) ((copyArray n).ask (.writing lba last gs.size (readAt a (lba * gs.size) (chunk n lba last * gs.size))))
      (both a (upTo (lba * gs.size) a b)) .done (both a (upTo ((lba + chunk n lba last) * gs.size) a b)) := by
  refine ⟨?_, ?_⟩
  · show Op.run gd (upTo (lba * gs.size) a b) (.write lba (readAt a (lba * gs.size) (chunk n lba last * gs.size))) = (_, upTo _ a b)
    simp only [Op.run, readAt_length, hsize, Nat.mul_div_cancel _ hpos]
    rw [if_pos hl, write_upTo, ← Nat.add_mul]
  · intro j hj
    cases j with
    | false => rfl
    | true => exact absurd rfl hj

theorem write_fails {lba last : Nat} (hl : gd.blocks < lba + chunk n lba last) (t : Contents) :
    OnArrays (geometries gs gd) ((copyArray n).ask (.writing lba last gs.size (readAt a (lba * gs.size) (chunk n lba last * gs.size))))
      (both a t) (.failed 5 0x21 0) (both a t) := by
  refine ⟨?_, fun _ _ => rfl⟩
  show Op.run gd t (.write lba (readAt a (lba * gs.size) (chunk n lba last * gs.size))) = (_, t)
  simp only [Op.run, readAt_length, hsize, Nat.mul_div_cancel _ hpos]
  rw [if_neg (by omega)]

/-- The rest of a copy. -/
theorem copy_rest (hfit : gs.blocks ≤ gd.blocks) {last : Nat} (hl : last + 1 = gs.blocks) (d : Nat) : ∀ lba, lba ≤ last → (last - lba) / n = d →
    (copyArray n).Runs (Knows gs n) (OnArrays (geometries gs gd)) (.reading lba last gs.size) (both a (upTo (lba * gs.size) a b)) (.ok ())
      (both a (upTo (gs.blocks * gs.size) a b)) (2 * (d + 1)) := by
  induction d with
  | zero =>
    intro lba hle hd
    have hlt : last - lba < n := by
      rcases Nat.div_eq_zero_iff.1 hd with h | h
      · omega
      · exact h
    have hc : chunk n lba last = last + 1 - lba := by unfold chunk; omega
    have hend : lba + chunk n lba last = gs.blocks := by omega
    have hk : Knows gs n (.reading lba last gs.size) := ⟨hl, rfl, hle⟩
    have hk' : Knows gs n (.writing lba last gs.size (readAt a (lba * gs.size) (chunk n lba last * gs.size))) := ⟨hl, rfl, hle, readAt_length ..⟩
    have hw := write_step hsize hpos hn a b (lba := lba) (last := last) (by omega)
    rw [hend] at hw
    refine .more hk (read_step hsize hpos hn a hl hle _) rfl (.done hk' hw ?_)
    show (if last < lba + chunk n lba last then _ else _) = _
    rw [if_pos (by omega)]
  | succ d ih =>
    intro lba hle hd
    have hge : n ≤ last - lba := by
      rcases Nat.lt_or_ge (last - lba) n with h | h
      · rw [Nat.div_eq_of_lt h] at hd; cases hd
      · exact h
    have hc : chunk n lba last = n := by unfold chunk; omega
    have hk : Knows gs n (.reading lba last gs.size) := ⟨hl, rfl, hle⟩
    have hk' : Knows gs n (.writing lba last gs.size (readAt a (lba * gs.size) (chunk n lba last * gs.size))) := ⟨hl, rfl, hle, readAt_length ..⟩
    have hw := write_step hsize hpos hn a b (lba := lba) (last := last) (by omega)
    have hd' : (last - (lba + chunk n lba last)) / n = d := by
      rw [hc, Nat.sub_add_eq]
      rw [Nat.div_eq_sub_div hn hge] at hd
      omega
    refine .more hk (read_step hsize hpos hn a hl hle _) rfl (.more hk' hw ?_ (ih _ (by omega) hd'))
    show (if last < lba + chunk n lba last then _ else _) = _
    rw [if_neg (by omega)]

/-- The rest of a copy to a disk that is too small. -/
theorem copy_stops (hfit : gd.blocks < gs.blocks) {last : Nat} (hl : last + 1 = gs.blocks) (d : Nat) : ∀ lba, lba ≤ gd.blocks → (gd.blocks - lba) / n = d →
    (copyArray n).Runs (Knows gs n) (OnArrays (geometries gs gd)) (.reading lba last gs.size) (both a (upTo (lba * gs.size) a b)) (.error (5, 0x21, 0))
      (both a (upTo ((lba + d * n) * gs.size) a b)) (2 * (d + 1)) := by
  induction d with
  | zero =>
    intro lba hle hd
    have hlt : gd.blocks - lba < n := by
      rcases Nat.div_eq_zero_iff.1 hd with h | h
      · omega
      · exact h
    have hk : Knows gs n (.reading lba last gs.size) := ⟨hl, rfl, by omega⟩
    have hk' : Knows gs n (.writing lba last gs.size (readAt a (lba * gs.size) (chunk n lba last * gs.size))) := ⟨hl, rfl, by omega, readAt_length ..⟩
    rw [Nat.zero_mul, Nat.add_zero]
    exact .more hk (read_step hsize hpos hn a hl (by omega) _) rfl (.done hk' (write_fails hsize hpos hn a (by unfold chunk; omega) _) rfl)
  | succ d ih =>
    intro lba hle hd
    have hge : n ≤ gd.blocks - lba := by
      rcases Nat.lt_or_ge (gd.blocks - lba) n with h | h
      · rw [Nat.div_eq_of_lt h] at hd; cases hd
      · exact h
    have hc : chunk n lba last = n := by unfold chunk; omega
    have hk : Knows gs n (.reading lba last gs.size) := ⟨hl, rfl, by omega⟩
    have hk' : Knows gs n (.writing lba last gs.size (readAt a (lba * gs.size) (chunk n lba last * gs.size))) := ⟨hl, rfl, by omega, readAt_length ..⟩
    have hw := write_step hsize hpos hn a b (lba := lba) (last := last) (by omega)
    have hd' : (gd.blocks - (lba + chunk n lba last)) / n = d := by
      rw [hc, Nat.sub_add_eq]
      rw [Nat.div_eq_sub_div hn hge] at hd
      omega
    have hr := ih _ (by omega) hd'
    rw [hc] at hr hw
    rw [show lba + (d + 1) * n = lba + n + d * n by rw [Nat.add_mul]; omega]
    refine .more hk (read_step hsize hpos hn a hl (by omega) _) rfl (.more hk' (by rw [hc]; exact hw) ?_ hr)
    show (if last < lba + chunk n lba last then _ else _) = _
    rw [if_neg (by omega), hc]

/-- The copy of an array. -/
theorem copy_array (hb : 0 < gs.blocks) :
    (gs.blocks ≤ gd.blocks → (copyArray n).Runs (Knows gs n) (OnArrays (geometries gs gd)) .start (both a b) (.ok ()) (both a (upTo (gs.blocks * gs.size) a b))
      (2 * ((gs.blocks - 1) / n + 1) + 1)) ∧
    (gd.blocks < gs.blocks → (copyArray n).Runs (Knows gs n) (OnArrays (geometries gs gd)) .start (both a b) (.error (5, 0x21, 0))
      (both a (upTo (gd.blocks / n * n * gs.size) a b)) (2 * (gd.blocks / n + 1) + 1)) := by
  have h0 : upTo (0 * gs.size) a b = b := by funext x; simp [upTo]
  have hfirst : OnArrays (geometries gs gd) ((copyArray n).ask .start) (both a b) (.capacity (gs.blocks - 1) gs.size) (both a b) := ⟨rfl, fun _ _ => rfl⟩
  refine ⟨fun hfit => ?_, fun hfit => ?_⟩
  · have := copy_rest hsize hpos hn a b hfit (last := gs.blocks - 1) (by omega) _ 0 (by omega) rfl
    rw [h0, Nat.sub_zero] at this
    exact .more trivial hfirst rfl this
  · have := copy_stops hsize hpos hn a b hfit (last := gs.blocks - 1) (by omega) _ 0 (by omega) rfl
    rw [h0, Nat.sub_zero, Nat.zero_add] at this
    exact .more trivial hfirst rfl this

end array

/-- What the copy sends: command descriptor blocks of 16 bytes, and no more data than `n` blocks or the capacity. -/
def Small (n size : Nat) (q : Req) : Prop := q.cdb.length = 16 ∧ dataSize q ≤ max 32 (n * size)

theorem copy_small (L : Lib) (B : Parse.BufLib) (other : Bytes → Py (List (String × Int))) {g : Geometry} (hg : Valid g) {n : Nat} (hn : n < 2 ^ 32) (s : Stage)
    (hs : Knows g n s) (q : Req) (hq : ((onSeveral L B other (copyDisk n)).ask s).2.request = .ok q) : Small n g.size q := by
  have hle : ∀ lba last, chunk n lba last ≤ n := fun _ _ => Nat.min_le_left _ _
  have hb := hg.blocks
  cases s with
  | start =>
    cases (Cdb.C36_read_capacity16 L 0 0 ⟨by omega, by omega⟩ ⟨by omega, by omega⟩).symm.trans hq
    exact ⟨by simp [Req.cdb, Spec.Cdb.readCapacity16, cdb16, be_length], Nat.le_max_left _ _⟩
  | reading lba last size =>
    obtain ⟨h1, rfl, h2⟩ := hs
    have := hle lba last
    cases (Cdb.C26_read16 L lba (chunk n lba last) g.size ⟨by omega, by omega⟩ ⟨by omega, by omega⟩).symm.trans hq
    refine ⟨by simp [Req.cdb, Spec.Cdb.read16, cdb16], Nat.le_trans ?_ (Nat.le_max_right _ _)⟩
    simp only [dataSize]
    rw [← Int.natCast_mul, Int.toNat_natCast]
    exact Nat.mul_le_mul_right _ this
  | writing lba last size data =>
    obtain ⟨h1, rfl, h2, h3⟩ := hs
    obtain ⟨-, k, -, -, -, rfl⟩ := (Cdb.C28_write16 L lba data g.size q).1 hq
    refine ⟨by simp [Req.cdb, Spec.Cdb.write16, cdb16], Nat.le_trans ?_ (Nat.le_max_right _ _)⟩
    simp only [dataSize, h3]
    exact Nat.mul_le_mul_right _ (hle _ _)

theorem read_reply {g : Geometry} {m m' : Contents} {lba n : Nat} {r : Reply} (h : Op.run g m (.read lba n) = (r, m')) :
    (∃ bs, r = .data bs ∧ bs.length = n * g.size) ∨ r = .failed 5 0x21 0 := by
  simp only [Op.run] at h
  split at h <;> cases h
  · exact .inl ⟨_, rfl, readAt_length ..⟩
  · exact .inr rfl

theorem write_reply {g : Geometry} {m m' : Contents} {lba : Nat} {bs : Bytes} {r : Reply} (h : Op.run g m (.write lba bs) = (r, m')) : r = .done ∨ r = .failed 5 0x21 0 := by
  simp only [Op.run] at h
  split at h <;> cases h
  · exact .inl rfl
  · exact .inr rfl

theorem copy_next {gs gd : Geometry} (hg : Valid gs) {n : Nat} (hn : 0 < n) : ∀ s r reply (m m' : Bool → Contents), Knows gs n s →
    OnArrays (geometries gs gd) ((copyArray n).ask s) m reply m' → Shows r reply → Along Copied ((copyDisk n).next s r) ((copyArray n).next s reply) := by
  rintro s r reply m m' ho ⟨hrun, -⟩ hs
  have failed : ∀ key asc ascq, Shows r (.failed key asc ascq) → Along Copied ((copyDisk n).next s r) ((copyArray n).next s (.failed key asc ascq)) := by
    rintro key asc ascq ⟨raw, sn, rfl, h⟩
    cases s <;> exact ⟨raw, sn, rfl, h⟩
  cases s with
  | start =>
    have hrun' : Op.run gs (m false) .bigCapacity = (reply, m' false) := hrun
    cases (Prod.mk.inj hrun').1
    obtain ⟨attrs, rfl, h1, h2⟩ := hs
    simp only [copyDisk, copyArray, h1, h2, Option.getD_some]
    rfl
  | reading lba last size =>
    obtain ⟨h1, rfl, h2⟩ := ho
    have hrun' : Op.run gs (m false) (.read lba (chunk n lba last)) = (reply, m' false) := hrun
    rcases read_reply hrun' with ⟨bs, rfl, hl⟩ | rfl
    · have hne : bs ≠ [] := by
        rintro rfl
        have : 0 < chunk n lba last * gs.size := Nat.mul_pos (by unfold chunk; omega) hg.size.1
        simp only [List.length_nil] at hl
        omega
      cases hs
      simp only [copyDisk, copyArray, if_neg hne]
      rfl
    · exact failed _ _ _ hs
  | writing lba last size data =>
    have hrun' : Op.run gd (m true) (.write lba data) = (reply, m' true) := hrun
    rcases write_reply hrun' with rfl | rfl
    · cases hs
      simp only [copyDisk, copyArray]
      split
      · trivial
      · rfl
    · exact failed _ _ _ hs

theorem copy_direct {out : Req → Answer → Except (Exn (DevErr Sense)) (Option (Option Bytes))} (L : Lib) (B : Parse.BufLib)
    (other : Bytes → Py (List (String × Int))) {gs gd : Geometry} (hgs : Valid gs) (hgd : Valid gd) (hsize : gd.size = gs.size) (hD : Delivers out) {n : Nat}
    (hn : 0 < n ∧ n < 2 ^ 32) {a' : Except (Nat × Nat × Nat) Unit} {m m' : Bool → Contents} {k : Nat}
    (h : (copyArray n).Runs (Knows gs n) (OnArrays (geometries gs gd)) .start m a' m' k) :
    ∃ a, Copied a a' ∧ (onSeveral L B other (copyDisk n)).Runs (Knows gs n) (DirectOne (fun i => disk (geometries gs gd i)) out) .start m a m' k := by
  have hb := hgs.blocks
  have hle : ∀ lba last, chunk n lba last ≤ n := fun _ _ => Nat.min_le_left _ _
  refine disks_direct L B other (fun i => by cases i <;> assumption) hD (fun s hs => ?_) (copy_next hgs hn.1) h
  cases s with
  | start => exact ⟨rfl, .capacity16⟩
  | reading lba last size =>
    obtain ⟨h1, rfl, h2⟩ := hs
    have := hle lba last
    exact ⟨rfl, .read16 (g := gs) (by omega) (by omega)⟩
  | writing lba last size data =>
    obtain ⟨h1, rfl, h2, h3⟩ := hs
    have := hle lba last
    refine ⟨rfl, ?_⟩
    show Asks gd (.write16 lba data gs.size) _
    rw [← hsize] at h3 ⊢
    exact .write16 (g := gd) (by omega) h3 (by omega)

/-- What a copy has done: the source is as it was; when the target is not smaller, everything is copied, and what the target had beyond it is as it was; when it is
smaller, the program has the error of the first write that does not fit, and everything before is copied. -/
def Done (gs gd : Geometry) (n : Nat) (src dst : Contents) (r : Except (Exn (DevErr Sense)) Unit) (src' dst' : Contents) (commands : Nat) : Prop :=
  src' = src ∧
    if gs.blocks ≤ gd.blocks then
      r = .ok () ∧ dst' = upTo (gs.blocks * gs.size) src dst ∧ commands = 1 + 2 * ((gs.blocks - 1) / n + 1)
    else
      (∃ raw s, r = .error (.dev (.checkCondition raw (some s))) ∧ Says s 5 0x21 0) ∧ dst' = upTo (gd.blocks / n * n * gs.size) src dst ∧
        commands = 1 + 2 * (gd.blocks / n + 1)

theorem copy_done {out : Req → Answer → Except (Exn (DevErr Sense)) (Option (Option Bytes))} (L : Lib) (B : Parse.BufLib)
    (other : Bytes → Py (List (String × Int))) {gs gd : Geometry} (hgs : Valid gs) (hgd : Valid gd) (hsize : gd.size = gs.size) (hD : Delivers out) {n : Nat}
    (hn : 0 < n ∧ n < 2 ^ 32) (m : Bool → Contents) :
    ∃ a m' k, (onSeveral L B other (copyDisk n)).Runs (Knows gs n) (DirectOne (fun i => disk (geometries gs gd i)) out) .start m a m' k ∧
      Done gs gd n (m false) (m true) a (m' false) (m' true) k := by
  have hm : m = both (m false) (m true) := by funext i; cases i <;> rfl
  obtain ⟨h1, h2⟩ := copy_array hsize hgs.size.1 hn.1 (m false) (m true) hgs.blocks.1
  rw [← hm] at h1 h2
  by_cases hfit : gs.blocks ≤ gd.blocks
  · obtain ⟨a, h3, h4⟩ := copy_direct L B other hgs hgd hsize hD hn (h1 hfit)
    refine ⟨a, _, _, h4, rfl, ?_⟩
    rw [if_pos hfit]
    refine ⟨?_, rfl, Nat.add_comm _ _⟩
    cases a with
    | ok u => rfl
    | error e => exact h3.elim
  · obtain ⟨a, h3, h4⟩ := copy_direct L B other hgs hgd hsize hD hn (h2 (by omega))
    refine ⟨a, _, _, h4, rfl, ?_⟩
    rw [if_neg hfit]
    refine ⟨?_, rfl, Nat.add_comm _ _⟩
    cases a with
    | ok u => exact h3.elim
    | error e => obtain ⟨raw, s, rfl, h⟩ := h3; exact ⟨raw, s, rfl, h⟩

/-- **C101, the copy of a disk on Linux.** Two disks with blocks of the same size, each with its own executer. -/
theorem C101_copy_linux [DecidableEq K] (l : Bool) (alloc : Bool → Nat → Alloc) (t : Bool → Int) (ht : ∀ i, 0 ≤ t i ∧ t i < 2 ^ 32) (L : Lib) (B : Parse.BufLib) (other : Bytes → Py (List (String × Int)))
    (gs gd : Geometry) (hgs : Valid gs) (hgd : Valid gd) (hsize : gd.size = gs.size) (n : Nat) (hn : 0 < n ∧ n < 2 ^ 32)
    (hfit : ∀ i q, Small n gs.size q → LinuxOk (alloc i) q)
    (w : Bool → W Handle K (Option Bytes) (DevErr Sense) (World (Contents × Option Bytes))) (m : Bool → Contents) (hw : ∀ i, LinuxIdle (w i).st (w i).os (m i)) :
    let Runs := fun r w' commands => (onSeveral L B other (copyDisk n)).Runs (Knows gs n) (ThroughOne fun i =>
        machine (T := T) (Linux.sgBlocking (lp64 l) getSense (Linux.sgDevice l (disk (geometries gs gd i)))).plat (Linux.prepare (lp64 l) (alloc i) (t i))) .start w r w' commands
    (∃ r w' commands, Runs r w' commands) ∧
    ∀ r w' commands, Runs r w' commands → ∃ m' : Bool → Contents, (∀ i, LinuxIdle (w' i).st (w' i).os (m' i)) ∧ Done gs gd n (m false) (m true) r (m' false) (m' true) commands := by
  obtain ⟨a, m', k, h1, h2⟩ := copy_done L B other hgs hgd hsize outcome_delivers hn m
  have same := C101_linux (T := T) (K := K) l getSense (fun i => disk (geometries gs gd i)) alloc t ht
    (fun i m q h => disk_parses _ m q (by intro h0; rw [h0] at h; simp at h))
    (onSeveral L B other (copyDisk n)) (Knows gs n) (fun s hs q hq => hfit _ q (copy_small L B other hgs hn.2 s hs q hq)) .start w m hw
  obtain ⟨w', h3, -⟩ := (same a k).1 m' h1
  refine ⟨⟨a, w', k, h3⟩, fun r w'' k' h => ?_⟩
  obtain ⟨m'', h4, h5⟩ := (same r k').2 w'' h
  obtain ⟨rfl, rfl, rfl⟩ := runs_unique direct_unique h1 h4
  exact ⟨_, h5, h2⟩

/-- **C101, the copy of a disk on Solaris.** Two disks with blocks of the same size, each with its own executer. -/
theorem C101_copy_solaris [DecidableEq K] (l : Bool) (alloc : Bool → Nat → Alloc) (t : Bool → Int) (ht : ∀ i, 0 ≤ t i ∧ t i < 2 ^ 15) (L : Lib) (B : Parse.BufLib) (other : Bytes → Py (List (String × Int)))
    (gs gd : Geometry) (hgs : Valid gs) (hgd : Valid gd) (hsize : gd.size = gs.size) (n : Nat) (hn : 0 < n ∧ n < 2 ^ 32)
    (hfit : ∀ i q, Small n gs.size q → SolarisOk (alloc i) q)
    (w : Bool → W Handle K (Option Bytes) (DevErr Sense) (Solaris.SolWorld Contents)) (m : Bool → Contents) (hw : ∀ i, SolarisIdle (w i).st (w i).os (m i)) :
    let Runs := fun r w' commands => (onSeveral L B other (copyDisk n)).Runs (Knows gs n) (ThroughOne fun i =>
        machine (T := T) (Solaris.solBlocking (lp64 l) getSense (Solaris.uscsiDevice l (disk (geometries gs gd i)))).plat (Solaris.prepare (lp64 l) (alloc i) (t i))) .start w r w' commands
    (∃ r w' commands, Runs r w' commands) ∧
    ∀ r w' commands, Runs r w' commands → ∃ m' : Bool → Contents, (∀ i, SolarisIdle (w' i).st (w' i).os (m' i)) ∧ Done gs gd n (m false) (m true) r (m' false) (m' true) commands := by
  obtain ⟨a, m', k, h1, h2⟩ := copy_done L B other hgs hgd hsize outcome_delivers hn m
  have same := C101_solaris (T := T) (K := K) l getSense (fun i => disk (geometries gs gd i)) alloc t ht
    (fun i m q h => disk_parses _ m q (by intro h0; rw [h0] at h; simp at h))
    (onSeveral L B other (copyDisk n)) (Knows gs n) (fun s hs q hq => hfit _ q (copy_small L B other hgs hn.2 s hs q hq)) .start w m hw
  obtain ⟨w', h3, -⟩ := (same a k).1 m' h1
  refine ⟨⟨a, w', k, h3⟩, fun r w'' k' h => ?_⟩
  obtain ⟨m'', h4, h5⟩ := (same r k').2 w'' h
  obtain ⟨rfl, rfl, rfl⟩ := runs_unique direct_unique h1 h4
  exact ⟨_, h5, h2⟩

/-- **C101, the copy of a disk on AIX.** Two disks with blocks of the same size, each with its own executer. -/
theorem C101_copy_aix [DecidableEq K] (b : Aix.Binding) (alloc : Bool → Nat → Alloc) (t : Bool → Int) (ht : ∀ i, 0 ≤ t i ∧ t i < 2 ^ 32) (L : Lib) (B : Parse.BufLib) (other : Bytes → Py (List (String × Int)))
    (gs gd : Geometry) (hgs : Valid gs) (hgd : Valid gd) (hsize : gd.size = gs.size) (n : Nat) (hn : 0 < n ∧ n < 2 ^ 32)
    (hfit : ∀ i q, Small n gs.size q → AixOk b (alloc i) q)
    (w : Bool → W Handle K (Option Bytes) (DevErr Sense) (Aix.AixWorld Contents)) (m : Bool → Contents) (hw : ∀ i, AixIdle (w i).st (w i).os (m i)) :
    let Runs := fun r w' commands => (onSeveral L B other (copyDisk n)).Runs (Knows gs n) (ThroughOne fun i =>
        machine (T := T) (Aix.aixBlocking (lp64 false) getSense b (Aix.scDevice (disk (geometries gs gd i)))).plat (Aix.prepare (lp64 false) (alloc i) (t i))) .start w r w' commands
    (∃ r w' commands, Runs r w' commands) ∧
    ∀ r w' commands, Runs r w' commands → ∃ m' : Bool → Contents, (∀ i, AixIdle (w' i).st (w' i).os (m' i)) ∧ Done gs gd n (m false) (m true) r (m' false) (m' true) commands := by
  obtain ⟨a, m', k, h1, h2⟩ := copy_done L B other hgs hgd hsize outcome_delivers hn m
  have same := C101_aix (T := T) (K := K) getSense b (fun i => disk (geometries gs gd i)) alloc t ht
    (fun i m q h => disk_parses _ m q (by intro h0; rw [h0] at h; simp at h))
    (onSeveral L B other (copyDisk n)) (Knows gs n) (fun s hs q hq => hfit _ q (copy_small L B other hgs hn.2 s hs q hq)) .start w m hw
  obtain ⟨w', h3, -⟩ := (same a k).1 m' h1
  refine ⟨⟨a, w', k, h3⟩, fun r w'' k' h => ?_⟩
  obtain ⟨m'', h4, h5⟩ := (same r k').2 w'' h
  obtain ⟨rfl, rfl, rfl⟩ := runs_unique direct_unique h1 h4
  exact ⟨_, h5, h2⟩

/-- **C101, the copy of a disk on Windows.** Two disks with blocks of the same size, each with its own executer. -/
theorem C101_copy_windows [DecidableEq K] (b : Bool) (alloc : Bool → Nat → Alloc) (L : Lib) (B : Parse.BufLib) (other : Bytes → Py (List (String × Int)))
    (gs gd : Geometry) (hgs : Valid gs) (hgd : Valid gd) (hsize : gd.size = gs.size) (n : Nat) (hn : 0 < n ∧ n < 2 ^ 32)
    (hfit : ∀ i q, Small n gs.size q → WindowsOk b (alloc i) q)
    (w : Bool → W Win32.Spt K (Option Bytes) (DevErr Sense) (Win32.WinWorld Contents)) (m : Bool → Contents) (hw : ∀ i, WindowsIdle (w i).st (w i).os (m i)) :
    let Runs := fun r w' commands => (onSeveral L B other (copyDisk n)).Runs (Knows gs n) (ThroughOne fun i =>
        machine (T := T) (Win32.winPlat (Win32.W b) getSense (Win32.sptDevice b (disk (geometries gs gd i)))) (Win32.prepare (Win32.W b) (alloc i))) .start w r w' commands
    (∃ r w' commands, Runs r w' commands) ∧
    ∀ r w' commands, Runs r w' commands → ∃ m' : Bool → Contents, (∀ i, WindowsIdle (w' i).st (w' i).os (m' i)) ∧ Done gs gd n (m false) (m true) r (m' false) (m' true) commands := by
  obtain ⟨a, m', k, h1, h2⟩ := copy_done L B other hgs hgd hsize winOutcome_delivers hn m
  have same := C101_windows (T := T) (K := K) b getSense (fun i => disk (geometries gs gd i)) alloc
    (fun i m q h => disk_parses _ m q (by rw [h]; decide))
    (onSeveral L B other (copyDisk n)) (Knows gs n) (fun s hs q hq => hfit _ q (copy_small L B other hgs hn.2 s hs q hq)) .start w m hw
  obtain ⟨w', h3, -⟩ := (same a k).1 m' h1
  refine ⟨⟨a, w', k, h3⟩, fun r w'' k' h => ?_⟩
  obtain ⟨m'', h4, h5⟩ := (same r k').2 w'' h
  obtain ⟨rfl, rfl, rfl⟩ := runs_unique direct_unique h1 h4
  exact ⟨_, h5, h2⟩

theorem example_fits (q : Req) (h : Small 8 512 q) : LinuxOk (fun _ => { block := 4096, sense := 8192, cmd := 12288, data := 16384 }) q := by
  obtain ⟨h1, h2⟩ := h
  have h2' : dataSize q ≤ 4096 := h2
  refine ⟨by omega, by omega, fun _ => ⟨?_, ?_⟩⟩
  · simp [h1]
    try omega
  · simp [h1]
    try omega

/-- The hypotheses are met: a disk of 1000 blocks of 512 bytes is copied, 8 blocks at a time, to one of 2000 blocks, with 251 commands; -/
example (L : Lib) (B : Parse.BufLib) (other : Bytes → Py (List (String × Int))) (m : Bool → Contents) :
    ∃ w', ∃ m' : Bool → Contents, (onSeveral L B other (copyDisk 8)).Runs (Knows ⟨512, 1000⟩ 8) (ThroughOne fun i => machine (T := Unit)
        (Linux.sgBlocking (K := Unit) (lp64 true) getSense (Linux.sgDevice true (disk (geometries ⟨512, 1000⟩ ⟨512, 2000⟩ i)))).plat
        (Linux.prepare (lp64 true) (fun _ => { block := 4096, sense := 8192, cmd := 12288, data := 16384 }) 30000)) .start
        (fun i => { st := { pending := [], index := 6, maxq := 7 }, os := { mem := fun _ => 0xEE, kernel := (m i, none) }, fired := [], box := fun _ => [] })
        (.ok ()) w' 251 ∧ (∀ i, LinuxIdle (w' i).st (w' i).os (m' i)) ∧ m' false = m false ∧ ∀ x, m' true x = if x < 512000 then m false x else m true x := by
  obtain ⟨⟨r, w', k, h1⟩, h2⟩ := C101_copy_linux (T := Unit) (K := Unit) true (fun _ _ => { block := 4096, sense := 8192, cmd := 12288, data := 16384 })
    (fun _ => 30000) (fun _ => by decide) L B other ⟨512, 1000⟩ ⟨512, 2000⟩ ⟨by decide, by decide⟩ ⟨by decide, by decide⟩ rfl 8 (by decide) (fun _ => example_fits)
    (fun i => { st := { pending := [], index := 6, maxq := 7 }, os := { mem := fun _ => 0xEE, kernel := (m i, none) }, fired := [], box := fun _ => [] }) m
    (fun _ => ⟨rfl, by simp, by simp, by simp, rfl⟩)
  obtain ⟨m', h3, h4, h5⟩ := h2 r w' k h1
  rw [if_pos (by decide)] at h5
  obtain ⟨rfl, h6, rfl⟩ := h5
  exact ⟨w', m', h1, h3, h4, fun x => by rw [h6]; rfl⟩

/-- and to one of 100 blocks, where 96 are copied before the program has ILLEGAL REQUEST, LOGICAL BLOCK ADDRESS OUT OF RANGE. -/
example (L : Lib) (B : Parse.BufLib) (other : Bytes → Py (List (String × Int))) (m : Bool → Contents) :
    ∃ raw s w', ∃ m' : Bool → Contents, (onSeveral L B other (copyDisk 8)).Runs (Knows ⟨512, 1000⟩ 8) (ThroughOne fun i => machine (T := Unit)
        (Linux.sgBlocking (K := Unit) (lp64 true) getSense (Linux.sgDevice true (disk (geometries ⟨512, 1000⟩ ⟨512, 100⟩ i)))).plat
        (Linux.prepare (lp64 true) (fun _ => { block := 4096, sense := 8192, cmd := 12288, data := 16384 }) 30000)) .start
        (fun i => { st := { pending := [], index := 6, maxq := 7 }, os := { mem := fun _ => 0xEE, kernel := (m i, none) }, fired := [], box := fun _ => [] })
        (.error (.dev (.checkCondition raw (some s)))) w' 27 ∧ Says s 5 0x21 0 ∧ (∀ i, LinuxIdle (w' i).st (w' i).os (m' i)) ∧ m' false = m false ∧
      ∀ x, m' true x = if x < 96 * 512 then m false x else m true x := by
  obtain ⟨⟨r, w', k, h1⟩, h2⟩ := C101_copy_linux (T := Unit) (K := Unit) true (fun _ _ => { block := 4096, sense := 8192, cmd := 12288, data := 16384 })
    (fun _ => 30000) (fun _ => by decide) L B other ⟨512, 1000⟩ ⟨512, 100⟩ ⟨by decide, by decide⟩ ⟨by decide, by decide⟩ rfl 8 (by decide) (fun _ => example_fits)
    (fun i => { st := { pending := [], index := 6, maxq := 7 }, os := { mem := fun _ => 0xEE, kernel := (m i, none) }, fired := [], box := fun _ => [] }) m
    (fun _ => ⟨rfl, by simp, by simp, by simp, rfl⟩)
  obtain ⟨m', h3, h4, h5⟩ := h2 r w' k h1
  rw [if_neg (by decide)] at h5
  obtain ⟨⟨raw, s, rfl, hs⟩, h6, rfl⟩ := h5
  exact ⟨raw, s, w', m', h1, hs, h3, h4, fun x => by rw [h6]; rfl⟩

end Verif.Commands.Clients
