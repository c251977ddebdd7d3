import Verif.Spec.Paths
import Verif.Props.Patient
/-!
# C106: a disk with several paths

Several executers of one process, one for each path to the same disk. The kernel finds the disk as the last command left it, by whichever path that was.
-/
set_option linter.unusedSimpArgs false
set_option linter.unusedSectionVars false

namespace Verif.Commands.Clients.Paths

open Verif.Executer Verif.Coroutine Verif.ExecuterGen Verif.Platform Verif.Spec Verif.Spec.Cdb Verif.Sense Verif.Spec.Disk Verif.Spec.Paths

variable {ι C Q K D E R Gp T ω δ σ A A' : Type}

/-- The device in what an executer sees of the world. -/
class HasDevice (ω : Type) (δ : outParam Type) where
  device : ω → δ
  attach : δ → ω → ω

instance : HasDevice (World (δ × Option Bytes)) δ := ⟨fun o => o.kernel.1, fun k o => { o with kernel := (k, o.kernel.2) }⟩
instance : HasDevice (Solaris.SolWorld δ) δ := ⟨fun o => o.world.kernel, fun k o => { o with world := { o.world with kernel := k } }⟩
instance : HasDevice (Aix.AixWorld δ) δ := ⟨fun o => o.world.kernel, fun k o => { o with world := { o.world with kernel := k } }⟩
instance : HasDevice (Win32.WinWorld δ) δ := ⟨fun o => o.world.kernel, fun k o => { o with world := { o.world with kernel := k } }⟩

/-- Executing a command with one of the executers of the process. All reach the same device. The others find the memory as this call leaves it. -/
def ThroughPath [HasMem ω] [HasDevice ω δ] (M : ι → Machine (Frame C Q K D R Gp) (W Q K D E ω) (Val D E R) (Exn E) T) (x : ι × Command C D R) (w : (ι → W Q K D E ω) × δ)
    (r : Except (Exn E) (Option (Val D E R))) (w' : (ι → W Q K D E ω) × δ) : Prop :=
  Through (M x.1) x.2 { w.1 x.1 with os := HasDevice.attach w.2 (w.1 x.1).os } r (w'.1 x.1) ∧ w'.2 = HasDevice.device (w'.1 x.1).os ∧
    ∀ j, j ≠ x.1 → w'.1 j = { w.1 j with os := HasMem.put (HasMem.mem (w'.1 x.1).os) (w.1 j).os }

/-- Giving it to the device by that path. -/
def DirectPath (dev : ι → Device δ) (out : Req → Answer → Except (Exn E) (Option D)) (x : ι × Command Req D R) (k : δ)
    (r : Except (Exn E) (Option (Val D E R))) (k' : δ) : Prop :=
  Direct (dev x.1) out x.2 k r k'

section

variable [DecidableEq ι] [DecidableEq K] [HasMem ω] [HasDevice ω δ] {M : ι → Machine (Frame Req Q K D R Gp) (W Q K D E ω) (Val D E R) (Exn E) T} {dev : ι → Device δ}
  {out : Req → Answer → Except (Exn E) (Option D)} {fits : ι → Req → Prop} {idle : W Q K D E ω → δ → Prop}
  {p : Client σ (ι × Command Req D R) (Except (Exn E) (Option (Val D E R))) A} {ok : σ → Prop}

/-- Using the executers is using the device by its paths. -/
theorem same_paths (hS : ∀ i, Serves (M i) (dev i) out (fits i) idle)
    (hput : ∀ (w : W Q K D E ω) k m, idle w k → idle { w with os := HasMem.put m w.os } k)
    (hattach : ∀ (w : W Q K D E ω) k k', idle w k → idle { w with os := HasDevice.attach k' w.os } k')
    (hdev : ∀ (w : W Q K D E ω) k, idle w k → HasDevice.device w.os = k)
    (hok : ∀ s, ok s → ∀ q, (p.ask s).2.request = .ok q → fits (p.ask s).1 q) (s : σ) (w : ι → W Q K D E ω) (k : δ) (hw : ∀ i, ∃ k, idle (w i) k)
    (a : A) (n : Nat) :
    (∀ k', p.Runs ok (DirectPath dev out) s k a k' n → ∃ w', p.Runs ok (ThroughPath M) s (w, k) a (w', k') n ∧ ∀ i, ∃ k, idle (w' i) k) ∧
    (∀ w' k', p.Runs ok (ThroughPath M) s (w, k) a (w', k') n → p.Runs ok (DirectPath dev out) s k a k' n ∧ ∀ i, ∃ k, idle (w' i) k) := by
  constructor
  · intro k' h
    obtain ⟨x, h1, h2, h3⟩ := runs_sim (exec₂ := ThroughPath M) (rel := fun (k : δ) (w : (ι → W Q K D E ω) × δ) => w.2 = k ∧ ∀ i, ∃ k, idle (w.1 i) k) (fun s ho k w r k' hw he => by
      obtain ⟨w, k₀⟩ := w
      obtain ⟨hk, hw⟩ := hw
      simp only at hk hw
      subst hk
      obtain ⟨k₁, hi⟩ := hw (p.ask s).1
      obtain ⟨v, h1, h2⟩ := hS (p.ask s).1 (p.ask s).2 _ k₀ (hok s ho) (hattach _ _ k₀ hi)
      rw [DirectPath, Direct] at he
      rw [he] at h1 h2
      refine ⟨(fun j => if j = (p.ask s).1 then v else { w j with os := HasMem.put (HasMem.mem v.os) (w j).os }, k'), ⟨?_, ?_, ?_⟩, rfl, ?_⟩
      · simpa only [Through, if_true] using h1
      · simp only [if_true]
        exact (hdev _ _ h2).symm
      · intro j hj
        simp only [if_neg hj, if_true]
      · intro j
        by_cases hj : j = (p.ask s).1
        · subst hj; exact ⟨k', by simpa only [if_true] using h2⟩
        · obtain ⟨kj, h⟩ := hw j
          exact ⟨kj, by simp only [if_neg hj]; exact hput _ _ _ h⟩) h (w, k) ⟨rfl, hw⟩
    obtain ⟨w', k''⟩ := x
    cases h2
    exact ⟨w', h1, h3⟩
  · intro w' k' h
    obtain ⟨k'', h1, h2, h3⟩ := runs_sim (exec₂ := DirectPath dev out) (rel := fun (w : (ι → W Q K D E ω) × δ) (k : δ) => w.2 = k ∧ ∀ i, ∃ k, idle (w.1 i) k) (fun s ho w k r w' hw he => by
      obtain ⟨w, k₀⟩ := w
      obtain ⟨hk, hw⟩ := hw
      simp only at hk hw
      subst hk
      obtain ⟨w', k'⟩ := w'
      obtain ⟨he, hk', hother⟩ := he
      simp only at he hk' hother
      obtain ⟨k₁, hi⟩ := hw (p.ask s).1
      obtain ⟨v, h1, h2⟩ := hS (p.ask s).1 (p.ask s).2 _ k₀ (hok s ho) (hattach _ _ k₀ hi)
      obtain ⟨e1, e2⟩ := runAll_unique he h1
      rw [e2] at h2
      refine ⟨_, Prod.ext e1 rfl, ?_, ?_⟩
      · exact hk'.trans (hdev _ _ h2)
      · intro j
        by_cases hj : j = (p.ask s).1
        · subst hj; exact ⟨_, h2⟩
        · obtain ⟨kj, h⟩ := hw j
          exact ⟨kj, by simp only [hother j hj]; exact hput _ _ _ h⟩) h k ⟨rfl, hw⟩
    cases h2
    exact ⟨h1, h3⟩

end

/-! ## The paths of a disk -/

/-- In the manner of

    except AsiCheckConditionError as e:
        if e.sense_obj.sense_key == 'NOT_READY':
            executer = the_next(executer)
            continue
-/
def isNotReady : Seen → Bool
  | .error (.dev (.checkCondition _ (some s))) => s.key == "NOT_READY"
  | _ => false

theorem standby_shown {r : Seen} {asc ascq : Nat} (h : Shows r (.failed 2 asc ascq)) : isNotReady r = true := by
  obtain ⟨raw, s, rfl, hs⟩ := h
  simp only [isNotReady, hs.1]
  rfl

/-- The disk itself is always ready. -/
theorem other_shown {g : Geometry} {m : Contents} {op : Op} {r : Seen} (h : Shows r (op.run g m).1) : isNotReady r = false := by
  have key : ∀ key asc ascq, (op.run g m).1 = .failed key asc ascq → key = 5 ∨ key = 0x0E := by
    intro key asc ascq
    cases op <;> simp only [Op.run] <;> (try split) <;> (try split) <;> simp <;> omega
  generalize hx : (op.run g m).1 = x at h key
  cases x with
  | failed k a q =>
    obtain ⟨raw, s, rfl, hs⟩ := h
    simp only [isNotReady, hs.1]
    rcases key k a q rfl with rfl | rfl <;> decide
  | capacity => obtain ⟨_, rfl, -⟩ := h; rfl
  | ready => rw [show r = _ from h]; rfl
  | data => rw [show r = _ from h]; rfl
  | done => rw [show r = _ from h]; rfl

/-- How many turns it is from `i` to `a`. -/
def turns (n i a : Nat) : Nat := if i ≤ a then a - i else a + n - i

/-- How many commands can still find their path in standby, `i` being tried next. -/
def cost (n i : Nat) (s : State) : Nat := (n - 1) * s.changes + turns n i s.active

theorem turn_lt {n i : Nat} (h : i < n) : turn n i < n := by simp only [turn]; split <;> omega

theorem turns_lt {n i a : Nat} (ha : a < n) : turns n i a ≤ n - 1 := by simp only [turns]; split <;> omega

theorem turns_turn {n i a : Nat} (hi : i < n) (ha : a < n) (h : i ≠ a) : turns n (turn n i) a + 1 = turns n i a := by
  simp only [turns, turn]
  split <;> split <;> (try split) <;> omega

theorem next_among {n : Nat} {s : State} (h : s.Among n) : s.next.Among n := by
  obtain ⟨c, a, ms⟩ := s
  cases ms with
  | nil => exact h
  | cons x ms =>
    refine ⟨?_, fun i hi => h.2 i (List.mem_cons_of_mem _ hi)⟩
    cases x with
    | none => exact h.1
    | some j => exact h.2 j List.mem_cons_self

/-- A change costs no more than a whole round. -/
theorem cost_next {n i : Nat} {s : State} (h : s.Among n) : cost n i s.next ≤ cost n i s ∧ s.next.contents = s.contents := by
  refine ⟨?_, rfl⟩
  obtain ⟨c, a, ms⟩ := s
  cases ms with
  | nil => exact Nat.le_refl _
  | cons x ms =>
    cases x with
    | none => simp only [cost, State.next, State.changes, List.headD_cons, Option.getD_none, List.tail_cons, List.countP_cons, Option.isSome_none]; simp
    | some j =>
      have hj : j < n := h.2 j List.mem_cons_self
      have := turns_lt (i := i) hj
      simp only [cost, State.next, State.changes, List.headD_cons, Option.getD_some, List.tail_cons, List.countP_cons, Option.isSome_some, if_true, Nat.mul_add, Nat.mul_one]
      omega

section direct

variable {out : Req → Answer → Except (Exn (DevErr Sense)) (Option (Option Bytes))} (L : Lib) (B : Parse.BufLib) (other : Bytes → Py (List (String × Int)))
  {g : Geometry} (hg : Valid g) (hD : Delivers out)
include hg hD

/-- One command. -/
theorem path_direct {c : Cmd} {op : Op} (h : Asks g c op) (i : Nat) (s : State) :
    ∃ r : Seen, DirectPath (path g) out (i, c.command L B other) s r (if i = s.next.active then { s.next with contents := (op.run g s.contents).2 } else s.next) ∧
      (i = s.next.active → Shows r (op.run g s.contents).1 ∧ isNotReady r = false) ∧ (i ≠ s.next.active → isNotReady r = true) := by
  obtain ⟨q, hq, hm, hs⟩ := step L B other s.contents hg hD h
  by_cases hi : i = s.next.active
  · refine ⟨_, ?_, fun _ => ⟨hs, other_shown hs⟩, fun h => absurd hi h⟩
    simp only [DirectPath, Clients.Direct, askAll, hq, path, hi, if_true, hm]
  · refine ⟨decoded (c.command L B other) (out q (failed 2 0x04 0x0B)), ?_, fun h => absurd h hi, fun _ => standby_shown (asc := 0x04) (ascq := 0x0B) ?_⟩
    · simp only [DirectPath, Clients.Direct, askAll, hq, path, hi, if_false]
    · obtain ⟨raw, sn, e, hsn⟩ := hD.fails q 2 0x04 0x0B (by decide) (by decide) (by decide)
      exact ⟨raw, sn, by rw [e]; rfl, hsn⟩

/-- The attempts at one command. -/
theorem attempts {n : Nat} {p : Client σ Cmd Seen A} {ok : σ → Prop} {s : σ} (ho : ok s) {op : Op} (hask : Asks g (p.ask s) op) : ∀ (N i : Nat) (k : State), i < n → k.Among n → cost n i k < N →
    ∃ (k' : State) (i' j : Nat) (r : Seen), k'.Among n ∧ i' < n ∧ k'.contents = (op.run g k.contents).2 ∧ j + cost n i' k' ≤ cost n i k ∧ Shows r (op.run g k.contents).1 ∧
      (∀ a, p.next s r = .inr a →
        (onSeveral L B other (failover n isNotReady p)).Runs (fun x => ok x.1 ∧ x.2 < n) (DirectPath (path g) out) (s, i) k a k' (j + 1)) ∧
      ∀ s' a k'' m, p.next s r = .inl s' → (onSeveral L B other (failover n isNotReady p)).Runs (fun x => ok x.1 ∧ x.2 < n) (DirectPath (path g) out) (s', i') k' a k'' m →
        (onSeveral L B other (failover n isNotReady p)).Runs (fun x => ok x.1 ∧ x.2 < n) (DirectPath (path g) out) (s, i) k a k'' (m + j + 1)
  | 0, _, _, _, _, h => absurd h (Nat.not_lt_zero _)
  | N + 1, i, k, hi, hk, h => by
    obtain ⟨r, h1, h2, h3⟩ := path_direct L B other hg hD hask i k
    obtain ⟨hc, hcont⟩ := cost_next (i := i) hk
    by_cases hact : i = k.next.active
    · rw [if_pos hact] at h1
      obtain ⟨h4, h5⟩ := h2 hact
      refine ⟨{ k.next with contents := (op.run g k.contents).2 }, i, 0, r, next_among hk, hi, rfl, ?_, h4, fun a ha => .done ⟨ho, hi⟩ h1 ?_, fun s' a k'' m hs' hm => .more ⟨ho, hi⟩ h1 ?_ hm⟩
      · rw [Nat.zero_add]; exact hc
      · simp only [onSeveral, failover, h5, ha]; rfl
      · simp only [onSeveral, failover, h5, hs']; rfl
    · rw [if_neg hact] at h1
      have hlt := turns_turn hi (next_among hk).1 hact
      have hstep : cost n (turn n i) k.next + 1 ≤ cost n i k := by
        simp only [cost] at hc ⊢
        omega
      obtain ⟨k', i', j, r', h4, h5, h6, h7, h8, h9, h10⟩ := attempts ho hask N (turn n i) k.next (turn_lt hi) (next_among hk) (by omega)
      rw [hcont] at h6 h8
      have hnext : (onSeveral L B other (failover n isNotReady p)).next (s, i) r = .inl (s, turn n i) := by
        show (if isNotReady r then _ else _) = _
        rw [h3 hact]; rfl
      exact ⟨k', i', j + 1, r', h4, h5, h6, by omega, h8, fun a ha => .more ⟨ho, hi⟩ h1 hnext (h9 a ha), fun s' a k'' m hs' hm => .more ⟨ho, hi⟩ h1 hnext (h10 s' a k'' m hs' hm)⟩

theorem failover_direct {n : Nat} {p : Client σ Cmd Seen A} {q : Client σ Op Reply A'} {ok : σ → Prop} {Rel : A → A' → Prop} (hask : ∀ s, ok s → Asks g (p.ask s) (q.ask s))
    (hnext : ∀ s r reply, ok s → Shows r reply → Along Rel (p.next s r) (q.next s reply)) {s : σ} {m m' : Contents} {a' : A'} {c : Nat} (h : q.Runs ok (OnArray g) s m a' m' c) :
    ∀ (i : Nat) (k : State), i < n → k.Among n → k.contents = m → ∃ a k' N, Rel a a' ∧ k'.contents = m' ∧ c ≤ N ∧ N ≤ c + cost n i k ∧
      (onSeveral L B other (failover n isNotReady p)).Runs (fun x => ok x.1 ∧ x.2 < n) (DirectPath (path g) out) (s, i) k a k' N := by
  induction h with
  | @done s m reply m' a' ho hd hn =>
    intro i k hi hk hm
    obtain ⟨k', i', j, r, h1, h2, h3, h4, h5, h6, -⟩ := attempts L B other hg hD (p := p) ho (hask s ho) (cost n i k + 1) i k hi hk (Nat.lt_succ_self _)
    rw [OnArray] at hd
    rw [hm, hd] at h3 h5
    have h7 := hnext s r reply ho h5
    rw [hn] at h7
    cases hp : p.next s r with
    | inl s' => rw [hp] at h7; exact h7.elim
    | inr a => rw [hp] at h7; exact ⟨a, k', j + 1, h7, h3, by omega, by omega, h6 a hp⟩
  | @more s m reply m' s' a' m'' c ho hd hn _ ih =>
    intro i k hi hk hm
    obtain ⟨k', i', j, r, h1, h2, h3, h4, h5, -, h6⟩ := attempts L B other hg hD (p := p) ho (hask s ho) (cost n i k + 1) i k hi hk (Nat.lt_succ_self _)
    rw [OnArray] at hd
    rw [hm, hd] at h3 h5
    have h7 := hnext s r reply ho h5
    rw [hn] at h7
    cases hp : p.next s r with
    | inl s1 =>
      rw [hp] at h7
      obtain ⟨a, k'', N, h8, h9, h10, h11, h12⟩ := ih i' k' h2 h1 h3
      rw [← show s1 = s' from h7] at h12
      exact ⟨a, k'', N + j + 1, h8, h9, by omega, by omega, h6 s1 a k'' N hp h12⟩
    | inr a => rw [hp] at h7; exact h7.elim

end direct

theorem path_parses (g : Geometry) (i : Nat) : ∀ s q, (path g i s q).1.status ≠ 0 → ∃ sn, getSense (padded 255 (path g i s q).1.sense) = .ok sn := by
  intro s q h
  simp only [path] at h ⊢
  by_cases hi : i = s.next.active
  · rw [if_pos hi] at h ⊢; exact disk_parses g s.contents q h
  · rw [if_neg hi]
    obtain ⟨sn, hs, -⟩ := getSense_says _ (by rw [padded_length]; decide) 2 0x04 0x0B (reports_padded _ _ _ _ (failed_reports 2 0x04 0x0B (by decide) (by decide) (by decide)))
    exact ⟨_, hs⟩

theorem path_unique {dev : ι → Device δ} {out : Req → Answer → Except (Exn E) (Option D)} (c : ι × Command Req D R) (k : δ) (r) (k' : δ) (r₁) (k₁ : δ)
    (h : DirectPath dev out c k r k') (h₁ : DirectPath dev out c k r₁ k₁) : r = r₁ ∧ k' = k₁ := one_unique _ _ _ _ _ _ h h₁

/-- In the beginning. -/
theorem cost_le {n i : Nat} {k : State} (hk : k.Among n) : cost n i k ≤ (n - 1) * (k.changes + 1) := by
  have := turns_lt (i := i) hk.1
  simp only [cost, Nat.mul_add, Nat.mul_one]
  omega

/-- **C106 on Linux.** A disk is reached by `n` paths, with an executer for each; one path is active, and the controller makes another one active when it likes. `q` is a program on an array
of bytes; `p` is the same program with command objects of the library; it gives a command again by the next path when it ends with NOT READY. By whichever path it begins: when `q`
ends, `p` ends, in one way only, with the same result, leaving the same contents. Each change of the active path costs at most `n - 1` more commands, and so does the beginning. -/
theorem C106_linux [DecidableEq K] (l : Bool) (alloc : Nat → Nat → Alloc) (t : Nat → Int) (ht : ∀ i, 0 ≤ t i ∧ t i < 2 ^ 32) (L : Lib) (B : Parse.BufLib) (other : Bytes → Py (List (String × Int)))
    (g : Geometry) (hg : Valid g) (n : Nat) (p : Client σ Cmd Seen A) (q : Client σ Op Reply A') (ok : σ → Prop) (Rel : A → A' → Prop)
    (hask : ∀ s, ok s → Asks g (p.ask s) (q.ask s)) (hfit : ∀ s, ok s → ∀ r, Cdb.request L (p.ask s).cdb = .ok r → ∀ i, LinuxOk (alloc i) r)
    (hnext : ∀ s r reply, ok s → Shows r reply → Along Rel (p.next s r) (q.next s reply))
    (w : Nat → W Handle K (Option Bytes) (DevErr Sense) (World (State × Option Bytes))) (hw : ∀ i, ∃ k, LinuxIdle (w i).st (w i).os k) (k : State) (hk : k.Among n) (i : Nat) (hi : i < n) (s : σ) (a' : A') (m' : Contents) (c : Nat)
    (h : q.Runs ok (OnArray g) s k.contents a' m' c) :
    let Runs := fun a w' k' N => (onSeveral L B other (failover n isNotReady p)).Runs (fun x => ok x.1 ∧ x.2 < n)
      (ThroughPath fun i => machine (T := T) (Linux.sgBlocking (lp64 l) getSense (Linux.sgDevice l (path g i))).plat (Linux.prepare (lp64 l) (alloc i) (t i))) (s, i) (w, k) a (w', k') N
    (∃ a w' k' N, Runs a w' k' N) ∧ ∀ a w' k' N, Runs a w' k' N → Rel a a' ∧ k'.contents = m' ∧ c ≤ N ∧ N ≤ c + (n - 1) * (k.changes + 1) ∧ ∀ i, ∃ k, LinuxIdle (w' i).st (w' i).os k := by
  obtain ⟨a, k', N, h1, h2, h3, h4, h5⟩ := failover_direct L B other hg outcome_delivers hask hnext h i k hi hk rfl
  have same := fun a N => same_paths (idle := fun w k => LinuxIdle w.st w.os k) (p := onSeveral L B other (failover n isNotReady p)) (ok := fun x => ok x.1 ∧ x.2 < n)
    (fun i => serves_linux (T := T) l getSense (path g i) (alloc i) (t i) (ht i) fun k q h => path_parses g i k q (by intro h0; rw [h0] at h; simp at h)) (fun _ _ _ h => h) (fun _ _ _ h => ⟨h.1, h.2.1, h.2.2.1, h.2.2.2.1, rfl⟩)
    (fun _ _ h => h.2.2.2.2) (fun x ho r hr => hfit x.1 ho.1 r hr x.2) (s, i) w k hw a N
  obtain ⟨w', h6, -⟩ := (same a N).1 k' h5
  refine ⟨⟨a, w', k', N, h6⟩, fun a₁ w₁ k₁ N₁ h => ?_⟩
  obtain ⟨h7, h8⟩ := (same a₁ N₁).2 w₁ k₁ h
  obtain ⟨rfl, rfl, rfl⟩ := runs_unique path_unique h5 h7
  exact ⟨h1, h2, h3, Nat.le_trans h4 (Nat.add_le_add_left (cost_le hk) _), h8⟩

/-- **C106 on Solaris.** -/
theorem C106_solaris [DecidableEq K] (l : Bool) (alloc : Nat → Nat → Alloc) (t : Nat → Int) (ht : ∀ i, 0 ≤ t i ∧ t i < 2 ^ 15) (L : Lib) (B : Parse.BufLib) (other : Bytes → Py (List (String × Int)))
    (g : Geometry) (hg : Valid g) (n : Nat) (p : Client σ Cmd Seen A) (q : Client σ Op Reply A') (ok : σ → Prop) (Rel : A → A' → Prop)
    (hask : ∀ s, ok s → Asks g (p.ask s) (q.ask s)) (hfit : ∀ s, ok s → ∀ r, Cdb.request L (p.ask s).cdb = .ok r → ∀ i, SolarisOk (alloc i) r)
    (hnext : ∀ s r reply, ok s → Shows r reply → Along Rel (p.next s r) (q.next s reply))
    (w : Nat → W Handle K (Option Bytes) (DevErr Sense) (Solaris.SolWorld State)) (hw : ∀ i, ∃ k, SolarisIdle (w i).st (w i).os k) (k : State) (hk : k.Among n) (i : Nat) (hi : i < n) (s : σ) (a' : A') (m' : Contents) (c : Nat)
    (h : q.Runs ok (OnArray g) s k.contents a' m' c) :
    let Runs := fun a w' k' N => (onSeveral L B other (failover n isNotReady p)).Runs (fun x => ok x.1 ∧ x.2 < n)
      (ThroughPath fun i => machine (T := T) (Solaris.solBlocking (lp64 l) getSense (Solaris.uscsiDevice l (path g i))).plat (Solaris.prepare (lp64 l) (alloc i) (t i))) (s, i) (w, k) a (w', k') N
    (∃ a w' k' N, Runs a w' k' N) ∧ ∀ a w' k' N, Runs a w' k' N → Rel a a' ∧ k'.contents = m' ∧ c ≤ N ∧ N ≤ c + (n - 1) * (k.changes + 1) ∧ ∀ i, ∃ k, SolarisIdle (w' i).st (w' i).os k := by
  obtain ⟨a, k', N, h1, h2, h3, h4, h5⟩ := failover_direct L B other hg outcome_delivers hask hnext h i k hi hk rfl
  have same := fun a N => same_paths (idle := fun w k => SolarisIdle w.st w.os k) (p := onSeveral L B other (failover n isNotReady p)) (ok := fun x => ok x.1 ∧ x.2 < n)
    (fun i => serves_solaris (T := T) l getSense (path g i) (alloc i) (t i) (ht i) fun k q h => path_parses g i k q (by intro h0; rw [h0] at h; simp at h)) (fun _ _ _ h => h) (fun _ _ _ h => ⟨h.1, h.2.1, h.2.2.1, rfl⟩)
    (fun _ _ h => h.2.2.2) (fun x ho r hr => hfit x.1 ho.1 r hr x.2) (s, i) w k hw a N
  obtain ⟨w', h6, -⟩ := (same a N).1 k' h5
  refine ⟨⟨a, w', k', N, h6⟩, fun a₁ w₁ k₁ N₁ h => ?_⟩
  obtain ⟨h7, h8⟩ := (same a₁ N₁).2 w₁ k₁ h
  obtain ⟨rfl, rfl, rfl⟩ := runs_unique path_unique h5 h7
  exact ⟨h1, h2, h3, Nat.le_trans h4 (Nat.add_le_add_left (cost_le hk) _), h8⟩

/-- **C106 on AIX.** -/
theorem C106_aix [DecidableEq K] (b : Aix.Binding) (alloc : Nat → Nat → Alloc) (t : Nat → Int) (ht : ∀ i, 0 ≤ t i ∧ t i < 2 ^ 32) (L : Lib) (B : Parse.BufLib) (other : Bytes → Py (List (String × Int)))
    (g : Geometry) (hg : Valid g) (n : Nat) (p : Client σ Cmd Seen A) (q : Client σ Op Reply A') (ok : σ → Prop) (Rel : A → A' → Prop)
    (hask : ∀ s, ok s → Asks g (p.ask s) (q.ask s)) (hfit : ∀ s, ok s → ∀ r, Cdb.request L (p.ask s).cdb = .ok r → ∀ i, AixOk b (alloc i) r)
    (hnext : ∀ s r reply, ok s → Shows r reply → Along Rel (p.next s r) (q.next s reply))
    (w : Nat → W Handle K (Option Bytes) (DevErr Sense) (Aix.AixWorld State)) (hw : ∀ i, ∃ k, AixIdle (w i).st (w i).os k) (k : State) (hk : k.Among n) (i : Nat) (hi : i < n) (s : σ) (a' : A') (m' : Contents) (c : Nat)
    (h : q.Runs ok (OnArray g) s k.contents a' m' c) :
    let Runs := fun a w' k' N => (onSeveral L B other (failover n isNotReady p)).Runs (fun x => ok x.1 ∧ x.2 < n)
      (ThroughPath fun i => machine (T := T) (Aix.aixBlocking (lp64 false) getSense b (Aix.scDevice (path g i))).plat (Aix.prepare (lp64 false) (alloc i) (t i))) (s, i) (w, k) a (w', k') N
    (∃ a w' k' N, Runs a w' k' N) ∧ ∀ a w' k' N, Runs a w' k' N → Rel a a' ∧ k'.contents = m' ∧ c ≤ N ∧ N ≤ c + (n - 1) * (k.changes + 1) ∧ ∀ i, ∃ k, AixIdle (w' i).st (w' i).os k := by
  obtain ⟨a, k', N, h1, h2, h3, h4, h5⟩ := failover_direct L B other hg outcome_delivers hask hnext h i k hi hk rfl
  have same := fun a N => same_paths (idle := fun w k => AixIdle w.st w.os k) (p := onSeveral L B other (failover n isNotReady p)) (ok := fun x => ok x.1 ∧ x.2 < n)
    (fun i => serves_aix (T := T) getSense b (path g i) (alloc i) (t i) (ht i) fun k q h => path_parses g i k q (by intro h0; rw [h0] at h; simp at h)) (fun _ _ _ h => h) (fun _ _ _ h => ⟨h.1, h.2.1, h.2.2.1, rfl⟩)
    (fun _ _ h => h.2.2.2) (fun x ho r hr => hfit x.1 ho.1 r hr x.2) (s, i) w k hw a N
  obtain ⟨w', h6, -⟩ := (same a N).1 k' h5
  refine ⟨⟨a, w', k', N, h6⟩, fun a₁ w₁ k₁ N₁ h => ?_⟩
  obtain ⟨h7, h8⟩ := (same a₁ N₁).2 w₁ k₁ h
  obtain ⟨rfl, rfl, rfl⟩ := runs_unique path_unique h5 h7
  exact ⟨h1, h2, h3, Nat.le_trans h4 (Nat.add_le_add_left (cost_le hk) _), h8⟩

/-- **C106 on Windows.** -/
theorem C106_windows [DecidableEq K] (b : Bool) (alloc : Nat → Nat → Alloc) (L : Lib) (B : Parse.BufLib) (other : Bytes → Py (List (String × Int)))
    (g : Geometry) (hg : Valid g) (n : Nat) (p : Client σ Cmd Seen A) (q : Client σ Op Reply A') (ok : σ → Prop) (Rel : A → A' → Prop)
    (hask : ∀ s, ok s → Asks g (p.ask s) (q.ask s)) (hfit : ∀ s, ok s → ∀ r, Cdb.request L (p.ask s).cdb = .ok r → ∀ i, WindowsOk b (alloc i) r)
    (hnext : ∀ s r reply, ok s → Shows r reply → Along Rel (p.next s r) (q.next s reply))
    (w : Nat → W Win32.Spt K (Option Bytes) (DevErr Sense) (Win32.WinWorld State)) (hw : ∀ i, ∃ k, WindowsIdle (w i).st (w i).os k) (k : State) (hk : k.Among n) (i : Nat) (hi : i < n) (s : σ) (a' : A') (m' : Contents) (c : Nat)
    (h : q.Runs ok (OnArray g) s k.contents a' m' c) :
    let Runs := fun a w' k' N => (onSeveral L B other (failover n isNotReady p)).Runs (fun x => ok x.1 ∧ x.2 < n)
      (ThroughPath fun i => machine (T := T) (Win32.winPlat (Win32.W b) getSense (Win32.sptDevice b (path g i))) (Win32.prepare (Win32.W b) (alloc i))) (s, i) (w, k) a (w', k') N
    (∃ a w' k' N, Runs a w' k' N) ∧ ∀ a w' k' N, Runs a w' k' N → Rel a a' ∧ k'.contents = m' ∧ c ≤ N ∧ N ≤ c + (n - 1) * (k.changes + 1) ∧ ∀ i, ∃ k, WindowsIdle (w' i).st (w' i).os k := by
  obtain ⟨a, k', N, h1, h2, h3, h4, h5⟩ := failover_direct L B other hg winOutcome_delivers hask hnext h i k hi hk rfl
  have same := fun a N => same_paths (idle := fun w k => WindowsIdle w.st w.os k) (p := onSeveral L B other (failover n isNotReady p)) (ok := fun x => ok x.1 ∧ x.2 < n)
    (fun i => serves_windows (T := T) b getSense (path g i) (alloc i) fun k q h => path_parses g i k q (by rw [h]; decide)) (fun _ _ _ h => h) (fun _ _ _ h => ⟨h.1, h.2.1, rfl⟩)
    (fun _ _ h => h.2.2) (fun x ho r hr => hfit x.1 ho.1 r hr x.2) (s, i) w k hw a N
  obtain ⟨w', h6, -⟩ := (same a N).1 k' h5
  refine ⟨⟨a, w', k', N, h6⟩, fun a₁ w₁ k₁ N₁ h => ?_⟩
  obtain ⟨h7, h8⟩ := (same a₁ N₁).2 w₁ k₁ h
  obtain ⟨rfl, rfl, rfl⟩ := runs_unique path_unique h5 h7
  exact ⟨h1, h2, h3, Nat.le_trans h4 (Nat.add_le_add_left (cost_le hk) _), h8⟩

/-! The hypotheses are met: two paths, the second is active, the first is tried; before the next command the first becomes the active one. -/

def shelf (m : Contents) : State := { contents := m, active := 1, moves := [none, some 0] }

def start (m : Contents) : W Handle Unit (Option Bytes) (DevErr Sense) (World (State × Option Bytes)) :=
  { st := { pending := [], index := 6, maxq := 7 }, os := { mem := fun _ => 0xEE, kernel := (shelf m, none) }, fired := [], box := fun _ => [] }

abbrev room : Nat → Nat → Alloc := fun _ _ => { block := 4096, sense := 8192, cmd := 12288, data := 16384 }

example (L : Lib) (B : Parse.BufLib) (other : Bytes → Py (List (String × Int))) (m : Contents) (data : Bytes) (hd : data.length = 1 * 512) :
    ∃ a w' k' N, (onSeveral L B other (failover 2 isNotReady (single (.write16 7 data 512)))).Runs (fun x => True ∧ x.2 < 2)
      (ThroughPath fun i => machine (T := Unit) (Linux.sgBlocking (K := Unit) (lp64 true) getSense (Linux.sgDevice true (path ⟨512, 1000⟩ i))).plat (Linux.prepare (lp64 true) (room i) 30000))
      ((), 0) (fun _ => start m, shelf m) a (w', k') N ∧ N ≤ 3 ∧ Shows a .done ∧ k'.contents = writeAt m (7 * 512) data := by
  have hsmall : ∀ q, Cdb.request L (Cmd.write16 7 data 512).cdb = .ok q → ∀ i, LinuxOk (room i) q := by
    intro q hq i
    obtain ⟨-, c, -, -, -, rfl⟩ := (Cdb.C28_write16 L 7 data 512 q).1 hq
    exact example_fits _ ⟨by simp [Req.cdb, Spec.Cdb.write16, cdb16], by simp only [dataSize, hd]; decide⟩
  have hrun : (single (α := Reply) (Op.write 7 data)).Runs (fun _ => True) (OnArray ⟨512, 1000⟩) () (shelf m).contents .done (writeAt m (7 * 512) data) 1 :=
    .done trivial (by simp only [single, OnArray, shelf, Op.run, hd, Nat.reduceMul, Nat.reduceDiv, Nat.reduceAdd, Nat.reduceLeDiff, if_true]) rfl
  obtain ⟨⟨a, w', k', N, h1⟩, h2⟩ := C106_linux (T := Unit) (K := Unit) true room (fun _ => 30000) (fun _ => by decide) L B other
    ⟨512, 1000⟩ ⟨by decide, by decide⟩ 2 (single (.write16 7 data 512)) (single (.write 7 data)) (fun _ => True) Shows
    (fun _ _ => .write16 (g := ⟨512, 1000⟩) (by decide) hd (by decide)) (fun _ _ => hsmall) (fun _ _ _ _ hs => hs)
    (fun _ => start m) (fun _ => ⟨shelf m, rfl, by simp [start], by simp [start], by simp [start], rfl⟩) (shelf m)
    ⟨by simp [shelf], by simp [shelf]⟩ 0 (by decide) () .done (writeAt m (7 * 512) data) 1 hrun
  obtain ⟨h3, h4, h5, h6, -⟩ := h2 a w' k' N h1
  exact ⟨a, w', k', N, h1, h6, h3, h4⟩

end Verif.Commands.Clients.Paths
