import Verif.Contexts
import Verif.Unix
/-! # C23 and C24: device handles and polling reads -/

namespace Verif.Contexts
variable {α β ε : Type}

/-- The context managers that can build their executer on a platform. -/
def Builds : Manager → Platform → Prop
  | .linux_dm, p => p ≠ .unsupported
  | .linux_sg, p => p ≠ .unsupported ∧ p ≠ .windows
  | _, p => p ≠ .unsupported

/-- **C23**: if opening succeeds and the executer can be built, the trace is: the device opened, the with-block, the device closed (once,
last); and the with-block's result or exception is what comes out, unless closing fails. -/
theorem C23_partial (m : Manager) (env : Env) (body : Executer → List β × Except ε α) (h : Nat)
    (hopen : env.opening = .ok h) (hb : Builds m env.platform) :
    ∃ x, x.handle = h ∧
      (withExecuter m env body).1 = .opened h :: (body x).1.map .inside ++ [.closed h] ∧
      (env.closing = .ok () → (withExecuter m env body).2 = match (body x).2 with | .ok a => .ok a | .error e => .error (.block e)) ∧
      (∀ e, env.closing = .error e → (withExecuter m env body).2 = .error (.lib e)) := by
  obtain ⟨p, op, cl⟩ := env
  simp only at hopen hb
  subst hopen
  have key : ∀ (make : Nat → Py Executer) (x : Executer), make h = .ok x → p ≠ .unsupported →
      (managed make ⟨p, .ok h, cl⟩ body).1 = .opened h :: (body x).1.map .inside ++ [.closed h] ∧
      (cl = .ok () → (managed make ⟨p, .ok h, cl⟩ body).2 = match (body x).2 with | .ok a => .ok a | .error e => .error (.block e)) ∧
      (∀ e, cl = .error e → (managed make ⟨p, .ok h, cl⟩ body).2 = .error (.lib e)) := by
    intro make x hm hp
    have hos : createOsFile ⟨p, .ok h, cl⟩ = .ok h := by
      unfold createOsFile; cases p <;> first | rfl | exact absurd rfl hp
    unfold managed
    rw [hos]
    simp only [hm]
    rcases body x with ⟨evs, r⟩
    cases cl with
    | error e => exact ⟨rfl, fun hx => (nomatch hx), fun e' he => by cases he; rfl⟩
    | ok u => cases r <;> exact ⟨rfl, fun _ => rfl, fun e' he => by cases he⟩
  have mk : ∀ t, p ≠ .unsupported → (p = .windows → t = none) → ∃ x, x.handle = h ∧ createExecuter p t h = .ok x := by
    intro t hp hw
    cases p with
    | windows => rw [hw rfl]; exact ⟨_, rfl, rfl⟩
    | linux => exact ⟨_, rfl, rfl⟩
    | solaris => exact ⟨_, rfl, rfl⟩
    | aix => exact ⟨_, rfl, rfl⟩
    | unsupported => exact absurd rfl hp
  cases m with
  | windows => obtain ⟨x, hx, hm⟩ := mk none hb (fun _ => rfl); exact ⟨x, hx, key _ x hm hb⟩
  | linux_dm => exact ⟨_, rfl, key _ _ rfl hb⟩
  | linux_sg => obtain ⟨x, hx, hm⟩ := mk (some sgTimeoutMs) hb.1 (fun hw => absurd hw hb.2); exact ⟨x, hx, key _ x hm hb.1⟩
  | solaris => obtain ⟨x, hx, hm⟩ := mk none hb (fun _ => rfl); exact ⟨x, hx, key _ x hm hb⟩
  | aix => obtain ⟨x, hx, hm⟩ := mk none hb (fun _ => rfl); exact ⟨x, hx, key _ x hm hb⟩

/-- The hypotheses are met: a with-block that raises on Linux; the device is closed and the exception comes out. -/
example : withExecuter (β := Nat) (ε := String) (α := Unit) .linux_sg ⟨.linux, .ok 7, .ok ()⟩ (fun _ => ([1, 2], .error "boom")) =
    ([.opened 7, .inside 1, .inside 2, .closed 7], .error (.block "boom")) := rfl

/-- The executer that the with-block gets, on the platform that each manager is for: class, queue size, timeout (`linux_sg` asks for
three seconds, in milliseconds). -/
theorem C23_executer (env : Env) (h : Nat) (hopen : env.opening = .ok h) (hcl : env.closing = .ok ()) :
    (env.platform = .windows → (withExecuter (ε := Unit) .windows env (fun x => ([x], .ok ()))).1 =
      [.opened h, .inside ⟨.win32, h, 15, none⟩, .closed h]) ∧
    (env.platform = .linux → (withExecuter (ε := Unit) .linux_sg env (fun x => ([x], .ok ()))).1 =
      [.opened h, .inside ⟨.linux, h, 15, some 3000⟩, .closed h]) ∧
    (env.platform = .linux → (withExecuter (ε := Unit) .linux_dm env (fun x => ([x], .ok ()))).1 =
      [.opened h, .inside ⟨.linuxIoctl, h, 1, some 30000⟩, .closed h]) ∧
    (env.platform = .solaris → (withExecuter (ε := Unit) .solaris env (fun x => ([x], .ok ()))).1 =
      [.opened h, .inside ⟨.solaris, h, 1, some 30⟩, .closed h]) ∧
    (env.platform = .aix → (withExecuter (ε := Unit) .aix env (fun x => ([x], .ok ()))).1 =
      [.opened h, .inside ⟨.aix, h, 1, some 30⟩, .closed h]) := by
  obtain ⟨p, op, cl⟩ := env
  simp only at hopen hcl ⊢
  subst hopen hcl
  refine ⟨?_, ?_, ?_, ?_, ?_⟩ <;> (intro hp; subst hp; rfl)

/-- If opening fails nothing was opened, nothing is closed, and the with-block does not run. -/
theorem C23_not_opened (m : Manager) (env : Env) (body : Executer → List β × Except ε α) (e : PyErr)
    (hopen : createOsFile env = .error e) : withExecuter m env body = ([], .error (.lib e)) := by
  cases m <;> simp [withExecuter, managed, hopen]

/-- **C23 is false** if building the executer fails: the device opened is never closed. Here `linux_sg` used on Windows, whose
executer takes no timeout. -/
theorem C23_false : ∃ (m : Manager) (env : Env) (body : Executer → List Nat × Except String Unit) (h : Nat),
    Event.opened h ∈ (withExecuter m env body).1 ∧ Event.closed h ∉ (withExecuter m env body).1 :=
  ⟨.linux_sg, ⟨.windows, .ok 7, .ok ()⟩, fun _ => ([], .ok ()), 7, by decide, by decide⟩

/-- Whenever the executer cannot be built the handle leaks, with every manager. -/
theorem C23_leak (make : Nat → Py Executer) (env : Env) (body : Executer → List β × Except ε α) (h : Nat) (e : PyErr)
    (ho : createOsFile env = .ok h) (hm : make h = .error e) : managed make env body = ([.opened h], .error (.lib e)) := by
  simp [managed, ho, hm]

/-- `Win32File.close` may be called again: only the first successful call reaches `CloseHandle`. -/
theorem C23_win32_close_twice (f : Win32File) (b : Bool) (h : f.handle ≠ -1) :
    (f.close true).2.2 = true ∧ ((f.close true).2.1.close b) = (.ok (), (f.close true).2.1, false) := by
  simp [Win32File.close, h]

/-- If `CloseHandle` fails this is reported, the object still holds the handle and closing again tries `CloseHandle` again. -/
theorem C23_win32_close_failed (f : Win32File) (h : f.handle ≠ -1) :
    f.close false = (.error .asiOs, f, true) ∧ (f.close false).2.1.close true = (.ok (), { handle := -1 }, true) := by
  simp [Win32File.close, h]

end Verif.Contexts

namespace Verif.Unix

theorem pollLoop_spec (env : Env) (timeout : Int) (fuel k : Nat) (r : Py Bytes) (n : Nat)
    (h : pollLoop env timeout fuel k = some (r, n)) :
    k ≤ n ∧ (∀ j, k ≤ j → j < n → env.ready j = false ∧ env.clock j ≤ env.start + timeout) ∧
    ((env.ready n = true ∧ r = env.osRead n) ∨
     (env.ready n = false ∧ env.start + timeout < env.clock n ∧ r = .error .ioError)) := by
  induction fuel generalizing k with
  | zero => cases h
  | succ f ih =>
    simp only [pollLoop] at h
    split at h
    · rename_i hr
      cases h
      exact ⟨Nat.le_refl _, fun j h1 h2 => absurd h1 (by omega), .inl ⟨hr, rfl⟩⟩
    · rename_i hr
      split at h
      · rename_i hc
        cases h
        exact ⟨Nat.le_refl _, fun j h1 h2 => absurd h1 (by omega), .inr ⟨by simpa using hr, by omega, rfl⟩⟩
      · rename_i hc
        obtain ⟨h1, h2, h3⟩ := ih (k + 1) h
        refine ⟨by omega, ?_, h3⟩
        intro j hj1 hj2
        by_cases hjk : j = k
        · subst hjk; exact ⟨by simpa using hr, by omega⟩
        · exact h2 j (by omega) hj2

theorem pollLoop_reaches (env : Env) (timeout : Int) (n k : Nat) (hk : k ≤ n)
    (hw : ∀ j, k ≤ j → j < n → env.ready j = false ∧ env.clock j ≤ env.start + timeout) (f : Nat) :
    pollLoop env timeout (n - k + f) k = pollLoop env timeout f n := by
  obtain ⟨d, rfl⟩ : ∃ d, n = k + d := ⟨n - k, by omega⟩
  induction d generalizing k with
  | zero => simp
  | succ d ih =>
    obtain ⟨h1, h2⟩ := hw k (Nat.le_refl _) (by omega)
    rw [show k + (d + 1) - k + f = (k + 1 + d - (k + 1) + f) + 1 by omega]
    rw [pollLoop, h1, if_neg (by simp), if_neg (by omega), ih (k + 1) (by omega) (fun j hj1 hj2 => hw j (by omega) (by omega))]
    rw [show k + 1 + d = k + (d + 1) by omega]

/-- **C24 (a)**: `read` returns what `os.read` returns as soon as a poll finds the descriptor readable, provided the clock did not pass
the limit after an earlier poll. -/
theorem C24_ready (env : Env) (timeout : Int) (n : Nat) (hn : env.ready n = true)
    (hw : ∀ j, j < n → env.ready j = false ∧ env.clock j ≤ env.start + timeout) :
    Reads env timeout (env.osRead n) n := by
  refine ⟨n - 0 + 1, ?_⟩
  rw [pollLoop_reaches env timeout n 0 (by omega) (fun j _ h => hw j h)]
  simp [pollLoop, hn]

/-- **C24 (b)**: the timeout `IOError` of the loop means that more than the configured time passed, and that no poll up to then found the
descriptor readable at that time. (The full claim, that data ready before the limit is never timed out on, is false: `C24_false`.) -/
theorem C24_timeout_partial (env : Env) (timeout : Int) (r : Py Bytes) (n : Nat) (h : Reads env timeout r n) :
    (env.ready n = true ∧ r = env.osRead n ∧ ∀ j, j < n → env.ready j = false) ∨
    (r = .error .ioError ∧ timeout < env.clock n - env.start ∧ ∀ j, j ≤ n → env.ready j = false) := by
  obtain ⟨fuel, hf⟩ := h
  obtain ⟨-, h2, h3⟩ := pollLoop_spec env timeout fuel 0 r n hf
  rcases h3 with ⟨h4, h5⟩ | ⟨h4, h5, h6⟩
  · exact .inl ⟨h4, h5, fun j hj => (h2 j (by omega) hj).1⟩
  · refine .inr ⟨h6, by omega, fun j hj => ?_⟩
    rcases Nat.lt_or_eq_of_le hj with h | h
    · exact (h2 j (by omega) h).1
    · rw [h]; exact h4

/-- **C24 (c)**: the loop waits at most for the configured time: after any round but the last the clock was within the limit. -/
theorem C24_waits (env : Env) (timeout : Int) (r : Py Bytes) (n : Nat) (h : Reads env timeout r n) :
    ∀ j, j < n → env.clock j - env.start ≤ timeout := by
  obtain ⟨fuel, hf⟩ := h
  obtain ⟨-, h2, -⟩ := pollLoop_spec env timeout fuel 0 r n hf
  intro j hj
  have := (h2 j (by omega) hj).2
  omega

/-- **C24 (d)**: with a clock that gets past every limit (each sleep advances it) `read` always ends. -/
theorem C24_ends (env : Env) (timeout : Int) (hclock : ∀ k, env.clock k < env.clock (k + 1)) :
    ∃ r n, Reads env timeout r n := by
  have hgrow : ∀ k : Nat, env.clock 0 + k ≤ env.clock k := by
    intro k
    induction k with
    | zero => simp
    | succ k ih => have := hclock k; omega
  have hend : ∀ (d k : Nat), env.start + timeout < env.clock (k + d) → ∃ r n fuel, pollLoop env timeout fuel k = some (r, n) := by
    intro d
    induction d with
    | zero =>
      intro k hk
      by_cases hr : env.ready k = true
      · exact ⟨_, k, 1, by rw [pollLoop, if_pos hr]⟩
      · exact ⟨_, k, 1, by rw [pollLoop, if_neg hr, if_pos (by simpa using hk)]⟩
    | succ d ih =>
      intro k hk
      by_cases hr : env.ready k = true
      · exact ⟨_, k, 1, by rw [pollLoop, if_pos hr]⟩
      · by_cases hc : env.clock k > env.start + timeout
        · exact ⟨_, k, 1, by rw [pollLoop, if_neg hr, if_pos hc]⟩
        · obtain ⟨r, n, f, hf⟩ := ih (k + 1) (by rw [show k + 1 + d = k + (d + 1) by omega]; exact hk)
          exact ⟨r, n, f + 1, by rw [pollLoop, if_neg hr, if_neg hc, hf]⟩
  obtain ⟨r, n, f, hf⟩ := hend (env.start + timeout - env.clock 0 + 1).toNat 0 (by
    have := hgrow (0 + (env.start + timeout - env.clock 0 + 1).toNat)
    omega)
  exact ⟨r, n, f, hf⟩

/-- The result is unique. -/
theorem C24_deterministic (env : Env) (timeout : Int) (r r' : Py Bytes) (n n' : Nat) (h : Reads env timeout r n)
    (h' : Reads env timeout r' n') : r = r' ∧ n = n' := by
  have mono : ∀ f k x, pollLoop env timeout f k = some x → ∀ g, pollLoop env timeout (f + g) k = some x := by
    intro f
    induction f with
    | zero => intro k x hx; cases hx
    | succ f ih =>
      intro k x hx g
      rw [show f + 1 + g = (f + g) + 1 by omega]
      simp only [pollLoop] at hx ⊢
      split
      · rename_i hr; rw [if_pos hr] at hx; exact hx
      · rename_i hr
        rw [if_neg hr] at hx
        split
        · rename_i hc; rw [if_pos hc] at hx; exact hx
        · rename_i hc; rw [if_neg hc] at hx; exact ih _ _ hx g
  obtain ⟨f, hf⟩ := h
  obtain ⟨f', hf'⟩ := h'
  have e1 := mono f 0 _ hf f'
  have e2 := mono f' 0 _ hf' f
  rw [Nat.add_comm f' f, e1] at e2
  cases e2
  exact ⟨rfl, rfl⟩

/-- **"never times out on ready data" is false in between polls**: the clock is looked at before polling again. Here the descriptor is
readable from time 5 on, the timeout is 60, but one sleep lasts until 61 (say, the process was stopped): `read` raises. -/
theorem C24_false : ∃ (env : Env) (readableFrom : Int) (polledAt : Nat → Int),
    (∀ k, env.ready k = decide (readableFrom ≤ polledAt k)) ∧ (∀ k, polledAt k ≤ env.clock k ∧ env.clock k ≤ polledAt (k + 1)) ∧
    env.start ≤ polledAt 0 ∧ readableFrom < env.start + 60 ∧ Reads env 60 (.error .ioError) 0 := by
  refine ⟨{ start := 0, ready := fun k => decide (5 ≤ (61 * k : Int)), clock := fun k => 61 * (k + 1), osRead := fun _ => .ok [] },
    5, fun k => 61 * k, fun k => rfl, ?_, by decide, by decide, 1, rfl⟩
  intro k; constructor <;> simp only <;> omega

/-- The hypotheses of `C24_ready` are met: readable at the third poll. -/
example : Reads { start := 100, ready := fun k => decide (2 ≤ k), clock := fun k => 100 + k, osRead := fun _ => .ok [1] } 60 (.ok [1]) 2 :=
  C24_ready _ _ 2 rfl (by
    intro j hj
    have : j = 0 ∨ j = 1 := by omega
    rcases this with rfl | rfl <;> decide)

end Verif.Unix
