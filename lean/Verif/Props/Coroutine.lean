import Verif.Spec.Coroutine
/-!
# Theorems about the coroutine driver: C09 - C12
-/

set_option linter.unusedSimpArgs false

namespace Verif.Coroutine

variable {G σ V E T : Type}

/-! ## Driver = direct-style evaluation (in the driver's own reading of the corner cases) -/

/-- The configuration in which the rest of the stack continues after a generator ended with `f`. -/
def after (rest : List G) (f : Fin V E) (r : Option (Yld G V E T)) (s : σ) : StepOut G σ V E T :=
  match f with
  | .val v => .cont ⟨rest, .send v, r, s⟩
  | .swallowed e => .cont ⟨rest, .throw e, r, s⟩
  | .raised e => unwind rest r s e

/-- `SyncLoop` from the outcome of a step. -/
def LoopOut (M : Machine G σ V E T) (o : StepOut G σ V E T) (f : Final G σ V E T) (n : Nat) : Prop :=
  match o with
  | .cont c => SyncLoop M c f n
  | .fail s e => f = .raised e s ∧ n = 0
  | .io _ _ => False

theorem loop_of_step {M : Machine G σ V E T} {g rest args result s o f n}
    (h : syncStep M g rest args result s = o) (hl : LoopOut M o f n) :
    SyncLoop M ⟨g :: rest, args, result, s⟩ f (n + 1) := by
  cases o with
  | cont c => exact .step h hl
  | fail s e => obtain ⟨rfl, rfl⟩ := hl; exact .fail h
  | io t c => exact hl.elim

theorem step_of_loop {M : Machine G σ V E T} {g rest args result s f n}
    (h : SyncLoop M ⟨g :: rest, args, result, s⟩ f n) :
    ∃ k, n = k + 1 ∧ LoopOut M (syncStep M g rest args result s) f k := by
  cases h with
  | fail h => exact ⟨0, rfl, by rw [h]; exact ⟨rfl, rfl⟩⟩
  | step h hl => exact ⟨_, rfl, by rw [h]; exact hl⟩

theorem loop_of_eval {M : Machine G σ V E T} {g i s r s' r' fin} (h : Eval .actual M g i s r s' r' fin) :
    ∀ rest f n, LoopOut M (after rest fin r' s') f n → ∃ n', SyncLoop M ⟨g :: rest, i, r, s⟩ f n' := by
  induction h with
  | @ret g i s s' r h =>
    intro rest f n hl
    refine ⟨_, loop_of_step (o := .cont ⟨rest, i, r, s'⟩) (by simp [syncStep, nextStep, h]) (n := n) ?_⟩
    cases i <;> exact hl
  | raises h =>
    intro rest f n hl
    refine ⟨_, loop_of_step (n := n) (o := unwind rest _ _ _) ?_ hl⟩
    simp only [syncStep, nextStep, h, unwind]
    cases rest <;> rfl
  | plain h _ ih =>
    intro rest f n hl
    obtain ⟨n', h'⟩ := ih rest f n hl
    exact ⟨_, .step (by simp only [syncStep, nextStep, h]) h'⟩
  | exc h _ ih =>
    intro rest f n hl
    obtain ⟨n', h'⟩ := ih rest f n hl
    exact ⟨_, .step (by simp only [syncStep, nextStep, h]) h'⟩
  | @call g i s s1 r child g' s2 r2 fc i' s' r' f' h _ ha _ ih1 ih2 =>
    intro rest f n hl
    obtain ⟨n', h'⟩ := ih2 rest f n hl
    obtain ⟨n'', h''⟩ := ih1 (g' :: rest) f n' (by
      cases fc <;> simp only [afterCall, Option.some.injEq] at ha <;> subst ha <;> exact h')
    exact ⟨_, .step (by simp only [syncStep, nextStep, h]) h''⟩
  | io h hw _ ih =>
    intro rest f n hl
    obtain ⟨n', h'⟩ := ih rest f n hl
    exact ⟨_, .step (by simp only [syncStep, nextStep, h, handleSync, hw]) h'⟩
  | ioErrIdeal hm => cases hm
  | ioErrActual _ h hw =>
    intro rest f n hl
    refine ⟨_, loop_of_step (n := n) ?_ hl⟩
    simp only [syncStep, nextStep, h, handleSync, hw, List.tail_cons, after]

theorem eval_of_loop {M : Machine G σ V E T} (n : Nat) : ∀ {g rest i s r f},
    SyncLoop M ⟨g :: rest, i, r, s⟩ f n →
    ∃ s' r' fin k, k < n ∧ Eval .actual M g i s r s' r' fin ∧ LoopOut M (after rest fin r' s') f k := by
  induction n using Nat.strongRecOn with
  | ind n ih =>
    intro g rest i s r f h
    obtain ⟨k, rfl, hk⟩ := step_of_loop h
    simp only [syncStep, nextStep] at hk
    cases hr : M.resume g i s with
    | mk s1 o =>
      rw [hr] at hk
      cases o with
      | ret =>
        refine ⟨s1, r, finOf i, k, by omega, .ret hr, ?_⟩
        cases i <;> exact hk
      | raises e =>
        refine ⟨s1, r, .raised e, k, by omega, .raises hr, ?_⟩
        simp only [after]
        simp only [unwind] at hk ⊢
        cases rest <;> exact hk
      | yields y g' =>
        cases y with
        | plain v =>
          obtain ⟨s', r', fin, k', hlt, he, hl⟩ := ih k (by omega) hk
          exact ⟨s', r', fin, k', by omega, .plain hr he, hl⟩
        | exc e =>
          obtain ⟨s', r', fin, k', hlt, he, hl⟩ := ih k (by omega) hk
          exact ⟨s', r', fin, k', by omega, .exc hr he, hl⟩
        | gen c =>
          obtain ⟨s2, r2, fc, k', hlt, he, hl⟩ := ih k (by omega) hk
          have : ∃ i', afterCall M .actual fc = some i' ∧ SyncLoop M ⟨g' :: rest, i', r2, s2⟩ f k' := by
            cases fc with
            | val v => exact ⟨_, rfl, hl⟩
            | swallowed e => exact ⟨_, rfl, hl⟩
            | raised e => exact ⟨_, rfl, hl⟩
          obtain ⟨i', ha, hl'⟩ := this
          obtain ⟨s', r', fin, k'', hlt', he', hl''⟩ := ih k' (by omega) hl'
          exact ⟨s', r', fin, k'', by omega, .call hr he ha he', hl''⟩
        | tok t =>
          cases hw : M.await t s1 with
          | mk s2 a =>
            cases a with
            | ok i' =>
              simp only [handleSync, hw] at hk
              obtain ⟨s', r', fin, k', hlt, he, hl⟩ := ih k (by omega) hk
              exact ⟨s', r', fin, k', by omega, .io hr hw he, hl⟩
            | error e =>
              simp only [handleSync, hw, List.tail_cons] at hk
              exact ⟨s2, some (.tok t), .raised e, k, by omega, .ioErrActual rfl hr hw, hk⟩

/-- **Complete characterisation of `sync_wait`**, for every generator code, every token behaviour and every starting
state, with no hypothesis: it terminates with outcome `f` exactly when the direct-style program does, in the driver's
reading (`actual`) of the two corner cases. World states are arbitrary, so they can record every side effect in order. -/
theorem sync_wait_iff_direct (M : Machine G σ V E T) (g : G) (s : σ) (f : Final G σ V E T) :
    SyncWait M g s f ↔ Direct .actual M g s f := by
  constructor
  · rintro ⟨n, h⟩
    obtain ⟨s', r', fin, k, _, he, hl⟩ := eval_of_loop n h
    refine ⟨s', r', fin, he, ?_⟩
    cases fin with
    | val v => cases hl; rfl
    | swallowed e => cases hl; rfl
    | raised e => exact hl.1
  · rintro ⟨s', r', fin, he, rfl⟩
    obtain ⟨n, h⟩ := loop_of_eval he [] (outcome fin r' s') 0 (by
      cases fin with
      | val v => exact .done ..
      | swallowed e => exact .done ..
      | raised e => exact ⟨rfl, rfl⟩)
    exact ⟨n, h⟩

/-- `sync_wait` is deterministic. -/
theorem syncLoop_det {M : Machine G σ V E T} {c f f' n n'} (h : SyncLoop M c f n) (h' : SyncLoop M c f' n') :
    f = f' ∧ n = n' := by
  induction h generalizing f' n' with
  | done => cases h'; exact ⟨rfl, rfl⟩
  | fail h =>
    cases h' with
    | fail h2 => rw [h] at h2; cases h2; exact ⟨rfl, rfl⟩
    | step h2 => rw [h] at h2; cases h2
  | step h _ ih =>
    cases h' with
    | fail h2 => rw [h] at h2; cases h2
    | step h2 hl =>
      rw [h] at h2; cases h2
      obtain ⟨a, b⟩ := ih hl
      exact ⟨a, by rw [b]⟩

theorem agreed_actual {M : Machine G σ V E T} {g i s r s' r' f} (h : Eval .agreed M g i s r s' r' f) :
    Eval .actual M g i s r s' r' f := by
  induction h with
  | ret h => exact .ret h
  | raises h => exact .raises h
  | plain h _ ih => exact .plain h ih
  | exc h _ ih => exact .exc h ih
  | @call _ _ _ _ _ _ _ _ _ fc _ _ _ _ h _ ha _ ih1 ih2 =>
    refine .call h ih1 (i' := _) ?_ ih2
    cases fc <;> simp_all [afterCall]
  | io h hw _ ih => exact .io h hw ih
  | ioErrIdeal hm => cases hm
  | ioErrActual hm => cases hm

theorem agreed_ideal {M : Machine G σ V E T} {g i s r s' r' f} (h : Eval .agreed M g i s r s' r' f) :
    Eval .ideal M g i s r s' r' f := by
  induction h with
  | ret h => exact .ret h
  | raises h => exact .raises h
  | plain h _ ih => exact .plain h ih
  | exc h _ ih => exact .exc h ih
  | @call _ _ _ _ _ _ _ _ _ fc _ _ _ _ h _ ha _ ih1 ih2 =>
    refine .call h ih1 (i' := _) ?_ ih2
    cases fc <;> simp_all [afterCall]
  | io h hw _ ih => exact .io h hw ih
  | ioErrIdeal hm => cases hm
  | ioErrActual hm => cases hm

/-- The two corner cases do not occur: no generator returns right after an exception was thrown into it, and no token's
`get_result` raises. -/
structure Regular (M : Machine G σ V E T) : Prop where
  noSwallow : ∀ g e s, (M.resume g (.throw e) s).2 ≠ .ret
  noIoError : ∀ t s e, (M.await t s).2 ≠ .error e

theorem regular_agreed {M : Machine G σ V E T} (hM : Regular M) (m : Mode) {g i s r s' r' f}
    (h : Eval m M g i s r s' r' f) : Eval .agreed M g i s r s' r' f ∧ ∀ e, f = .swallowed e → False := by
  induction h with
  | @ret g i s s' r h =>
    refine ⟨.ret h, ?_⟩
    cases i with
    | send v => intro e he; cases he
    | throw e => exact (hM.noSwallow g e s (by rw [h])).elim
  | raises h => exact ⟨.raises h, fun e he => by cases he⟩
  | plain h _ ih => exact ⟨.plain h ih.1, ih.2⟩
  | exc h _ ih => exact ⟨.exc h ih.1, ih.2⟩
  | @call _ _ _ _ _ _ _ _ _ fc _ _ _ _ h _ ha _ ih1 ih2 =>
    refine ⟨.call h ih1.1 (i' := _) ?_ ih2.1, ih2.2⟩
    cases fc with
    | val v => exact ha
    | raised e => exact ha
    | swallowed e => exact (ih1.2 e rfl).elim
  | io h hw _ ih => exact ⟨.io h hw ih.1, ih.2⟩
  | ioErrIdeal _ _ hw => exact (hM.noIoError _ _ _ (by rw [hw])).elim
  | ioErrActual _ _ hw => exact (hM.noIoError _ _ _ (by rw [hw])).elim

/-! ## C09 -/

/-- **C09** (partial: code in which neither corner case occurs, cf. `C09_false`): `sync_wait(g)` ends with outcome `f` (the
result or exception, and the world state with all side effects in order) if and only if the ideal direct-style program
does; in particular one terminates iff the other does. -/
theorem C09_partial (M : Machine G σ V E T) (hM : Regular M) (g : G) (s : σ) (f : Final G σ V E T) :
    SyncWait M g s f ↔ Direct .ideal M g s f := by
  rw [sync_wait_iff_direct]
  constructor
  · rintro ⟨s', r', fin, he, rfl⟩
    exact ⟨s', r', fin, agreed_ideal (regular_agreed hM _ he).1, rfl⟩
  · rintro ⟨s', r', fin, he, rfl⟩
    exact ⟨s', r', fin, agreed_actual (regular_agreed hM _ he).1, rfl⟩

/-- **C09 for single executions** (partial in the same sense): whatever the generator code does elsewhere, an execution in
which neither corner case occurs has the same outcome under the driver and in direct style. -/
theorem C09_execution_partial (M : Machine G σ V E T) (g : G) (s : σ) (f : Final G σ V E T)
    (h : Direct .agreed M g s f) : SyncWait M g s f ∧ Direct .ideal M g s f := by
  obtain ⟨s', r', fin, he, rfl⟩ := h
  exact ⟨(sync_wait_iff_direct ..).2 ⟨s', r', fin, agreed_actual he, rfl⟩, ⟨s', r', fin, agreed_ideal he, rfl⟩⟩

/-- A small generator program used as an example: generator 0 yields generator 1 and then yields what it got; generator 1
yields 42 and then returns. World states are logs of what was seen. -/
def demo : Machine Nat (List Nat) Nat String Unit where
  none := 0
  resume g i s :=
    match g, i with
    | 0, _ => (s ++ [100], .yields (.gen 1) 10)
    | 1, _ => (s ++ [101], .yields (.plain 42) 11)
    | 10, .send v => (s ++ [v], .yields (.plain v) 12)
    | 10, .throw e => (s, .raises e)
    | _, .throw e => (s, .raises e)
    | _, _ => (s, .ret)
  await _ s := (s, .ok (.send 0))

theorem demo_regular : Regular demo :=
  ⟨by intro g e s; simp only [demo]; split <;> simp_all, by simp [demo]⟩

/-- The hypothesis of `C09_partial` is met by a nested program, which returns 42 having run child and parent in order. -/
example : Direct .ideal demo 0 [] (.returned (some (.plain 42)) [100, 101, 42]) :=
  (C09_partial demo demo_regular 0 [] _).1
    ⟨_, .step rfl (.step rfl (.step rfl (.step rfl (.step rfl (.done _ _ _)))))⟩

/-- Generator 0 calls generator 1 and records (in the world state) whether it saw an exception; generator 1 calls
generator 2, which raises, and handles the exception by returning. -/
def swallowDemo : Machine Nat (List String) Nat String Unit where
  none := 0
  resume g i s :=
    match g, i with
    | 0, _ => (s, .yields (.gen 1) 10)
    | 1, _ => (s, .yields (.gen 2) 11)
    | 2, _ => (s, .raises "boom")
    | 10, .throw e => (s ++ [e], .ret)
    | 11, .throw _ => (s, .ret)
    | _, _ => (s, .ret)
  await _ s := (s, .ok (.send 0))

/-- **C09 / C10 are false in general**: an exception handled by a coroutine that then returns reappears in its caller. -/
theorem C09_false : SyncWait swallowDemo 0 [] (.returned (some (.gen 2)) ["boom"]) ∧
    Direct .ideal swallowDemo 0 [] (.returned (some (.gen 2)) []) := by
  constructor
  · exact ⟨_, .step rfl (.step rfl (.step rfl (.step rfl (.step rfl (.done _ _ _)))))⟩
  · refine ⟨[], some (.gen 2), .val 0, ?_, rfl⟩
    refine .call (g' := 10) (child := 1) (s1 := []) (s2 := []) (fc := .swallowed "boom") (i' := .send 0) rfl ?_ rfl (.ret rfl)
    exact .call (g' := 11) (child := 2) (s1 := []) (s2 := []) (fc := .raised "boom") (i' := .throw "boom") rfl (.raises rfl) rfl
      (.ret rfl)

/-- Generator 0 yields a token whose `get_result` raises; it has a handler for that. -/
def ioErrorDemo : Machine Nat (List String) Nat String Unit where
  none := 0
  resume g i s :=
    match g, i with
    | 0, _ => (s, .yields (.tok ()) 10)
    | 10, .throw e => (s ++ [e], .yields (.plain 1) 11)
    | _, _ => (s, .ret)
  await _ s := (s, .error "io")

/-- **C10 is false for I/O tokens**: when a token's `get_result` raises, the coroutine that yielded the token has no
chance to handle it. -/
theorem C10_token_false : SyncWait ioErrorDemo 0 [] (.raised "io" []) ∧
    Direct .ideal ioErrorDemo 0 [] (.returned (some (.plain 1)) ["io"]) := by
  constructor
  · exact ⟨_, .fail rfl⟩
  · refine ⟨["io"], some (.plain 1), .val 1, ?_, rfl⟩
    exact .ioErrIdeal (g' := 10) (t := ()) (s1 := []) rfl rfl rfl (.plain (g' := 11) (s1 := ["io"]) (v := 1) rfl (.ret rfl))

/-! ## C10 -/

/-- A generator passes exception `e` on: when `e` is thrown into it, it raises `e` (its world effects are `eff`). -/
def PassesOn (M : Machine G σ V E T) (e : E) (eff : G → σ → σ) (h : G) : Prop :=
  ∀ s, M.resume h (.throw e) s = (eff h s, .raises e)

theorem unwind_passes (M : Machine G σ V E T) (e : E) (eff : G → σ → σ) (pre : List G)
    (hpre : ∀ h ∈ pre, PassesOn M e eff h) (rest : List G) (r : Option (Yld G V E T)) (s : σ) (f : Final G σ V E T) :
    (∃ n, LoopOut M (unwind rest r (pre.foldl (fun s h => eff h s) s) e) f n) →
    ∃ n, LoopOut M (unwind (pre ++ rest) r s e) f n := by
  induction pre generalizing s with
  | nil => exact fun h => h
  | cons h hs ih =>
    intro hl
    obtain ⟨n, hn⟩ := ih (fun x hx => hpre x (List.mem_cons_of_mem _ hx)) (eff h s) hl
    refine ⟨n + 1, ?_⟩
    show SyncLoop M ⟨h :: (hs ++ rest), .throw e, r, s⟩ f (n + 1)
    refine loop_of_step ?_ hn
    have := hpre h (List.mem_cons_self ..) s
    simp only [syncStep, nextStep, this, unwind]
    cases hs ++ rest <;> rfl

/-- **C10 (propagation).** When the running coroutine `g` raises `e`, every enclosing coroutine that passes `e` on is
abandoned, innermost first, and the run continues with `e` thrown at the yield expression of the innermost enclosing one
that is left, `h` — whatever `h` then does with it, and for any nesting depth. -/
theorem C10_innermost (M : Machine G σ V E T) (e : E) (eff : G → σ → σ) (g : G) (i : Inp V E) (s s1 : σ)
    (r : Option (Yld G V E T)) (pre : List G) (h : G) (rest : List G) (f : Final G σ V E T)
    (hg : M.resume g i s = (s1, .raises e)) (hpre : ∀ x ∈ pre, PassesOn M e eff x) :
    (∃ n, SyncLoop M ⟨h :: rest, .throw e, r, pre.foldl (fun s x => eff x s) s1⟩ f n) ↔
    ∃ n, SyncLoop M ⟨g :: (pre ++ h :: rest), i, r, s⟩ f n := by
  have fwd : ∀ f, (∃ n, SyncLoop M ⟨h :: rest, .throw e, r, pre.foldl (fun s x => eff x s) s1⟩ f n) →
      ∃ n, SyncLoop M ⟨g :: (pre ++ h :: rest), i, r, s⟩ f n := by
    rintro f ⟨n, hn⟩
    obtain ⟨n', hn'⟩ := unwind_passes M e eff pre hpre (h :: rest) r s1 f ⟨n, hn⟩
    refine ⟨_, loop_of_step ?_ hn'⟩
    simp only [syncStep, nextStep, hg]
    simp only [unwind]
    cases pre ++ h :: rest <;> rfl
  refine ⟨fwd f, ?_⟩
  rintro ⟨n, hn⟩
  obtain ⟨k, rfl, hk⟩ := step_of_loop hn
  have hstep : syncStep M g (pre ++ h :: rest) i r s = unwind (pre ++ h :: rest) r s1 e := by
    simp only [syncStep, nextStep, hg]
    simp only [unwind]
    cases pre ++ h :: rest <;> rfl
  rw [hstep] at hk
  clear fwd hstep hn hg
  induction pre generalizing s1 k with
  | nil => exact ⟨k, hk⟩
  | cons x xs ih =>
    have hk' : SyncLoop M ⟨x :: (xs ++ h :: rest), .throw e, r, s1⟩ f k := hk
    obtain ⟨k', rfl, hk''⟩ := step_of_loop hk'
    have := hpre x (List.mem_cons_self ..) s1
    have hstep : syncStep M x (xs ++ h :: rest) (.throw e) r s1 = unwind (xs ++ h :: rest) r (eff x s1) e := by
      simp only [syncStep, nextStep, this]
      simp only [unwind]
      cases xs ++ h :: rest <;> rfl
    rw [hstep] at hk''
    exact ih (eff x s1) (fun y hy => hpre y (List.mem_cons_of_mem _ hy)) k' hk''

/-- **C10 (unhandled).** If no enclosing coroutine handles `e`, `sync_wait` raises `e`. -/
theorem C10_unhandled (M : Machine G σ V E T) (e : E) (eff : G → σ → σ) (g : G) (i : Inp V E) (s s1 : σ)
    (r : Option (Yld G V E T)) (pre : List G)
    (hg : M.resume g i s = (s1, .raises e)) (hpre : ∀ x ∈ pre, PassesOn M e eff x) :
    ∃ n, SyncLoop M ⟨g :: pre, i, r, s⟩ (.raised e (pre.foldl (fun s x => eff x s) s1)) n := by
  obtain ⟨n, hn⟩ := unwind_passes M e eff pre hpre [] r s1 (.raised e (pre.foldl (fun s x => eff x s) s1))
    ⟨0, rfl, rfl⟩
  refine ⟨_, loop_of_step ?_ (by simpa using hn)⟩
  simp only [syncStep, nextStep, hg]
  cases pre <;> rfl

/-- **C10 (handled stays handled)** (partial: the handler must yield once more before it returns, cf. `C09_false`): if `h`
handles `e` by yielding a plain value `v` and then returning, its caller `p` is resumed with `v`, not with `e`; if `h` was
the outermost coroutine, `sync_wait` returns `v`. -/
theorem C10_handled_partial (M : Machine G σ V E T) (e : E) (h h' : G) (rest : List G) (r : Option (Yld G V E T))
    (s s1 s2 : σ) (v : V) (f : Final G σ V E T)
    (h1 : M.resume h (.throw e) s = (s1, .yields (.plain v) h')) (h2 : M.resume h' (.send v) s1 = (s2, .ret)) :
    (∃ n, SyncLoop M ⟨rest, .send v, some (.plain v), s2⟩ f n) ↔ ∃ n, SyncLoop M ⟨h :: rest, .throw e, r, s⟩ f n := by
  constructor
  · rintro ⟨n, hn⟩
    exact ⟨_, .step (c := ⟨h' :: rest, .send v, some (.plain v), s1⟩) (by simp only [syncStep, nextStep, h1])
      (.step (by simp only [syncStep, nextStep, h2]) hn)⟩
  · rintro ⟨n, hn⟩
    obtain ⟨k, rfl, hk⟩ := step_of_loop hn
    simp only [syncStep, nextStep, h1] at hk
    obtain ⟨k', rfl, hk'⟩ := step_of_loop hk
    simp only [syncStep, nextStep, h2] at hk'
    exact ⟨_, hk'⟩

/-- **C10 (handled and returned)**, what the code does instead: the exception that `h` handled is thrown into `h`'s
caller `p` again. -/
theorem C10_false (M : Machine G σ V E T) (e : E) (h p : G) (rest : List G) (r : Option (Yld G V E T)) (s s1 : σ)
    (f : Final G σ V E T) (h1 : M.resume h (.throw e) s = (s1, .ret)) :
    (∃ n, SyncLoop M ⟨p :: rest, .throw e, r, s1⟩ f n) ↔ ∃ n, SyncLoop M ⟨h :: p :: rest, .throw e, r, s⟩ f n := by
  constructor
  · rintro ⟨n, hn⟩
    exact ⟨_, .step (by simp only [syncStep, nextStep, h1]) hn⟩
  · rintro ⟨n, hn⟩
    obtain ⟨k, rfl, hk⟩ := step_of_loop hn
    simp only [syncStep, nextStep, h1] at hk
    exact ⟨_, hk⟩

/-- The hypotheses of the C10 theorems are met: in `swallowDemo` generator 2 raises and its caller (in state 11) handles
the exception by returning, in `demo` state 10 passes exceptions on, in `ioErrorDemo` state 10 handles by yielding. -/
example : swallowDemo.resume 2 (.send 0) [] = ([], .raises "boom") ∧
    swallowDemo.resume 11 (.throw "boom") [] = ([], .ret) ∧
    PassesOn demo "x" (fun _ s => s) 10 ∧
    ioErrorDemo.resume 10 (.throw "e") [] = (["e"], .yields (.plain 1) 11) ∧
    ioErrorDemo.resume 11 (.send 1) ["e"] = (["e"], .ret) :=
  ⟨rfl, rfl, fun _ => rfl, rfl, rfl⟩

/-! ## C11 -/

/-- **C11.** If calling `func(*args)` merely creates a generator `g` (as for every generator function), `sync_call` ends
exactly as one `sync_wait(g)` does: same outcome, same side effects. -/
theorem C11 (M : Machine G σ V E T) (call : σ → σ × Except E G) (g : G) (hcall : ∀ s, call s = (s, .ok g))
    (s : σ) (f : Final G σ V E T) : SyncCall M call s f ↔ SyncWait M g s f := by
  simp only [SyncCall, hcall]

/-- In general the side effects of *calling* the function happen twice, those of running the generator once. -/
theorem C11_calls_twice (M : Machine G σ V E T) (g : G) (eff : σ → σ) (s : σ) (f : Final G σ V E T) :
    SyncCall M (fun s => (eff s, .ok g)) s f ↔ SyncWait M g (eff (eff s)) f := by
  simp only [SyncCall]

/-- If calling the function raises, `sync_call` raises the same, whichever of the two calls it is, and nothing is run. -/
theorem C11_raises (M : Machine G σ V E T) (call : σ → σ × Except E G) (s s' : σ) (e : E) (f : Final G σ V E T)
    (h : call s = (s', .error e) ∨ ∃ s1 g, call s = (s1, .ok g) ∧ call s1 = (s', .error e)) :
    SyncCall M call s f ↔ f = .raised e s' := by
  rcases h with h | ⟨s1, g, h1, h2⟩
  · simp only [SyncCall, h]
  · simp only [SyncCall, h1, h2]

/-- The hypothesis is met by a function that can be called once only. -/
example : SyncCall demo (fun s => if s = [] then ([7], .ok 0) else (s, .error "spent")) [] (.raised "spent" [7]) :=
  (C11_raises demo _ [] [7] "spent" _ (.inr ⟨[7], 0, rfl, rfl⟩)).2 rfl

example : SyncCall demo (fun s => (s, .ok 0)) [] (.returned (some (.plain 42)) [100, 101, 42]) :=
  (C11 demo _ 0 (fun _ => rfl) [] _).2
    ⟨_, .step rfl (.step rfl (.step rfl (.step rfl (.step rfl (.done _ _ _)))))⟩

/-! ## C12 -/

theorem lastOwn_cons_deep (p : Nat × Yld G V E T) (tr : List (Nat × Yld G V E T)) (hp : p.1 ≠ 0) :
    lastOwn (p :: tr) = lastOwn tr := by
  have : (p.1 == 0) = false := by simpa using hp
  simp [lastOwn, List.filter_cons, this]

/-- Invariant: if since the outermost generator last yielded plain `v` it has not yielded again, it is alone on the stack
(or finished) and the result is `v`. -/
theorem lastOwn_inv {M : Machine G σ V E T} {c c' : Cfg G σ V E T} {tr} (h : YieldTrace M c tr c') (v : V)
    (hc : c.stack ≠ []) :
    (lastOwn tr = some (.plain v) → c'.stack.length ≤ 1 ∧ c'.result = some (.plain v)) ∧
    (lastOwn tr = none → (c.stack.length ≤ 1 ∧ c.result = some (.plain v)) →
      c'.stack.length ≤ 1 ∧ c'.result = some (.plain v)) := by
  induction h with
  | refl c => exact ⟨by simp [lastOwn], fun _ h => h⟩
  | @step g rest args result s c tr c' h ht ih =>
    -- the step's own yield
    cases hr : M.resume g args s with
    | mk s1 o =>
      simp only [yieldOf]
      by_cases hcs : c.stack = []
      · -- the run is over after this step
        have hnil : tr = [] ∧ c' = c := by
          cases ht with
          | refl => exact ⟨rfl, rfl⟩
          | step => simp at hcs
        obtain ⟨rfl, rfl⟩ := hnil
        simp only [syncStep, nextStep, hr] at h
        cases o with
        | yields y g' =>
          cases y with
          | plain w => cases h; simp at hcs
          | exc e => cases h; simp at hcs
          | gen d => cases h; simp at hcs
          | tok t =>
            simp only [handleSync] at h
            split at h
            · cases h; simp at hcs
            · simp only [List.tail_cons, unwind] at h
              cases rest <;> cases h
              simp at hcs
        | raises e =>
          simp only [unwind] at h
          cases rest <;> cases h
          simp at hcs
        | ret =>
          cases h
          simp only [List.append_nil]
          refine ⟨by simp [lastOwn], fun _ hh => ⟨?_, hh.2⟩⟩
          have : rest = [] := hcs
          simp [this]
      · obtain ⟨ih1, ih2⟩ := ih hcs
        simp only [syncStep, nextStep, hr] at h
        cases o with
        | yields y g' =>
          simp only
          have hsplit : ∀ z, lastOwn ([(rest.length, y)] ++ tr) = some z →
              lastOwn tr = some z ∨ (lastOwn tr = none ∧ rest = [] ∧ y = z) := by
            intro z hz
            by_cases hl : rest.length = 0
            · simp only [lastOwn, List.singleton_append, List.filter_cons, hl, beq_self_eq_true, if_true,
                List.getLast?_cons] at hz
              cases hq : (tr.filter (fun p => p.1 == 0)).getLast? with
              | none => right; simp [hq] at hz; exact ⟨by simp [lastOwn, hq], List.length_eq_zero_iff.1 hl, hz⟩
              | some w => left; simp [hq] at hz; simp [lastOwn, hq, hz]
            · left; rw [List.singleton_append, lastOwn_cons_deep _ _ hl] at hz; exact hz
          have hnone : lastOwn ([(rest.length, y)] ++ tr) = none → lastOwn tr = none ∧ rest ≠ [] := by
            intro hz
            by_cases hl : rest.length = 0
            · simp [lastOwn, List.filter_cons, hl] at hz
            · rw [List.singleton_append, lastOwn_cons_deep _ _ hl] at hz
              exact ⟨hz, fun e => hl (by simp [e])⟩
          constructor
          · intro hz
            rcases hsplit _ hz with hz' | ⟨hz', hrest, rfl⟩
            · exact ih1 hz'
            · subst hrest
              cases h
              exact ih2 hz' ⟨by simp, rfl⟩
          · intro hz hh
            obtain ⟨_, hne⟩ := hnone hz
            have := hh.1
            simp at this
            exact absurd this hne
        | raises e =>
          simp only [unwind] at h
          cases rest with
          | nil => cases h
          | cons a as =>
            cases h
            simp only [List.nil_append]
            refine ⟨ih1, fun hz hh => ?_⟩
            have := hh.1
            simp at this
        | ret =>
          cases h
          simp only [List.nil_append]
          refine ⟨ih1, fun hz hh => ih2 hz ⟨?_, hh.2⟩⟩
          have := hh.1
          simp at this
          simp [this]

/-- **C12.** Whatever happened before (any nesting, exceptions, tokens): if a run of `sync_wait` has come to an end and
the last yield that the outermost coroutine performed was of the plain value `v`, then `sync_wait` returns `v`. -/
theorem C12 (M : Machine G σ V E T) (g : G) (s s' : σ) (tr : List (Nat × Yld G V E T)) (v : V) (args : Inp V E)
    (r : Option (Yld G V E T))
    (h : YieldTrace M (start M g s) tr ⟨[], args, r, s'⟩) (hlast : lastOwn tr = some (.plain v)) :
    SyncWait M g s (.returned (some (.plain v)) s') := by
  have hr := ((lastOwn_inv h v (by simp [start])).1 hlast).2
  simp only at hr
  subst hr
  have : ∀ {c tr c'}, YieldTrace M c tr c' → c' = ⟨[], args, some (.plain v), s'⟩ →
      ∃ n, SyncLoop M c (.returned (some (.plain v)) s') n := by
    intro c tr c' ht
    induction ht with
    | refl c => rintro rfl; exact ⟨0, .done ..⟩
    | step h _ ih =>
      intro he
      obtain ⟨n, hn⟩ := ih he
      exact ⟨n + 1, .step h hn⟩
  exact this h rfl

/-- Every returning run has such a trace, so C12's hypothesis is not restrictive. -/
theorem trace_of_returned {M : Machine G σ V E T} {c : Cfg G σ V E T} {r s' n}
    (h : SyncLoop M c (.returned r s') n) : ∃ tr args, YieldTrace M c tr ⟨[], args, r, s'⟩ := by
  generalize hf : Final.returned r s' = f at h
  induction h with
  | done args result s => cases hf; exact ⟨[], args, .refl _⟩
  | fail => cases hf
  | step h _ ih =>
    obtain ⟨tr, args, ht⟩ := ih hf
    exact ⟨_, args, .step h ht⟩

example : ∃ tr args, YieldTrace demo (start demo 0 []) tr ⟨[], args, some (.plain 42), [100, 101, 42]⟩ ∧
    lastOwn tr = some (.plain 42) :=
  ⟨_, _, .step rfl (.step rfl (.step rfl (.step rfl (.step rfl (.refl _))))), by decide⟩

/-- Without the condition, `sync_wait` can return a generator object: here the outermost coroutine only calls a child which
yields nothing. -/
example : SyncWait swallowDemo 0 [] (.returned (some (.gen 2)) ["boom"]) := C09_false.1

end Verif.Coroutine
