import Verif.ReactorWaitsLemmas
/-!
# C77: any number of commands can be waited for

The reactor with the real `WaitForMultipleObjects`. The operating system is any one that does what `Spec.WaitAny` documents; which events
are signalled in time, and whether a call fails, is left open.

`Apart` is the hypothesis that no two commands ever wait for the same event; every request creates an event of its own (win32.py:159) and
none is ever closed.
-/
set_option linter.unusedSimpArgs false

namespace Verif.ReactorWaits
open Verif.Coroutine Verif.Reactor
open Verif.Executer (Dict)

variable {G σ V E T : Type} {M : Machine G σ V E T} {event : T → Nat} {gen : Nat → G} {world : Nat → σ} {cmds : List Nat}

/-- **C77, one wait.** Whatever documented number the operating system returns, `_wait_for_events` either raises `AsiWin32OSError`, exactly if
the number stands for a timeout or a failure; or it goes on with the command whose event has that index, an event that is signalled: it never
takes one command's event for another's, nor an index for an error or the other way round. -/
theorem C77_wait (hio : ∀ t s e, (M.await t s).2 ≠ .error e) {d : Dict (Cfg G σ V E T)} {es : List Nat} (ht : Tokens event d es)
    (hk : (Dict.keys d).Nodup) {ready : Nat → Prop} {r : Int} (h : Spec.WaitAny ready (handles event d) r) :
    ((r = 0x102 ∨ r = -1) ∧ waitForEvents M event d r = .osError) ∨
    ∃ k c e d', r = Int.ofNat k ∧ es[k]? = some e ∧ ready e ∧ waitForEvents M event d r = .picked c d' ∧ WaitForEvents M d k c d' := by
  rw [ht.handles] at h
  cases h with
  | failed => exact .inl ⟨.inr rfl, by simp [waitForEvents, ht.dict, checkWait]⟩
  | timeout _ _ _ => exact .inl ⟨.inl rfl, by simp [waitForEvents, ht.dict, checkWait]⟩
  | @object k e _ hle he hr =>
    right
    obtain ⟨c, cfg, t, hd, htok, -, hw⟩ := ht.wait (M := M) hk (by simp only [Spec.maximumWaitObjects] at hle; omega) he
    rcases hm : M.await t cfg.st with ⟨s', x | i⟩
    · exact absurd (by rw [hm]) (hio t cfg.st x)
    · rw [hm] at hw
      exact ⟨k, c, e, _, rfl, he, hr, hw, .mk hd htok hm⟩

/-- A state of the real reactor is one of the reactor of `Verif.Reactor`, and every coroutine left is suspended with an event of its own. -/
theorem run_reach (hio : ∀ t s e, (M.await t s).2 ≠ .error e) (hn : cmds.Nodup) (ha : Apart M event gen world cmds) {n st}
    (h : Run M event gen world cmds n st) : Reach M gen world cmds n st ∧ Kept M gen world cmds [] st.coroutines := by
  induction h with
  | first hf => exact ⟨.first hf, (Kept.initial gen world cmds hn).forLoop hf hn⟩
  | @next n st ready r c d st' _ hne hw hp hf ih =>
    obtain ⟨hr, hk⟩ := ih
    obtain ⟨es, ht⟩ := hk.tokens ha
    rcases C77_wait hio ht hk.nodup hw with ⟨-, h⟩ | ⟨k, c', e, d', -, -, -, h, hwe⟩
    · rw [h] at hp; cases hp
    · rw [h] at hp; cases hp
      refine ⟨.next hr hne ⟨_, hwe, hf⟩, ?_⟩
      obtain ⟨hd, htok, haw⟩ := hwe
      rename_i cfg t s' i
      have hg := (Dict.get_erase_of_getElem _ hk.nodup k c cfg hd).1
      refine Kept.forLoop hf (by simp) ⟨dict_nodup_set _ _ _ hk.nodup, ?_, ?_, ?_⟩
      · intro x cf hx
        simp only [dict_get_set] at hx
        split at hx
        · next e => subst e; exact hk.mem _ _ hg
        · exact hk.mem x cf hx
      · intro x cf hx hxc
        simp only [List.mem_singleton] at hxc
        subst hxc
        simp only [dict_get_set, if_true, Option.some.injEq] at hx
        subst hx
        obtain ⟨a, u, h1, h2⟩ := hk.stop _ _ hg (by simp)
        have := asyncLoop_blocked h2
        rw [htok] at this; cases this
        exact .io h1 h2 haw
      · intro x cf hx hxc
        simp only [List.mem_singleton] at hxc
        have hne : ¬ c = x := fun e => hxc e.symm
        simp only [dict_get_set, hne, if_false] at hx
        exact hk.stop x cf hx (by simp)

/-- **C77, results.** For any number of commands, each of which finishes when run alone: whenever `wait_for` returns, it returns in argument
order what each command returns when run alone. -/
theorem C77_results (hio : ∀ t s e, (M.await t s).2 ≠ .error e) (hn : cmds.Nodup) (ha : Apart M event gen world cmds)
    {tr : Nat → List (Nat × Yld G V E T)} {r : Nat → Option (Yld G V E T)} {s : Nat → σ} (h : RunsAlone M gen world cmds tr r s)
    {n : Nat} {rs : List (Option (Option (Yld G V E T) × σ))} (hw : WaitFor M event gen world cmds n rs) :
    rs = cmds.map (fun c => some (r c, s c)) := by
  obtain ⟨st, hr, hd, rfl⟩ := hw
  exact C13 M hio gen world cmds hn tr r s h n _ ⟨st, (run_reach hio hn ha hr).1, hd, rfl⟩

/-- **C77** (partial: at most 64 commands, cf. `C77_false`). The first pass comes to an end. Whatever was signalled so far: while commands are
pending, `_wait_for_events` can only raise `AsiWin32OSError`, and that only if the operating system fails without need or none of the pending
events is signalled in time; otherwise `wait_for` goes on, and it returns after as many waits as the commands perform I/Os in total. -/
theorem C77_partial (hio : ∀ t s e, (M.await t s).2 ≠ .error e) (hn : cmds.Nodup) (ha : Apart M event gen world cmds)
    (hfew : cmds.length ≤ 64)
    {tr : Nat → List (Nat × Yld G V E T)} {res : Nat → Option (Yld G V E T)} {s : Nat → σ} (h : RunsAlone M gen world cmds tr res s) :
    (∃ st, Run M event gen world cmds 0 st) ∧
    ∀ n st, Run M event gen world cmds n st →
      (∀ ready, (∃ e ∈ handles event st.coroutines, ready e) → ∃ r, Spec.WaitAny ready (handles event st.coroutines) r ∧
        Spec.Healthy (handles event st.coroutines) r) ∧
      (∀ ready r, Spec.WaitAny ready (handles event st.coroutines) r → Spec.Healthy (handles event st.coroutines) r →
        (∃ e ∈ handles event st.coroutines, ready e) →
        ∃ c d st', waitForEvents M event st.coroutines r = .picked c d ∧ ForLoop M [c] ⟨d, st.results⟩ st' ∧
          Run M event gen world cmds (n + 1) st') ∧
      (handles event st.coroutines = [] ↔ st.coroutines = []) ∧
      (st.coroutines = [] ↔ n = (cmds.map (fun c => ios (tr c))).foldr (· + ·) 0) := by
  obtain ⟨⟨st0, h0⟩, hall⟩ := C14 M hio gen world cmds hn tr res s h
  refine ⟨?_, ?_⟩
  · cases h0 with
    | first hf => exact ⟨st0, .first hf⟩
  · intro n st hst
    obtain ⟨hr, hk⟩ := run_reach hio hn ha hst
    obtain ⟨es, ht⟩ := hk.tokens ha
    obtain ⟨hstep, -, -, hend⟩ := hall n st hr
    have hlen : es.length ≤ 64 := by
      rw [ht.length]
      have := nodup_length_le hk.nodup (l' := cmds) (fun x hx => by
        obtain ⟨v, hv⟩ := dict_get_of_mem hx
        exact hk.mem x v hv)
      simp only [Dict.keys, List.length_map] at this
      omega
    refine ⟨?_, ?_, ?_, hend⟩
    · rintro ready ⟨e, he, hre⟩
      rw [ht.handles] at he ⊢
      obtain ⟨k, hk, hek⟩ := List.getElem_of_mem he
      refine ⟨(k : Nat), .object (List.length_pos_of_mem he) hlen (by rw [List.getElem?_eq_getElem hk, hek]) hre, ?_⟩
      intro _ _ hc
      omega
    · rintro ready r hw hh ⟨e, he, hre⟩
      rw [ht.handles] at he
      have hne : st.coroutines ≠ [] := by
        intro hc
        have := ht.length
        rw [hc] at this
        have := List.length_pos_of_mem he
        simp_all
      rcases C77_wait hio ht hk.nodup hw with ⟨hr', -⟩ | ⟨k, c, e', d, rfl, hke, -, hp, hwe⟩
      · exfalso
        rw [ht.handles] at hw hh
        have hpos := List.length_pos_of_mem he
        rcases hr' with rfl | rfl
        · have hno : ∀ x ∈ es, ¬ ready x := by
            generalize hz : (0x102 : Int) = z at hw
            cases hw with
            | @object k x _ _ hk' _ =>
              have : k < es.length := by
                by_cases hlt : k < es.length
                · exact hlt
                · rw [List.getElem?_eq_none (by omega)] at hk'; cases hk'
              omega
            | timeout _ _ hno => exact hno
            | failed => cases hz
          exact hno e he hre
        · exact hh hpos hlen rfl
      · have hkl : k < st.coroutines.length := by
          rw [← ht.length]
          by_cases hlt : k < es.length
          · exact hlt
          · rw [List.getElem?_eq_none (by omega)] at hke; cases hke
        obtain ⟨c', st', d', hwe', hf⟩ := hstep k hkl
        have hdd : c' = c ∧ d' = d := by
          obtain ⟨a1, a2, a3⟩ := hwe
          obtain ⟨b1, b2, b3⟩ := hwe'
          rw [a1] at b1; cases b1
          rw [a2] at b2; cases b2
          rw [a3] at b3; cases b3
          exact ⟨rfl, rfl⟩
        obtain ⟨rfl, rfl⟩ := hdd
        exact ⟨_, _, st', hp, hf, .next hst hne hw hp hf⟩
    · constructor
      · intro hz
        rw [ht.handles] at hz
        have := ht.length
        rw [hz] at this
        exact List.eq_nil_of_length_eq_zero this.symm
      · intro hz
        rw [ht.handles]
        have := ht.length
        rw [hz] at this
        exact List.eq_nil_of_length_eq_zero this

/-- **C77 is false for more than 64 commands that perform I/O** (`some` of those given): whatever the operating system does, the first wait
raises `AsiWin32OSError`, and `wait_for` never returns. By then each of these commands has been run up to its first token: its request has
been started, and nobody will ever ask for its outcome. -/
theorem C77_false (hio : ∀ t s e, (M.await t s).2 ≠ .error e) (hn : cmds.Nodup) (ha : Apart M event gen world cmds)
    {tr : Nat → List (Nat × Yld G V E T)} {res : Nat → Option (Yld G V E T)} {s : Nat → σ} (h : RunsAlone M gen world cmds tr res s)
    {some : List Nat} (hs : some.Nodup) (hsub : ∀ c ∈ some, c ∈ cmds) (hmany : 64 < some.length) (hios : ∀ c ∈ some, 0 < ios (tr c)) :
    (∀ n rs, ¬ WaitFor M event gen world cmds n rs) ∧
    (∃ st, Run M event gen world cmds 0 st) ∧
    ∀ n st, Run M event gen world cmds n st → n = 0 ∧
      (∀ ready r, Spec.WaitAny ready (handles event st.coroutines) r → waitForEvents M event st.coroutines r = .osError) ∧
      ∀ c ∈ some, ∃ t cfg, AsyncLoop M (start M (gen c) (world c)) (.blocked t cfg) ∧ Dict.get st.coroutines c = .some cfg := by
  have hb : ∀ c ∈ some, ∃ t cfg, AsyncLoop M (start M (gen c) (world c)) (.blocked t cfg) := by
    intro c hc
    have hrun := runsAlone_ioRun hio h c (hsub c hc)
    have hpos := hios c hc
    generalize ios (tr c) = m at hrun hpos
    cases hrun with
    | done => omega
    | io hbl _ _ => exact ⟨_, _, hbl⟩
  obtain ⟨h1, h2⟩ := many_raise hn ha hs hsub hmany hb
  refine ⟨h1, ?_, h2⟩
  obtain ⟨⟨st0, h0⟩, -⟩ := C14 M hio gen world cmds hn tr res s h
  cases h0 with
  | first hf => exact ⟨st0, .first hf⟩

/-! ## The hypotheses are met -/

/-- Every command starts one I/O, with an event named like the command, and yields what comes back. -/
def oneIo : Machine Nat Nat Nat String Nat where
  none := 0
  resume g i s :=
    match g, i with
    | 0, _ => (s, .yields (.tok s) 1)
    | 1, .send v => (s, .yields (.plain v) 2)
    | _, _ => (s, .ret)
  await _ s := (s, .ok (.send (10 * s)))

theorem oneIo_loop {c : Cfg Nat Nat Nat String Nat} {o} (h : AsyncLoop oneIo c o) : ∀ t c', o = .blocked t c' → c'.st = c.st ∧ t = c.st := by
  induction h with
  | done => intro t c' h; cases h
  | fail => intro t c' h; cases h
  | @blocked g rest args result s t c h =>
    rintro t' c' ⟨⟩
    simp only [nextStep, oneIo] at h
    split at h
    · next hr =>
      split at h <;> cases h
      split at hr <;> cases hr
      exact ⟨rfl, rfl⟩
    · cases h
    · simp only [unwind] at h; split at h <;> cases h
  | @step g rest args result s c o h _ ih =>
    intro t c' ho
    have hs : c.st = s := by
      simp only [nextStep, oneIo] at h
      split at h
      · next hr =>
        split at hr <;> cases hr <;> cases h <;> rfl
      · next hr =>
        split at hr <;> cases hr <;> cases h <;> rfl
      · next hr => split at hr <;> cases hr
    have := ih t c' ho
    rw [hs] at this
    exact this

theorem oneIo_comes {a b : Cfg Nat Nat Nat String Nat} (h : Comes oneIo a b) : b.st = a.st := by
  induction h with
  | refl => rfl
  | io _ hb ha ih =>
    have := (oneIo_loop hb _ _ rfl).1
    simp only [oneIo, Prod.mk.injEq] at ha
    simp only
    rw [← ha.1, this, ih]

theorem oneIo_apart (cmds : List Nat) : Apart oneIo (fun t => t) (fun _ => 0) (fun c => c) cmds := by
  rintro c _ d _ hcd t u ⟨a, a', h1, h2⟩ ⟨b, b', h3, h4⟩
  rw [(oneIo_loop h2 _ _ rfl).2, (oneIo_loop h4 _ _ rfl).2, oneIo_comes h1, oneIo_comes h3]
  exact hcd

theorem oneIo_alone (cmds : List Nat) : RunsAlone oneIo (fun _ => 0) (fun c => c) cmds (fun c => [(0, .tok c), (0, .plain (10 * c))])
    (fun c => some (.plain (10 * c))) (fun c => c) :=
  fun _ _ => ⟨_, .step rfl (.step rfl (.step rfl (.refl _)))⟩

/-- With 64 commands the first wait goes on as soon as an event is signalled. -/
example : ∃ st, Run oneIo (fun t => t) (fun _ => 0) (fun c => c) (List.range 64) 0 st :=
  (C77_partial (by intro t s e h; simp [oneIo] at h) List.nodup_range (oneIo_apart _) (by simp) (oneIo_alone _)).1

/-- With 65 commands nothing is ever returned. -/
example (n rs) : ¬ WaitFor oneIo (fun t => t) (fun _ => 0) (fun c => c) (List.range 65) n rs :=
  (C77_false (by intro t s e h; simp [oneIo] at h) List.nodup_range (oneIo_apart _) (oneIo_alone _) (some := List.range 65)
    List.nodup_range (fun _ h => h) (by simp) (by intro c _; simp [ios, isTok])).1 n rs

/-- A healthy system, three events, the second of them signalled. -/
example : Spec.WaitAny (fun e => e = 8) [4, 8, 12] 1 ∧ Spec.Healthy [4, 8, 12] 1 :=
  ⟨.object (k := 1) (by decide) (by decide) rfl rfl, by intro _ _; decide⟩

end Verif.ReactorWaits
