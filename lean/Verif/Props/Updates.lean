import Verif.Spec.Updates
import Verif.Props.Cluster
/-!
# C99: updates of a block of a shared disk with COMPARE AND WRITE are not lost

The cluster of C95, but each computer runs a program that decides what to do next by what it was told.
-/
set_option linter.unusedSimpArgs false
set_option linter.unusedSectionVars false

namespace Verif.Commands.Cluster

open Verif.Executer Verif.Coroutine Verif.ExecuterGen Verif.Platform Verif.Spec Verif.Sense Verif.Commands
open Verif.Spec.Disk (Geometry Contents Op Reply disk Each readAt writeAt runOps)
open Verif.Spec.Cluster

/-- The program, in the manner of

    old = sync_wait(Read16Command(lba, 1, size).execute(asi))
    try:
        sync_wait(CompareAndWriteCommand(lba, old + change(old), 1, size).execute(asi))
    except AsiCheckConditionError:
        ...begin again

Its state is `old`, once it has been read. -/
def updater (g : Geometry) (lba : Nat) (change : Nat → Bytes → Bytes) (h : Nat) : Option Bytes → Cmd
  | none => .read16 lba 1 g.size
  | some old => .compareAndWrite lba (old ++ change h old) 1 g.size

def proceed : Option Bytes → Res → Option Bytes × Did
  | none, .ok (some (.obj (.raw (some bs)))) => (some bs, .looked)
  | none, _ => (none, .failed)
  | some _, .ok _ => (none, .updated)
  | some _, .error (.dev (.checkCondition _ _)) => (none, .missed)
  | some _, .error _ => (none, .failed)

section

variable {K T : Type} [DecidableEq K] (L : Lib) (B : Parse.BufLib) (other : Bytes → Py (List (String × Int))) {g : Geometry}

/-- The same on the array: what a turn of the program does to the block and to the program. A computer that is `blind` is told that its exchange was done when it was not. -/
def play (g : Geometry) (lba : Nat) (change : Nat → Bytes → Bytes) (blind : Bool) (h : Nat) (old : Option Bytes) (m : Contents) : (Option Bytes × Did) × Contents :=
  match old with
  | none => ((some (readAt m (lba * g.size) g.size), .looked), m)
  | some old =>
    if readAt m (lba * g.size) g.size = old then ((none, .updated), writeAt m (lba * g.size) (change h old))
    else ((none, if blind then .updated else .missed), m)

/-- Programs know blocks only. -/
def Sizes (g : Geometry) (s : Nat → Option Bytes) : Prop := ∀ h old, s h = some old → old.length = g.size

/-- What is needed of the computers: they are at rest, can carry the commands, and do not go through the device mapper; what they do besides does not write the block. -/
structure Suits (cs : Nat → Computer) (lba : Nat) (change : Nat → Bytes → Bytes) (w : (h : Nat) → ((cs h).host K T L B other (disk g)).State) (sched : List (Turn Cmd)) : Prop where
  inside : lba + 1 ≤ g.blocks
  size : ∀ h b, b.length = g.size → (change h b).length = g.size
  ready : ∀ h, (cs h).Ready K T L B other (disk g) (w h)
  can : ∀ h old, (∀ b, old = some b → b.length = g.size) → ∀ q, Cdb.request L (updater g lba change h old).cdb = .ok q → (cs h).Can q
  aside : ∀ h c, .aside h c ∈ sched → (∃ op, Asks g c op ∧ op.Spares g lba 1) ∧ ∀ q, Cdb.request L c.cdb = .ok q → (cs h).Can q

theorem updater_asks (hg : Valid g) {lba : Nat} {change : Nat → Bytes → Bytes} (hl : lba + 1 ≤ g.blocks) (hs : ∀ h b, b.length = g.size → (change h b).length = g.size) (h : Nat)
    (old : Option Bytes) (ho : ∀ b, old = some b → b.length = g.size) :
    Asks g (updater g lba change h old) (match old with | none => .read lba 1 | some b => .exchange lba b (change h b)) := by
  have hb := hg.blocks
  cases old with
  | none => exact .read16 (by omega) (by decide)
  | some b => exact .exchange (n := 1) (by omega) (by decide) (by rw [ho b rfl, Nat.one_mul]) (by rw [hs h b (ho b rfl), Nat.one_mul])

/-- One turn of a computer's program. -/
theorem turn (hg : Valid g) (c : Computer) (blind : Bool) (hc : c.Direct ↔ blind = false) {lba : Nat} {change : Nat → Bytes → Bytes} (hl : lba + 1 ≤ g.blocks)
    (hs : ∀ h b, b.length = g.size → (change h b).length = g.size) (h : Nat) (old : Option Bytes) (ho : ∀ b, old = some b → b.length = g.size)
    (hcan : ∀ q, Cdb.request L (updater g lba change h old).cdb = .ok q → c.Can q) (w : (c.host K T L B other (disk g)).State) (m : Contents)
    (hw : c.Ready K T L B other (disk g) w) :
    ∃ a v, (c.host K T L B other (disk g)).runs (updater g lba change h old) ((c.host K T L B other (disk g)).attach w m) a v ∧
      (∀ a2 v2, (c.host K T L B other (disk g)).runs (updater g lba change h old) ((c.host K T L B other (disk g)).attach w m) a2 v2 → a2 = a ∧ v2 = v) ∧
      proceed old a = (play g lba change blind h old m).1 ∧ (c.host K T L B other (disk g)).disk v = (play g lba change blind h old m).2 ∧
      c.Ready K T L B other (disk g) v := by
  obtain ⟨hr1, hd1⟩ := attach_ready L B other c w m hw
  obtain ⟨a, v, e1, e2, e3, e4, e5, e6⟩ := host_step (K := K) (T := T) L B other hg c _ _ (updater_asks hg hl hs h old ho) hcan _ hr1
  rw [hd1] at e3 e4 e5
  have hz := hg.size.1
  refine ⟨a, v, e1, e2, ?_, ?_, e6⟩
  · cases old with
    | none =>
      have e : Shows a (.data (readAt m (lba * g.size) (1 * g.size))) := by
        by_cases hd : c.Direct
        · simpa only [Op.run, if_pos hl] using e3 hd
        · simpa only [Op.run, if_pos hl, Op.blind] using e4 hd
      simp only [Nat.one_mul, Shows] at e
      rw [e, if_neg (by intro h; have := congrArg List.length h; rw [readAt_length] at this; simp at this; omega)]
      rfl
    | some b =>
      simp only [Op.run, ho b rfl, one_block hz, if_pos hl] at e3 e4
      simp only [play]
      by_cases he : readAt m (lba * g.size) g.size = b
      · have e : Shows a .done := by
          by_cases hd : c.Direct
          · simpa only [if_pos he] using e3 hd
          · simpa only [if_pos he, Op.blind] using e4 hd
        rw [if_pos he, show a = _ from e]; rfl
      · rw [if_neg he]
        rw [if_neg he] at e3 e4
        cases blind with
        | false =>
          obtain ⟨raw, s, rfl, -⟩ := e3 (hc.2 rfl)
          rfl
        | true =>
          have e := e4 (by rw [hc]; simp)
          rw [show a = _ from e]; rfl
  · rw [e5]
    cases old with
    | none => simp only [Op.run, if_pos hl]; rfl
    | some b =>
      simp only [Op.run, ho b rfl, one_block hz, if_pos hl, play]
      split <;> rfl

/-- One turn after the other. -/
def playAll (g : Geometry) (lba : Nat) (change : Nat → Bytes → Bytes) (blind : Nat → Bool) : List Nat → (Nat → Option Bytes) → Contents → List (Nat × Did) × Contents
  | [], _, m => ([], m)
  | h :: hs, s, m =>
    let r := play g lba change (blind h) h (s h) m
    let rest := playAll g lba change blind hs (fun k => if k = h then r.1.1 else s k) r.2
    ((h, r.1.2) :: rest.1, rest.2)

theorem sizes_play {lba : Nat} {change : Nat → Bytes → Bytes} {blind : Bool} {h : Nat} {s : Nat → Option Bytes} {m : Contents} (hz : Sizes g s) :
    Sizes g (fun k => if k = h then (play g lba change blind h (s h) m).1.1 else s k) := by
  intro k old
  dsimp only
  split
  · unfold play
    cases s h with
    | none => intro h; cases h; exact readAt_length ..
    | some b => dsimp only; split <;> (intro h; cases h)
  · exact hz k old

theorem turns_played (hg : Valid g) (cs : Nat → Computer) {lba : Nat} {change : Nat → Bytes → Bytes} (blind : Nat → Bool) (hb : ∀ h, (cs h).Direct ↔ blind h = false)
    (hosts : List Nat) : ∀ (w : (h : Nat) → ((cs h).host K T L B other (disk g)).State) (s : Nat → Option Bytes) (m : Contents), Sizes g s →
    Suits L B other cs lba change w (hosts.map .go) →
    ∃ w' s', Turns (fun h => (cs h).host K T L B other (disk g)) (updater g lba change) proceed w s m (hosts.map .go) (playAll g lba change blind hosts s m).1 w' s'
      (playAll g lba change blind hosts s m).2 := by
  induction hosts with
  | nil => exact fun w s m _ _ => ⟨w, s, .nil ..⟩
  | cons h hosts ih =>
    intro w s m hz hs
    obtain ⟨a, v, e1, -, e3, e4, e5⟩ := turn (K := K) (T := T) L B other hg (cs h) (blind h) (hb h) hs.inside hs.size h (s h) (hz h) (hs.can h (s h) (hz h)) (w h) m (hs.ready h)
    obtain ⟨w', s', f⟩ := ih (put (S := fun h => ((cs h).host K T L B other (disk g)).State) w h v) _ _ (sizes_play hz)
      ⟨hs.inside, hs.size, fun k => put_ready L B other hs.ready h v e5 k, hs.can, fun k c hc => hs.aside k c (List.mem_cons_of_mem _ hc)⟩
    refine ⟨w', s', ?_⟩
    have := Turns.go (hosts := fun h => (cs h).host K T L B other (disk g)) (ask := updater g lba change) (next := proceed) (w := w) (s := s) e1
      (by rw [e3, e4]; exact f)
    rw [e3] at this
    exact this

/-- One for a computer whose exchange must miss. -/
def slack (s : Option Bytes) (block : Bytes) : Nat :=
  match s with
  | none => 0
  | some old => if old = block then 0 else 1

theorem slack_le (s : Option Bytes) (b : Bytes) : slack s b ≤ 1 := by
  unfold slack; split
  · omega
  · split <;> omega

theorem updates (hg : Valid g) (cs : Nat → Computer) {lba : Nat} {change : Nat → Bytes → Bytes} (sched : List (Turn Cmd)) :
    ∀ (w : (h : Nat) → ((cs h).host K T L B other (disk g)).State) (s : Nat → Option Bytes) (m : Contents), Sizes g s → Suits L B other cs lba change w sched →
    (∀ h, .go h ∈ sched → (cs h).Direct) →
    ∃ es w' s' m', Turns (fun h => (cs h).host K T L B other (disk g)) (updater g lba change) proceed w s m sched es w' s' m' ∧
      (∀ es2 w2 s2 m2, Turns (fun h => (cs h).host K T L B other (disk g)) (updater g lba change) proceed w s m sched es2 w2 s2 m2 →
        es2 = es ∧ w2 = w' ∧ s2 = s' ∧ m2 = m') ∧
      readAt m' (lba * g.size) g.size = applied change (readAt m (lba * g.size) g.size) es ∧ (∀ e ∈ es, e.2 ≠ .failed) ∧
      ∀ h, misses h es ≤ byOthers h es + slack (s h) (readAt m (lba * g.size) g.size) := by
  induction sched with
  | nil =>
    intro w s m _ _ _
    refine ⟨[], w, s, m, .nil .., ?_, rfl, by simp, fun h => Nat.zero_le _⟩
    intro es2 w2 s2 m2 h
    cases h
    exact ⟨rfl, rfl, rfl, rfl⟩
  | cons t rest ih =>
    intro w s m hz hs hdir
    have hdir' : ∀ h, Turn.go h ∈ rest → (cs h).Direct := fun h hh => hdir h (List.mem_cons_of_mem _ hh)
    cases t with
    | go h =>
      obtain ⟨a, v, e1, e2, e3, e4, e5⟩ := turn (K := K) (T := T) L B other hg (cs h) false (by simp [hdir h (List.mem_cons_self ..)]) hs.inside hs.size h (s h) (hz h)
        (hs.can h (s h) (hz h)) (w h) m (hs.ready h)
      have hz' : Sizes g (fun k => if k = h then (proceed (s h) a).1 else s k) := by rw [e3]; exact sizes_play hz
      obtain ⟨es, w', s', m', f1, f2, f3, f4, f5⟩ := ih (put (S := fun h => ((cs h).host K T L B other (disk g)).State) w h v)
        (fun k => if k = h then (proceed (s h) a).1 else s k) (((cs h).host K T L B other (disk g)).disk v) hz'
        ⟨hs.inside, hs.size, fun k => put_ready L B other hs.ready h v e5 k, hs.can, fun k c hc => hs.aside k c (List.mem_cons_of_mem _ hc)⟩ hdir'
      refine ⟨(h, (proceed (s h) a).2) :: es, w', s', m', .go e1 f1, ?_, ?_⟩
      · intro es2 w2 s2 m2 hrun
        cases hrun with
        | go g1 g2 =>
          obtain ⟨rfl, rfl⟩ := e2 _ _ g1
          obtain ⟨rfl, rfl, rfl, rfl⟩ := f2 _ _ _ _ g2
          exact ⟨rfl, rfl, rfl, rfl⟩
      rw [e3] at f5 ⊢
      rw [e4] at f3 f5
      clear f1 f2 e1 e2 e3 e4
      simp only [applied, List.foldl_cons, List.mem_cons, forall_eq_or_imp, misses, byOthers, List.countP_cons] at f3 f5 ⊢
      have hsh : ∀ k, k = h → s k = s h := fun k hk => by rw [hk]
      cases hold : s h with
      | none =>
        simp only [hold, play] at f3 f5 ⊢
        refine ⟨by simpa using f3, ⟨by simp, f4⟩, fun k => ?_⟩
        have := f5 k
        by_cases hk : k = h
        · subst hk
          simp only [if_true, slack] at this
          simp [hold, slack] at this ⊢
          exact this
        · simp only [if_neg hk] at this
          simpa using this
      | some old =>
        by_cases he : readAt m (lba * g.size) g.size = old
        · simp only [hold, play, if_pos he] at f3 f5 ⊢
          have hw := readAt_writeAt m (lba * g.size) (change h old)
          rw [hs.size h old (hz h old hold)] at hw
          rw [hw] at f3 f5
          refine ⟨by rw [f3, he]; rfl, ⟨by simp, f4⟩, fun k => ?_⟩
          have := f5 k
          by_cases hk : k = h
          · subst hk
            simp [slack] at this ⊢
            omega
          · simp only [if_neg hk] at this
            have h1 := slack_le (s k) (change h old)
            have hk' : ¬ h = k := fun h => hk h.symm
            simp [hk'] at this ⊢
            omega
        · simp only [hold, play, if_neg he] at f3 f5 ⊢
          refine ⟨by simpa using f3, ⟨by simp, f4⟩, fun k => ?_⟩
          have := f5 k
          by_cases hk : k = h
          · subst hk
            have he' : ¬ old = readAt m (lba * g.size) g.size := fun h => he h.symm
            simp [slack, hold, he'] at this ⊢
            omega
          · simp only [if_neg hk] at this
            have hk' : ¬ h = k := fun h => hk h.symm
            simp [hk'] at this ⊢
            omega
    | aside h c =>
      obtain ⟨⟨op, ha, hsp⟩, hcan⟩ := hs.aside h c (List.mem_cons_self ..)
      obtain ⟨hr1, hd1⟩ := attach_ready L B other (cs h) (w h) m (hs.ready h)
      obtain ⟨a, v, e1, e2, -, -, e4, e5⟩ := host_step (K := K) (T := T) L B other hg (cs h) c op ha hcan _ hr1
      rw [hd1] at e4
      have hblock := run_spared g m lba 1 op (each_asks_whole hg.size.1 (.cons ha .nil) op (List.mem_singleton.2 rfl)) hsp
      rw [Nat.one_mul] at hblock
      obtain ⟨es, w', s', m', f1, f2, f3, f4, f5⟩ := ih (put (S := fun h => ((cs h).host K T L B other (disk g)).State) w h v)
        s (((cs h).host K T L B other (disk g)).disk v) hz
        ⟨hs.inside, hs.size, fun k => put_ready L B other hs.ready h v e5 k, hs.can, fun k c hc => hs.aside k c (List.mem_cons_of_mem _ hc)⟩ hdir'
      rw [e4, hblock] at f3 f5
      refine ⟨es, w', s', m', .aside e1 f1, ?_, f3, f4, f5⟩
      intro es2 w2 s2 m2 hrun
      cases hrun with
      | aside g1 g2 =>
        obtain ⟨rfl, rfl⟩ := e2 _ _ g1
        exact f2 _ _ _ _ g2

/-- **C99 (what holds).** Any number of computers, each with its own system, update a block of a shared disk: each reads it, computes what it becomes, and exchanges the
one for the other; when the block has changed in the meantime it begins again. Besides they do whatever they like that does not write the block. Those that update do not go
through the device mapper. However they take turns, there is one run. The block at the end is what it was, with exactly the updates applied that somebody was told were done,
each one to the block as the ones before left it. No call fails for any other reason. And nobody starves for nothing: a computer begins again at most as often as others have
updated the block. -/
theorem C99_partial (hg : Valid g) (cs : Nat → Computer) (lba : Nat) (change : Nat → Bytes → Bytes) (sched : List (Turn Cmd)) (hdir : ∀ h, .go h ∈ sched → (cs h).Direct)
    (w : (h : Nat) → ((cs h).host K T L B other (disk g)).State) (hs : Suits L B other cs lba change w sched) (m : Contents) :
    ∃ es w' s' m', Turns (fun h => (cs h).host K T L B other (disk g)) (updater g lba change) proceed w (fun _ => none) m sched es w' s' m' ∧
      (∀ es2 w2 s2 m2, Turns (fun h => (cs h).host K T L B other (disk g)) (updater g lba change) proceed w (fun _ => none) m sched es2 w2 s2 m2 →
        es2 = es ∧ w2 = w' ∧ s2 = s' ∧ m2 = m') ∧
      readAt m' (lba * g.size) g.size = applied change (readAt m (lba * g.size) g.size) es ∧ (∀ e ∈ es, e.2 ≠ .failed) ∧ ∀ h, misses h es ≤ byOthers h es :=
  updates L B other hg cs sched w (fun _ => none) m (by intro h old hh; cases hh) hs hdir

/-! ## A counter in a block -/

/-- Each computer adds one to the first byte. -/
def addOne (_ : Nat) (b : Bytes) : Bytes :=
  match b with
  | [] => []
  | x :: xs => (x + 1) :: xs

theorem addOne_length (h : Nat) (b : Bytes) : (addOne h b).length = b.length := by cases b <;> rfl

theorem updater_can (h : Nat) (old : Option Bytes) (ho : ∀ b, old = some b → b.length = 512) (q : Req)
    (hq : Cdb.request L (updater ⟨512, 1000⟩ 7 addOne h old).cdb = .ok q) : q.cdb.length ≤ 16 ∧ dataSize q ≤ 1024 := by
  cases old with
  | none =>
    cases (Cdb.C26_read16 L 7 1 512 ⟨by omega, by omega⟩ ⟨by omega, by omega⟩).symm.trans hq
    exact ⟨by simp [Req.cdb, Spec.Cdb.read16, Spec.Cdb.cdb16], by simp [dataSize]⟩
  | some b => exact lock_can L _ _ (ho b rfl) (by rw [addOne_length, ho b rfl]) q hq

theorem four_direct (h : Nat) : (four h).Direct := by
  unfold four
  split <;> trivial

theorem four_suits (sched : List Nat) : Suits (g := ⟨512, 1000⟩) L B other four 7 addOne (fourStates L B other) (sched.map .go) where
  inside := by decide
  size h b hb := by rw [addOne_length]; exact hb
  ready := four_ready L B other
  can h old ho q hq := four_can h q (updater_can L h old ho q hq).1 (updater_can L h old ho q hq).2
  aside h c hc := by simp at hc

/-- Computers with Linux and Windows count in a block. Both read it; Linux is first, Windows has to begin again. The counter ends at two. -/
example : ∃ w' s' m', Turns (fun h => (four h).host Unit Unit L B other (disk ⟨512, 1000⟩)) (updater ⟨512, 1000⟩ 7 addOne) proceed (fourStates L B other) (fun _ => none)
      (fun _ => 0) ([0, 3, 0, 3, 3, 3].map .go) [(0, .looked), (3, .looked), (0, .updated), (3, .missed), (3, .looked), (3, .updated)] w' s' m' ∧
    readAt m' (7 * 512) 512 = 2 :: List.replicate 511 0 := by
  obtain ⟨w', s', h⟩ := turns_played (K := Unit) (T := Unit) L B other (g := ⟨512, 1000⟩) ⟨by decide, by decide⟩ four (fun _ => false) (fun h => by simp [four_direct h])
    [0, 3, 0, 3, 3, 3] (fourStates L B other) (fun _ => none) (fun _ => 0) (by intro h old hh; cases hh) (four_suits L B other _)
  have e : (playAll ⟨512, 1000⟩ 7 addOne (fun _ => false) [0, 3, 0, 3, 3, 3] (fun _ => none) (fun _ => 0)).1 =
    [(0, .looked), (3, .looked), (0, .updated), (3, .missed), (3, .looked), (3, .updated)] := by decide +kernel
  rw [e] at h
  exact ⟨w', s', _, h, by decide +kernel⟩

/-- **C99 is false when a computer goes through the device mapper.** Two computers count in a block. Both are told that they added one, and the counter is one: `linux_dm`
does not look at the status the kernel reports, so the COMPARE AND WRITE that found another block looks done. -/
theorem C99_false : Suits (g := ⟨512, 1000⟩) L B other mixed 7 addOne (mixedStates L B other) ([0, 1, 0, 1].map .go) ∧
    ∃ w' s' m', Turns (fun h => (mixed h).host Unit Unit L B other (disk ⟨512, 1000⟩)) (updater ⟨512, 1000⟩ 7 addOne) proceed (mixedStates L B other) (fun _ => none)
        (fun _ => 0) ([0, 1, 0, 1].map .go) [(0, .looked), (1, .looked), (0, .updated), (1, .updated)] w' s' m' ∧
      readAt m' (7 * 512) 512 = 1 :: List.replicate 511 0 ∧
      applied addOne (readAt (fun _ => 0) (7 * 512) 512) [(0, .looked), (1, .looked), (0, .updated), (1, .updated)] = 2 :: List.replicate 511 0 := by
  have hs : Suits (g := ⟨512, 1000⟩) L B other mixed 7 addOne (mixedStates L B other) ([0, 1, 0, 1].map .go) := by
    refine ⟨by decide, fun h b hb => by rw [addOne_length]; exact hb, mixed_ready L B other, ?_, fun h c hc => by simp at hc⟩
    intro h old ho q hq
    obtain ⟨h1, h2⟩ := updater_can L h old ho q hq
    have fit : LinuxOk lockAlloc q := by
      refine ⟨by omega, by omega, fun _ => ⟨?_, ?_⟩⟩
      · simp [lockAlloc]; omega
      · simp [lockAlloc]
    unfold mixed
    split
    · exact ⟨by decide, fit⟩
    · exact ⟨by decide, fit⟩
  refine ⟨hs, ?_⟩
  obtain ⟨w', s', h⟩ := turns_played (K := Unit) (T := Unit) L B other (g := ⟨512, 1000⟩) ⟨by decide, by decide⟩ mixed (fun h => h != 0)
    (fun h => by match h with | 0 => simp [mixed, Computer.Direct] | _ + 1 => simp [mixed, Computer.Direct])
    [0, 1, 0, 1] (mixedStates L B other) (fun _ => none) (fun _ => 0) (by intro h old hh; cases hh) hs
  have e : (playAll ⟨512, 1000⟩ 7 addOne (fun h => h != 0) [0, 1, 0, 1] (fun _ => none) (fun _ => 0)).1 =
    [(0, .looked), (1, .looked), (0, .updated), (1, .updated)] := by decide +kernel
  rw [e] at h
  exact ⟨w', s', _, h, by decide +kernel, by decide +kernel⟩

end

end Verif.Commands.Cluster
