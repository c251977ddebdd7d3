import Verif.Spec.Ports
import Verif.Props.Paths
import Verif.Props.Target
import Verif.Props.SharedDisk
/-!
# C109: programs that choose the path by what the target reports

A program that asks the target, on one path after the other, which port the path leads to and in which state the groups of its ports are, and uses the first path whose port is in the
state active/optimized; when a command ends with NOT READY it looks for a path again.
-/
set_option linter.unusedSimpArgs false
set_option linter.unusedSectionVars false

namespace Verif.Commands.Clients.Ports

open Verif.Executer Verif.Coroutine Verif.ExecuterGen Verif.Platform Verif.Spec Verif.Spec.Cdb Verif.Sense Verif.Spec.Disk Verif.Spec.Ports
open Verif.Spec.Paths (turn)
open Verif.Commands.Clients.Paths (isNotReady standby_shown turns turn_lt turns_lt turns_turn DirectPath ThroughPath same_paths path_unique HasDevice)

variable {K T σ A A' : Type}

/-! ## The program -/

/-- In the manner of

    page = sync_wait(DeviceIdentificationVPDPageCommand().execute(executer))
    ports = [d.relative_target_port_identifier for d in page.designators_list if isinstance(d, RelativeTargetPortDesignator)]
    port = ports[0] if ports else None
-/
def portOf : Seen → Option Int
  | .ok (some (.obj (.designators (_, ds)))) =>
    (ds.find? fun d => d.cls == "RelativeTargetPortDesignator").bind fun d => d.attrs.lookup "relative_target_port_identifier"
  | _ => none

/-- In the manner of

    groups = sync_wait(RTPGCommand(parameter_data_format=0, allocation_length=room).execute(executer)).descriptor_list
    states = [g.asymetric_access_state for g in groups if port in [p.relative_target_port_identifier for p in g.target_port_list]]
    state = states[0] if states else None
-/
def stateOf (port : Option Int) : Seen → Option Int
  | .ok (some (.obj (.groups t))) =>
    port.bind fun p => (t.groups.find? fun d => d.ports.any fun a => a.lookup "relative_target_port_identifier" == some p).bind fun d => d.attrs.lookup "asymetric_access_state"
  | _ => none

/-- What the program is about: asking for the port, asking for the groups, using the path. `s` is the state of the program that uses the disk. -/
inductive Stage (σ : Type) where
  | port (s : σ) (i : Nat)
  | groups (s : σ) (i : Nat) (port : Option Int)
  | use (s : σ) (i : Nat)

def Stage.state : Stage σ → σ
  | .port s _ => s
  | .groups s _ _ => s
  | .use s _ => s

/-- The program with `n` paths; it ends with the result and the path that was used last. -/
def choosing (n room : Nat) (p : Client σ Cmd Seen A) : Client (Stage σ) (Nat × Cmd) Seen (A × Nat) where
  ask
    | .port _ i => (i, .vpd .identification)
    | .groups _ i _ => (i, .rtpg 0 room)
    | .use s i => (i, p.ask s)
  next
    | .port s i, r => .inl (.groups s i (portOf r))
    | .groups s i port, r => if stateOf port r = some 0 then .inl (.use s i) else .inl (.port s (turn n i))
    | .use s i, r =>
      if isNotReady r then .inl (.port s (turn n i))
      else match p.next s r with
        | .inl s' => .inl (.use s' i)
        | .inr a => .inr (a, i)

/-! ## What it reads from the objects is what the target says -/

theorem relative_class (d : Bytes) : (designatorClass d == "RelativeTargetPortDesignator") = decide (designatorType d = 4) := by
  unfold designatorClass
  split <;> rename_i h
  all_goals first
    | (rw [h]; rfl)
    | (rw [h]; repeat' split
       all_goals rfl)
    | (have h4 : designatorType d ≠ 4 := by assumption
       rw [decide_eq_false h4]; rfl)

theorem port_read (B : Parse.BufLib) (page : Parse.Page) (ds : List Bytes) :
    portOf (.ok (some (.obj (.designators (page, ds.map (designatorOf B)))))) = (portId ds).map Int.ofNat := by
  simp only [portOf, portId, List.find?_map]
  have hf : ((fun d : Parse.Designator => d.cls == "RelativeTargetPortDesignator") ∘ designatorOf B) = fun d => decide (designatorType d = 4) := by
    funext d; exact relative_class d
  rw [hf]
  cases hd : ds.find? fun d => decide (designatorType d = 4) with
  | none => rfl
  | some d =>
    have ht : designatorType d = 4 := by simpa using List.find?_some hd
    simp only [Option.map_some, Option.bind_some, designatorOf, designatorHeader, designatorNumbers, ht]
    rfl

theorem state_read (attrs : List (String × Int)) (groups : List Bytes) (port : Option Nat) :
    stateOf (port.map Int.ofNat) (.ok (some (.obj (.groups
      { attrs := attrs
        groups := groups.map fun d =>
          { attrs := targetPortGroup d, ports := (targetPorts d).map fun (p : Nat) => [("relative_target_port_identifier", (p : Int))] } })))) = (access groups port).map Int.ofNat := by
  cases port with
  | none => rfl
  | some p =>
    simp only [stateOf, access, List.find?_map, Option.map_some, Option.bind_some]
    have hf : ((fun d : Parse.TargetPortGroup => d.ports.any fun a => a.lookup "relative_target_port_identifier" == some (Int.ofNat p)) ∘ fun d : Bytes =>
        { attrs := targetPortGroup d, ports := (targetPorts d).map fun (p : Nat) => [("relative_target_port_identifier", (p : Int))] }) = fun d => decide (p ∈ targetPorts d) := by
      funext d
      rw [Bool.eq_iff_iff]
      simp only [Function.comp, List.any_map, List.any_eq_true, decide_eq_true_eq]
      constructor
      · rintro ⟨x, hx, h⟩
        have h : ((x : Int)) = p := by simpa [List.lookup] using h
        rw [← Int.ofNat.inj h]; exact hx
      · intro h
        exact ⟨p, h, by simp [List.lookup]⟩
    rw [hf]
    cases groups.find? fun d => decide (p ∈ targetPorts d) with
    | none => rfl
    | some d => rfl

/-! ## How many commands it takes -/

/-- The designation descriptors are complete, of the standard's formats, and fit the page. -/
def Proper (B : Parse.BufLib) (sh : Shelf) : Prop :=
  ∀ i, (∀ d ∈ sh.designators i, IsDesignator d ∧ TextOk d) ∧ (B.lowFirst = true ∨ ∀ d ∈ sh.designators i, designatorType d ≠ 3) ∧ (sh.designators i).flatten.length ≤ 248

/-- The groups are complete and fit the allocation length, and one of `n` paths is active/optimized. -/
def Served (B : Parse.BufLib) (sh : Shelf) (n room : Nat) (groups : List Bytes) : Prop :=
  (∀ d ∈ groups, IsTargetPortGroup d) ∧ (B.sg = true → ∀ d ∈ groups, byteAt d 5 < 128 ∧ byteAt d 7 < 128) ∧ groups.flatten.length < 2 ^ 31 ∧ 4 + groups.flatten.length ≤ room ∧
    ∃ i, i < n ∧ optimized sh groups i

/-- The first path that is active/optimized. -/
def best (sh : Shelf) (n : Nat) (groups : List Bytes) : Nat := ((List.range n).find? fun i => decide (optimized sh groups i)).getD 0

theorem best_ok {B : Parse.BufLib} {sh : Shelf} {n room : Nat} {groups : List Bytes} (h : Served B sh n room groups) :
    best sh n groups < n ∧ optimized sh groups (best sh n groups) := by
  obtain ⟨i, hi, ho⟩ := h.2.2.2.2
  unfold best
  cases hf : (List.range n).find? fun i => decide (optimized sh groups i) with
  | none => exact absurd ho (by simpa using List.find?_eq_none.1 hf i (List.mem_range.2 hi))
  | some j => exact ⟨List.mem_range.1 (List.mem_of_find?_eq_some hf), by simpa using List.find?_some hf⟩

/-- How many more commands it takes to find a path, if nothing changes. -/
def left (sh : Shelf) (n : Nat) (groups : List Bytes) : Stage σ → Nat
  | .port _ i => 2 * turns n i (best sh n groups) + 2
  | .groups _ i _ => 2 * turns n i (best sh n groups) + 1
  | .use _ i => if usable sh groups i then 0 else 2 * turns n (turn n i) (best sh n groups) + 3

def cost (sh : Shelf) (n : Nat) (x : Stage σ) (s : State) : Nat := (2 * n + 1) * s.changes + left sh n s.groups x

/-- The stages the program comes to. -/
def Right (sh : Shelf) (n : Nat) : Stage σ → Prop
  | .port _ i => i < n
  | .groups _ i port => i < n ∧ port = (portId (sh.designators i)).map Int.ofNat
  | .use _ i => i < n

theorem left_le {B : Parse.BufLib} {sh : Shelf} {n room : Nat} {groups : List Bytes} (h : Served B sh n room groups) (x : Stage σ) : left sh n groups x ≤ 2 * n + 1 := by
  have hb := (best_ok h).1
  cases x with
  | port s i => have := turns_lt (i := i) hb; simp only [left]; omega
  | groups s i p => have := turns_lt (i := i) hb; simp only [left]; omega
  | use s i => have := turns_lt (i := turn n i) hb; simp only [left]; split <;> omega

theorem next_all {P : List Bytes → Prop} {s : State} (h : s.All P) : s.next.All P := by
  obtain ⟨c, gs, ms⟩ := s
  cases ms with
  | nil => exact h
  | cons x ms =>
    refine ⟨?_, fun i hi => h.2 i (List.mem_cons_of_mem _ hi)⟩
    cases x with
    | none => exact h.1
    | some j => exact h.2 j List.mem_cons_self

/-- A change costs no more than a whole round. -/
theorem cost_next {B : Parse.BufLib} {sh : Shelf} {n room : Nat} {x : Stage σ} {s : State} (h : s.All (Served B sh n room)) : cost sh n x s.next ≤ cost sh n x s := by
  obtain ⟨c, gs, ms⟩ := s
  cases ms with
  | nil => exact Nat.le_refl _
  | cons y ms =>
    cases y with
    | none => simp only [cost, State.next, State.changes, List.headD_cons, Option.getD_none, List.tail_cons, List.countP_cons, Option.isSome_none]; simp
    | some j =>
      have := left_le (h.2 j List.mem_cons_self) x
      simp only [cost, State.next, State.changes, List.headD_cons, Option.getD_some, List.tail_cons, List.countP_cons, Option.isSome_some, if_true, Nat.mul_add, Nat.mul_one] at this ⊢
      omega

/-! ## With the target itself -/

section direct

variable {tail : Nat → Bytes → Bytes → Prop} {out : Req → Answer → Except (Exn (DevErr Sense)) (Option (Option Bytes))} (L : Lib) (B : Parse.BufLib) (other : Bytes → Py (List (String × Int)))
  {g : Geometry} {sh : Shelf} {n room : Nat} (hg : Valid g) (hD : Delivers out) (hP : Passes tail out) (hsh : Proper B sh) (hroom : room < 2 ^ 32)
include hg hD hP hsh hroom

/-- A target that says what it says on path `i`. -/
def speaker (sh : Shelf) (i : Nat) (groups : List Bytes) : Target.Target :=
  { standard := [], vpd := fun _ => some (deviceIdentification sh.first (sh.designators i)), diagnostic := fun _ => none, luns := fun _ => none,
    groups := fun _ => some (rtpgLengthOnly groups), copy := none, reservations := fun _ => none }

omit hg hD hroom in
theorem port_direct (i : Nat) (s : State) :
    ∃ r : Seen, DirectPath (path g sh) out (i, (Cmd.vpd .identification).command L B other) s r s.next ∧ portOf r = (portId (sh.designators i)).map Int.ofNat := by
  obtain ⟨q, hq, -, x, hx, rfl⟩ := reports L B other hP (Tells.identification (B := B) (t := speaker sh i []) rfl (hsh i).1 (hsh i).2.1 (hsh i).2.2)
  obtain ⟨hi, hm, -⟩ := vpd_request L 0x83 (by decide) 252 rfl
  replace hi : InRange (Cmd.vpd (getVpdPage 0x83)).cdb := hi
  replace hm : meaning (Cmd.vpd (getVpdPage 0x83)).cdb = .inquiry 1 0x83 252 := hm
  have hd := SharedDisk.task_of L (c := .vpd (getVpdPage 0x83)) hi hq
  rw [hm] at hd
  have ht := target_task (t := speaker sh i []) L _ q hi hq
  rw [hm] at ht
  refine ⟨decoded ((Cmd.vpd (getVpdPage 0x83)).command L B other) (out q (Target.target (speaker sh i []) (asked q)).1), ?_, by rw [hx]; exact port_read B _ _⟩
  have hq' : ((Cmd.vpd .identification).command L B other).request = .ok q := hq
  simp only [DirectPath, Clients.Direct, askAll, hq', path, hd, ht]
  rfl

omit hg hD hsh in
theorem groups_direct (i : Nat) (s : State) (hs : s.next.All (Served B sh n room)) (port : Option Nat) :
    ∃ r : Seen, DirectPath (path g sh) out (i, (Cmd.rtpg 0 room).command L B other) s r s.next ∧ stateOf (port.map Int.ofNat) r = (access s.next.groups port).map Int.ofNat := by
  obtain ⟨h1, h2, h3, h4, -⟩ := hs.1
  obtain ⟨q, hq, -, x, hx, rfl⟩ := reports L B other hP (Tells.groups (B := B) (t := speaker sh i s.next.groups) (n := room) hroom rfl h1 h2 h3 h4)
  have hi : InRange (Cmd.rtpg 0 room).cdb := ⟨by simp [Fits], ⟨by omega, by omega⟩⟩
  have hd := SharedDisk.task_of L (c := .rtpg 0 room) hi hq
  have ht := target_task (t := speaker sh i s.next.groups) L _ q hi hq
  have hm : meaning (Cmd.rtpg 0 room).cdb = .reportTargetPortGroups 0 room := by simp [Cmd.cdb, meaning]
  rw [hm] at hd ht
  refine ⟨decoded ((Cmd.rtpg 0 room).command L B other) (out q (Target.target (speaker sh i s.next.groups) (asked q)).1), ?_, by rw [hx]; exact state_read _ _ _⟩
  simp only [DirectPath, Clients.Direct, askAll, hq, path, hd, ht]
  rfl

omit hP hsh hroom in
/-- One command of the program that uses the disk. -/
theorem use_direct {c : Cmd} {op : Op} (h : Asks g c op) (i : Nat) (s : State) :
    ∃ r : Seen, DirectPath (path g sh) out (i, c.command L B other) s r (if usable sh s.next.groups i then { s.next with contents := (op.run g s.contents).2 } else s.next) ∧
      (usable sh s.next.groups i → Shows r (op.run g s.contents).1 ∧ isNotReady r = false) ∧ (¬ usable sh s.next.groups i → isNotReady r = true) := by
  obtain ⟨q, hq, hm, hs⟩ := step L B other s.contents hg hD h
  have hd := SharedDisk.task_of L (SharedDisk.disk_meaning h).1 hq
  have hpath : path g sh i s (asked q) = if usable sh s.next.groups i then ((disk g s.contents (asked q)).1, { s.next with contents := (disk g s.contents (asked q)).2 })
    else (failed 2 0x04 (if access s.next.groups (portId (sh.designators i)) = some 3 then 0x0C else 0x0B), s.next) := by
    have hne : ∀ n, meaning c.cdb ≠ .inquiry 1 0x83 n ∧ meaning c.cdb ≠ .reportTargetPortGroups 0 n := by
      intro n; cases h <;> exact ⟨nofun, nofun⟩
    simp only [path, hd]
    split
    · next e => exact absurd (Option.some.inj e) (hne _).1
    · next e => exact absurd (Option.some.inj e) (hne _).2
    · rfl
  by_cases hu : usable sh s.next.groups i
  · rw [if_pos hu] at hpath ⊢
    refine ⟨_, ?_, fun _ => ⟨hs, Paths.other_shown hs⟩, fun h => absurd hu h⟩
    simp only [DirectPath, Clients.Direct, askAll, hq, hpath, hm]
  · rw [if_neg hu] at hpath ⊢
    refine ⟨decoded (c.command L B other) (out q (path g sh i s (asked q)).1), ?_, fun h => absurd h hu, fun _ => ?_⟩
    · simp only [DirectPath, Clients.Direct, askAll, hq, hpath]
    · obtain ⟨raw, sn, e, hsn⟩ := hD.fails q 2 0x04 (if access s.next.groups (portId (sh.designators i)) = some 3 then 0x0C else 0x0B) (by decide) (by decide) (by split <;> decide)
      exact standby_shown ⟨raw, sn, by rw [hpath]; simp only; rw [e]; rfl, hsn⟩

omit hg hD hP hsh hroom in
/-- A path is found, and the command is executed. -/
def Found (out : Req → Answer → Except (Exn (DevErr Sense)) (Option (Option Bytes))) (g : Geometry) (sh : Shelf) (n room : Nat) (p : Client σ Cmd Seen A) (ok : σ → Prop) (op : Op) (x : Stage σ) (k : State) : Prop :=
  ∃ (k' : State) (i' j : Nat) (r : Seen), k'.All (Served B sh n room) ∧ i' < n ∧ usable sh k'.groups i' ∧ k'.contents = (op.run g k.contents).2 ∧ (∀ s' : σ, j + cost sh n (.use s' i') k' ≤ cost sh n x k) ∧
    Shows r (op.run g k.contents).1 ∧
    (∀ a, p.next x.state r = .inr a → (onSeveral L B other (choosing n room p)).Runs (fun x => ok x.state ∧ Right sh n x) (DirectPath (path g sh) out) x k (a, i') k' (j + 1)) ∧
    ∀ s' a k'' m, p.next x.state r = .inl s' → (onSeveral L B other (choosing n room p)).Runs (fun x => ok x.state ∧ Right sh n x) (DirectPath (path g sh) out) (.use s' i') k' a k'' m →
      (onSeveral L B other (choosing n room p)).Runs (fun x => ok x.state ∧ Right sh n x) (DirectPath (path g sh) out) x k a k'' (m + j + 1)

/-- Looking for a path, and one command. -/
theorem attempts {p : Client σ Cmd Seen A} {ok : σ → Prop} {op : Op} : ∀ (N : Nat) (x : Stage σ) (k : State), ok x.state → Asks g (p.ask x.state) op → Right sh n x → k.All (Served B sh n room) → cost sh n x k < N →
    Found L B other out g sh n room p ok op x k
  | 0, _, _, _, _, _, _, h => absurd h (Nat.not_lt_zero _)
  | N + 1, x, k, ho, hask, hx, hk, h => by
    have hc := cost_next (x := x) hk
    have hk' := next_all hk
    -- one command that leads to another stage
    have go : ∀ (y : Stage σ) (r : Seen), y.state = x.state → Right sh n y → cost sh n y k.next + 1 ≤ cost sh n x k.next →
        DirectPath (path g sh) out ((onSeveral L B other (choosing n room p)).ask x) k r k.next → (choosing n room p).next x r = .inl y → Found L B other out g sh n room p ok op x k := by
      intro y r hy hr hcost hexec hnext
      obtain ⟨k', i', j, r', h1, h2, h3, h4, h5, h6, h7, h8⟩ := attempts (p := p) (ok := ok) (op := op) N y k.next (hy ▸ ho) (hy ▸ hask) hr hk' (by omega)
      rw [hy] at h7 h8
      exact ⟨k', i', j + 1, r', h1, h2, h3, h4, fun s' => by have := h5 s'; omega, h6, fun a ha => .more ⟨ho, hx⟩ hexec hnext (h7 a ha),
        fun s' a k'' m hs hm => .more ⟨ho, hx⟩ hexec hnext (h8 s' a k'' m hs hm)⟩
    obtain ⟨hb1, hb2⟩ := best_ok hk'.1
    cases x with
    | port s i =>
      obtain ⟨r, h1, h2⟩ := port_direct L B other hP hsh (g := g) i k
      exact go (.groups s i (portOf r)) r rfl ⟨hx, h2⟩ (by simp only [cost, left]; omega) h1 rfl
    | groups s i port =>
      obtain ⟨hi, rfl⟩ := hx
      obtain ⟨r, h1, h2⟩ := groups_direct L B other hP hroom (g := g) i k hk' (portId (sh.designators i))
      by_cases hopt : optimized sh k.next.groups i
      · refine go (.use s i) r rfl hi ?_ h1 ?_
        · simp only [cost, left, if_pos (show usable sh k.next.groups i from .inl hopt)]; omega
        · rw [hopt] at h2
          show (if stateOf _ r = some 0 then _ else _) = _
          rw [h2]; rfl
      · refine go (.port s (turn n i)) r rfl (turn_lt hi) ?_ h1 ?_
        · have hne : i ≠ best sh n k.next.groups := by intro h; rw [← h] at hb2; exact hopt hb2
          have := turns_turn hi hb1 hne
          simp only [cost, left]; omega
        · show (if stateOf _ r = some 0 then _ else _) = _
          rw [h2, if_neg]
          intro h0
          apply hopt
          show access _ _ = _
          cases ha : access k.next.groups (portId (sh.designators i)) with
          | none => rw [ha] at h0; cases h0
          | some v => rw [ha] at h0; simp only [Option.map_some, Option.some.injEq] at h0; rw [show v = 0 from Int.ofNat.inj h0]
    | use s i =>
      obtain ⟨r, h1, h2, h3⟩ := use_direct L B other hg hD (sh := sh) hask i k
      by_cases hu : usable sh k.next.groups i
      · rw [if_pos hu] at h1
        obtain ⟨h4, h5⟩ := h2 hu
        refine ⟨{ k.next with contents := (op.run g k.contents).2 }, i, 0, r, hk', hx, hu, rfl, fun s' => ?_, h4, fun a ha => .done ⟨ho, hx⟩ h1 ?_, fun s' a k'' m hs' hm => .more ⟨ho, hx⟩ h1 ?_ hm⟩
        · rw [Nat.zero_add]
          exact hc
        · simp only [Stage.state] at ha
          simp only [onSeveral, choosing, h5, ha]; rfl
        · simp only [Stage.state] at hs'
          simp only [onSeveral, choosing, h5, hs']; rfl
      · rw [if_neg hu] at h1
        refine go (.port s (turn n i)) r rfl (turn_lt hx) ?_ h1 ?_
        · simp only [cost, left, if_neg hu]; omega
        · simp only [choosing, h3 hu]; rfl

theorem choosing_direct {p : Client σ Cmd Seen A} {q : Client σ Op Reply A'} {ok : σ → Prop} {Rel : A → A' → Prop} (hask : ∀ s, ok s → Asks g (p.ask s) (q.ask s))
    (hnext : ∀ s r reply, ok s → Shows r reply → Along Rel (p.next s r) (q.next s reply)) {s : σ} {m m' : Contents} {a' : A'} {c : Nat} (h : q.Runs ok (OnArray g) s m a' m' c) :
    ∀ (x : Stage σ) (k : State), x.state = s → Right sh n x → k.All (Served B sh n room) → k.contents = m → ∃ a i k' N, Rel a a' ∧ i < n ∧ usable sh k'.groups i ∧ k'.contents = m' ∧ c ≤ N ∧ N ≤ c + cost sh n x k ∧
      (onSeveral L B other (choosing n room p)).Runs (fun x => ok x.state ∧ Right sh n x) (DirectPath (path g sh) out) x k (a, i) k' N := by
  induction h with
  | @done s m reply m' a' ho hd hn =>
    intro x k hxs hx hk hm
    subst hxs
    obtain ⟨k', i', j, r, h1, h2, hu, h3, h4, h5, h6, -⟩ := attempts L B other hg hD hP hsh hroom (p := p) (ok := ok) (cost sh n x k + 1) x k ho (hask _ ho) hx hk (Nat.lt_succ_self _)
    rw [OnArray] at hd
    rw [hm, hd] at h3 h5
    have h7 := hnext _ r reply ho h5
    rw [hn] at h7
    cases hp : p.next x.state r with
    | inl s' => rw [hp] at h7; exact h7.elim
    | inr a =>
      rw [hp] at h7
      have := h4 x.state
      exact ⟨a, i', k', j + 1, h7, h2, hu, h3, by omega, by omega, h6 a hp⟩
  | @more s m reply m' s' a' m'' c ho hd hn _ ih =>
    intro x k hxs hx hk hm
    subst hxs
    obtain ⟨k', i', j, r, h1, h2, hu, h3, h4, h5, -, h6⟩ := attempts L B other hg hD hP hsh hroom (p := p) (ok := ok) (cost sh n x k + 1) x k ho (hask _ ho) hx hk (Nat.lt_succ_self _)
    rw [OnArray] at hd
    rw [hm, hd] at h3 h5
    have h7 := hnext _ r reply ho h5
    rw [hn] at h7
    cases hp : p.next x.state r with
    | inl s1 =>
      rw [hp] at h7
      obtain ⟨a, i, k'', N, h8, h9, h9', h10, h11, h12, h13⟩ := ih (.use s1 i') k' h7 h2 h1 h3
      have := h4 s1
      exact ⟨a, i, k'', N + j + 1, h8, h9, h9', h10, by omega, by omega, h6 s1 (a, i) k'' N hp h13⟩
    | inr a => rw [hp] at h7; exact h7.elim

/-! ### A target that leaves its groups as they are -/

/-- Looking for the first path. -/
theorem steady_search {p : Client σ Cmd Seen A} {ok : σ → Prop} {s : σ} (ho : ok s) {k : State} (hk : k.All (Served B sh n room)) (hm : k.moves = []) {i : Nat} (hi : i < n)
    (hopt : optimized sh k.groups i) (hfirst : ∀ j, j < i → ¬ optimized sh k.groups j) {a : A × Nat} {k' : State} {N : Nat}
    (h : (onSeveral L B other (choosing n room p)).Runs (fun x => ok x.state ∧ Right sh n x) (DirectPath (path g sh) out) (.use s i) k a k' N) :
    ∀ d j, j + d = i → (onSeveral L B other (choosing n room p)).Runs (fun x => ok x.state ∧ Right sh n x) (DirectPath (path g sh) out) (.port s j) k a k' (N + 2 * d + 2) := by
  have hkn : k.next = k := by obtain ⟨c, gs, ms⟩ := k; cases hm; rfl
  have two : ∀ j, j < n → ∃ r₁ r₂ : Seen, DirectPath (path g sh) out (j, (Cmd.vpd .identification).command L B other) k r₁ k ∧
      DirectPath (path g sh) out (j, (Cmd.rtpg 0 room).command L B other) k r₂ k ∧ portOf r₁ = (portId (sh.designators j)).map Int.ofNat ∧
      stateOf (portOf r₁) r₂ = (access k.groups (portId (sh.designators j))).map Int.ofNat := by
    intro j _
    obtain ⟨r₁, h1, h2⟩ := port_direct L B other hP hsh (g := g) j k
    obtain ⟨r₂, h3, h4⟩ := groups_direct L B other hP hroom (g := g) j k (next_all hk) (portId (sh.designators j))
    rw [hkn] at h1 h3 h4
    exact ⟨r₁, r₂, h1, h3, h2, by rw [h2]; exact h4⟩
  intro d
  induction d with
  | zero =>
    intro j hj
    obtain rfl : j = i := by omega
    obtain ⟨r₁, r₂, h1, h2, h3, h4⟩ := two j hi
    have e : (choosing n room p).next (.groups s j (portOf r₁)) r₂ = .inl (.use s j) := by
      rw [hopt] at h4
      simp only [choosing, h4]
      rfl
    have hg' := Client.Runs.more (p := onSeveral L B other (choosing n room p)) (ok := fun x => ok x.state ∧ Right sh n x) (exec := DirectPath (path g sh) out) (s := .groups s j (portOf r₁)) ⟨ho, hi, h3⟩ h2 e h
    exact Client.Runs.more (p := onSeveral L B other (choosing n room p)) (s := .port s j) ⟨ho, hi⟩ h1 rfl hg'
  | succ d ih =>
    intro j hj
    obtain ⟨r₁, r₂, h1, h2, h3, h4⟩ := two j (by omega)
    have ht : turn n j = j + 1 := if_pos (by omega)
    have hj' : j < n := by omega
    have e : (choosing n room p).next (.groups s j (portOf r₁)) r₂ = .inl (.port s (j + 1)) := by
      have h0 : stateOf (portOf r₁) r₂ ≠ some 0 := by
        rw [h4]
        intro h0
        apply hfirst j (by omega)
        show access _ _ = _
        cases ha : access k.groups (portId (sh.designators j)) with
        | none => rw [ha] at h0; cases h0
        | some v => rw [ha] at h0; simp only [Option.map_some, Option.some.injEq] at h0; rw [show v = 0 from Int.ofNat.inj h0]
      simp only [choosing, if_neg h0, ht]
    have hg' := Client.Runs.more (p := onSeveral L B other (choosing n room p)) (ok := fun x => ok x.state ∧ Right sh n x) (exec := DirectPath (path g sh) out) (s := .groups s j (portOf r₁)) ⟨ho, hj', h3⟩ h2 e (ih (j + 1) (by omega))
    exact Client.Runs.more (p := onSeveral L B other (choosing n room p)) (s := .port s j) ⟨ho, hj'⟩ h1 rfl hg'

omit hP hsh hroom in
/-- Using a path. -/
theorem steady_use {p : Client σ Cmd Seen A} {q : Client σ Op Reply A'} {ok : σ → Prop} {Rel : A → A' → Prop} (hask : ∀ s, ok s → Asks g (p.ask s) (q.ask s))
    (hnext : ∀ s r reply, ok s → Shows r reply → Along Rel (p.next s r) (q.next s reply)) {s : σ} {m m' : Contents} {a' : A'} {c : Nat} (h : q.Runs ok (OnArray g) s m a' m' c)
    (gs : List Bytes) {i : Nat} (hi : i < n) (hu : usable sh gs i) :
    ∃ a, Rel a a' ∧ (onSeveral L B other (choosing n room p)).Runs (fun x => ok x.state ∧ Right sh n x) (DirectPath (path g sh) out) (.use s i) ⟨m, gs, []⟩ (a, i) ⟨m', gs, []⟩ c := by
  induction h with
  | @done s m reply m' a' ho hd hn =>
    obtain ⟨r, h1, h2, -⟩ := use_direct L B other hg hD (sh := sh) (hask s ho) i ⟨m, gs, []⟩
    obtain ⟨h4, h5⟩ := h2 hu
    rw [if_pos (show usable sh (State.next ⟨m, gs, []⟩).groups i from hu)] at h1
    rw [OnArray] at hd
    simp only [hd] at h1 h4
    have h7 := hnext _ r reply ho h4
    rw [hn] at h7
    cases hp : p.next s r with
    | inl s' => rw [hp] at h7; exact h7.elim
    | inr a =>
      rw [hp] at h7
      exact ⟨a, h7, .done ⟨ho, hi⟩ h1 (by simp only [onSeveral, choosing, h5, hp]; rfl)⟩
  | @more s m reply m' s' a' m'' c ho hd hn _ ih =>
    obtain ⟨r, h1, h2, -⟩ := use_direct L B other hg hD (sh := sh) (hask s ho) i ⟨m, gs, []⟩
    obtain ⟨h4, h5⟩ := h2 hu
    rw [if_pos (show usable sh (State.next ⟨m, gs, []⟩).groups i from hu)] at h1
    rw [OnArray] at hd
    simp only [hd] at h1 h4
    have h7 := hnext _ r reply ho h4
    rw [hn] at h7
    cases hp : p.next s r with
    | inl s1 =>
      rw [hp] at h7
      obtain ⟨a, h8, h9⟩ := ih
      rw [← show s1 = s' from h7] at h9
      exact ⟨a, h8, .more ⟨ho, hi⟩ h1 (by simp only [onSeveral, choosing, h5, hp]; rfl) h9⟩
    | inr a => rw [hp] at h7; exact h7.elim

end direct

theorem path_parses (g : Geometry) (sh : Shelf) (i : Nat) : ∀ s q, (path g sh i s q).1.status ≠ 0 → ∃ sn, getSense (padded 255 (path g sh i s q).1.sense) = .ok sn := by
  intro s q h
  simp only [path] at h ⊢
  split at h
  · exact absurd rfl h
  · exact absurd rfl h
  · split at h
    · rename_i hu
      rw [if_pos hu]; exact disk_parses g s.contents q h
    · rename_i hu
      rw [if_neg hu]
      obtain ⟨sn, hs, -⟩ := getSense_says _ (by rw [padded_length]; decide) 2 0x04 (if access s.next.groups (portId (sh.designators i)) = some 3 then 0x0C else 0x0B)
        (reports_padded _ _ _ _ (failed_reports 2 0x04 _ (by decide) (by decide) (by split <;> decide)))
      exact ⟨_, hs⟩

/-- Everything about the program in front of the target itself: it ends, in one way. -/
theorem whole {tail : Nat → Bytes → Bytes → Prop} {out : Req → Answer → Except (Exn (DevErr Sense)) (Option (Option Bytes))} (L : Lib) (B : Parse.BufLib) (other : Bytes → Py (List (String × Int)))
    {g : Geometry} {sh : Shelf} {n room : Nat} (hg : Valid g) (hD : Delivers out) (hP : Passes tail out) (hsh : Proper B sh) (hroom : room < 2 ^ 32)
    {p : Client σ Cmd Seen A} {q : Client σ Op Reply A'} {ok : σ → Prop} {Rel : A → A' → Prop} (hask : ∀ s, ok s → Asks g (p.ask s) (q.ask s))
    (hnext : ∀ s r reply, ok s → Shows r reply → Along Rel (p.next s r) (q.next s reply)) {s : σ} {k : State} (hk : k.All (Served B sh n room)) {m' : Contents} {a' : A'} {c : Nat}
    (h : q.Runs ok (OnArray g) s k.contents a' m' c) :
    let Runs := (onSeveral L B other (choosing n room p)).Runs (fun x => ok x.state ∧ Right sh n x) (DirectPath (path g sh) out) (.port s 0) k
    ∃ a k' N, Runs a k' N ∧ (∀ a₁ k₁ N₁, Runs a₁ k₁ N₁ → a₁ = a ∧ k₁ = k' ∧ N₁ = N) ∧
      Rel a.1 a' ∧ a.2 < n ∧ usable sh k'.groups a.2 ∧ k'.contents = m' ∧ c ≤ N ∧ N ≤ c + (2 * n + 1) * (k.changes + 1) ∧
      (k.moves = [] → ∀ i, i < n → optimized sh k.groups i → (∀ j, j < i → ¬ optimized sh k.groups j) → a.2 = i ∧ N = c + 2 * (i + 1)) := by
  obtain ⟨i₀, hi₀, -⟩ := hk.1.2.2.2.2
  obtain ⟨a, i, k', N, h1, h2, h3, h4, h5, h6, h7⟩ := choosing_direct L B other hg hD hP hsh hroom hask hnext h (.port s 0) k rfl (show 0 < n by omega) hk rfl
  have huniq : ∀ a₁ k₁ N₁, (onSeveral L B other (choosing n room p)).Runs (fun x => ok x.state ∧ Right sh n x) (DirectPath (path g sh) out) (.port s 0) k a₁ k₁ N₁ → a₁ = (a, i) ∧ k₁ = k' ∧ N₁ = N := by
    intro a₁ k₁ N₁ h
    obtain ⟨e1, e2, e3⟩ := runs_unique path_unique h7 h
    exact ⟨e1.symm, e2.symm, e3.symm⟩
  have hle : cost sh n (Stage.port s 0) k ≤ (2 * n + 1) * (k.changes + 1) := by
    have := left_le hk.1 (Stage.port s 0)
    simp only [cost, Nat.mul_add, Nat.mul_one] at this ⊢
    omega
  refine ⟨(a, i), k', N, h7, huniq, h1, h2, h3, h4, h5, by omega, fun hm i₁ hi₁ hopt hfirst => ?_⟩
  have ho : ok s := by cases h <;> assumption
  have hke : k = ⟨k.contents, k.groups, []⟩ := by obtain ⟨_, _, _⟩ := k; cases hm; rfl
  obtain ⟨a₂, -, h8⟩ := steady_use L B other hg hD (room := room) hask hnext h k.groups hi₁ (.inl hopt)
  rw [← hke] at h8
  obtain ⟨e1, -, e3⟩ := huniq _ _ _ (steady_search L B other hg hD hP hsh hroom ho hk hm hi₁ hopt hfirst h8 i₁ 0 (Nat.zero_add _))
  rw [Prod.mk.injEq] at e1
  exact ⟨e1.2.symm, by omega⟩

/-- The commands of the program. -/
theorem asked_one {n room : Nat} {p : Client σ Cmd Seen A} {ok : σ → Prop} {x : Stage σ} (ho : ok x.state) :
    ((choosing n room p).ask x).2 = .vpd .identification ∨ ((choosing n room p).ask x).2 = .rtpg 0 room ∨ ∃ s, ok s ∧ ((choosing n room p).ask x).2 = p.ask s := by
  cases x with
  | port => exact .inl rfl
  | groups => exact .inr (.inl rfl)
  | use s i => exact .inr (.inr ⟨s, ho, rfl⟩)

/-- **C109 on Linux**. A disk is reached by `n` paths, with an executer for each; each leads to a target port, and the target changes the states of its groups of ports when it likes, one path being
active/optimized at any time. `q` is a program on an array of bytes; `p` is the same program with command objects of the library. Before it uses the disk, and after a command ended with NOT READY,
it asks the target on one path after the other for the port and the groups, with objects of the library, until it finds one that is active/optimized. When `q` ends, it ends, in one way only,
with the same result and contents, on a path that can be used. Each change of the groups costs at most `2 n + 1` commands, and so does the beginning. If the groups stay as they are, the path is the first one
that is active/optimized, and it takes two commands for each path up to this one. -/
theorem C109_linux [DecidableEq K] (l : Bool) (alloc : Nat → Nat → Alloc) (t : Nat → Int) (ht : ∀ i, 0 ≤ t i ∧ t i < 2 ^ 32) (L : Lib) (B : Parse.BufLib) (other : Bytes → Py (List (String × Int)))
    (g : Geometry) (hg : Valid g) (sh : Shelf) (hsh : Proper B sh) (n room : Nat) (hroom : room < 2 ^ 32) (p : Client σ Cmd Seen A) (q : Client σ Op Reply A') (ok : σ → Prop) (Rel : A → A' → Prop)
    (hask : ∀ s, ok s → Asks g (p.ask s) (q.ask s)) (hfit : ∀ c r, (c = .vpd .identification ∨ c = .rtpg 0 room ∨ ∃ s, ok s ∧ c = p.ask s) → Cdb.request L c.cdb = .ok r → ∀ i, LinuxOk (alloc i) r)
    (hnext : ∀ s r reply, ok s → Shows r reply → Along Rel (p.next s r) (q.next s reply))
    (w : Nat → W Handle K (Option Bytes) (DevErr Sense) (World (State × Option Bytes))) (hw : ∀ i, ∃ k, LinuxIdle (w i).st (w i).os k) (k : State) (hk : k.All (Served B sh n room)) (s : σ) (a' : A') (m' : Contents) (c : Nat)
    (h : q.Runs ok (OnArray g) s k.contents a' m' c) :
    let Runs := fun a w' k' N => (onSeveral L B other (choosing n room p)).Runs (fun x => ok x.state ∧ Right sh n x)
      (ThroughPath fun i => machine (T := T) (Linux.sgBlocking (lp64 l) getSense (Linux.sgDevice l (path g sh i))).plat (Linux.prepare (lp64 l) (alloc i) (t i))) (.port s 0) (w, k) a (w', k') N
    (∃ a w' k' N, Runs a w' k' N) ∧ ∀ a w' k' N, Runs a w' k' N → Rel a.1 a' ∧ a.2 < n ∧ usable sh k'.groups a.2 ∧ k'.contents = m' ∧ c ≤ N ∧ N ≤ c + (2 * n + 1) * (k.changes + 1) ∧
      (k.moves = [] → ∀ i, i < n → optimized sh k.groups i → (∀ j, j < i → ¬ optimized sh k.groups j) → a.2 = i ∧ N = c + 2 * (i + 1)) ∧ ∀ i, ∃ k, LinuxIdle (w' i).st (w' i).os k := by
  obtain ⟨a, k', N, h1, h2, h3⟩ := whole L B other hg outcome_delivers outcome_passes hsh hroom hask hnext hk h
  have same := fun a N => same_paths (idle := fun w k => LinuxIdle w.st w.os k) (p := onSeveral L B other (choosing n room p)) (ok := fun x => ok x.state ∧ Right sh n x)
    (fun i => serves_linux (T := T) l getSense (path g sh i) (alloc i) (t i) (ht i) fun k q h => path_parses g sh i k q (by intro h0; rw [h0] at h; simp at h)) (fun _ _ _ h => h) (fun _ _ _ h => ⟨h.1, h.2.1, h.2.2.1, h.2.2.2.1, rfl⟩)
    (fun _ _ h => h.2.2.2.2) (fun x ho r hr => hfit ((choosing n room p).ask x).2 r (asked_one ho.1) hr ((choosing n room p).ask x).1) (.port s 0) w k hw a N
  obtain ⟨w', h4, -⟩ := (same a N).1 k' h1
  refine ⟨⟨a, w', k', N, h4⟩, fun a₁ w₁ k₁ N₁ h => ?_⟩
  obtain ⟨h5, h6⟩ := (same a₁ N₁).2 w₁ k₁ h
  obtain ⟨rfl, rfl, rfl⟩ := h2 _ _ _ h5
  obtain ⟨b1, b2, b3, b4, b5, b6, b7⟩ := h3
  exact ⟨b1, b2, b3, b4, b5, b6, b7, h6⟩

/-- **C109 on Solaris**. -/
theorem C109_solaris [DecidableEq K] (l : Bool) (alloc : Nat → Nat → Alloc) (t : Nat → Int) (ht : ∀ i, 0 ≤ t i ∧ t i < 2 ^ 15) (L : Lib) (B : Parse.BufLib) (other : Bytes → Py (List (String × Int)))
    (g : Geometry) (hg : Valid g) (sh : Shelf) (hsh : Proper B sh) (n room : Nat) (hroom : room < 2 ^ 32) (p : Client σ Cmd Seen A) (q : Client σ Op Reply A') (ok : σ → Prop) (Rel : A → A' → Prop)
    (hask : ∀ s, ok s → Asks g (p.ask s) (q.ask s)) (hfit : ∀ c r, (c = .vpd .identification ∨ c = .rtpg 0 room ∨ ∃ s, ok s ∧ c = p.ask s) → Cdb.request L c.cdb = .ok r → ∀ i, SolarisOk (alloc i) r)
    (hnext : ∀ s r reply, ok s → Shows r reply → Along Rel (p.next s r) (q.next s reply))
    (w : Nat → W Handle K (Option Bytes) (DevErr Sense) (Solaris.SolWorld State)) (hw : ∀ i, ∃ k, SolarisIdle (w i).st (w i).os k) (k : State) (hk : k.All (Served B sh n room)) (s : σ) (a' : A') (m' : Contents) (c : Nat)
    (h : q.Runs ok (OnArray g) s k.contents a' m' c) :
    let Runs := fun a w' k' N => (onSeveral L B other (choosing n room p)).Runs (fun x => ok x.state ∧ Right sh n x)
      (ThroughPath fun i => machine (T := T) (Solaris.solBlocking (lp64 l) getSense (Solaris.uscsiDevice l (path g sh i))).plat (Solaris.prepare (lp64 l) (alloc i) (t i))) (.port s 0) (w, k) a (w', k') N
    (∃ a w' k' N, Runs a w' k' N) ∧ ∀ a w' k' N, Runs a w' k' N → Rel a.1 a' ∧ a.2 < n ∧ usable sh k'.groups a.2 ∧ k'.contents = m' ∧ c ≤ N ∧ N ≤ c + (2 * n + 1) * (k.changes + 1) ∧
      (k.moves = [] → ∀ i, i < n → optimized sh k.groups i → (∀ j, j < i → ¬ optimized sh k.groups j) → a.2 = i ∧ N = c + 2 * (i + 1)) ∧ ∀ i, ∃ k, SolarisIdle (w' i).st (w' i).os k := by
  obtain ⟨a, k', N, h1, h2, h3⟩ := whole L B other hg outcome_delivers outcome_passes hsh hroom hask hnext hk h
  have same := fun a N => same_paths (idle := fun w k => SolarisIdle w.st w.os k) (p := onSeveral L B other (choosing n room p)) (ok := fun x => ok x.state ∧ Right sh n x)
    (fun i => serves_solaris (T := T) l getSense (path g sh i) (alloc i) (t i) (ht i) fun k q h => path_parses g sh i k q (by intro h0; rw [h0] at h; simp at h)) (fun _ _ _ h => h) (fun _ _ _ h => ⟨h.1, h.2.1, h.2.2.1, rfl⟩)
    (fun _ _ h => h.2.2.2) (fun x ho r hr => hfit ((choosing n room p).ask x).2 r (asked_one ho.1) hr ((choosing n room p).ask x).1) (.port s 0) w k hw a N
  obtain ⟨w', h4, -⟩ := (same a N).1 k' h1
  refine ⟨⟨a, w', k', N, h4⟩, fun a₁ w₁ k₁ N₁ h => ?_⟩
  obtain ⟨h5, h6⟩ := (same a₁ N₁).2 w₁ k₁ h
  obtain ⟨rfl, rfl, rfl⟩ := h2 _ _ _ h5
  obtain ⟨b1, b2, b3, b4, b5, b6, b7⟩ := h3
  exact ⟨b1, b2, b3, b4, b5, b6, b7, h6⟩

/-- **C109 on AIX**. -/
theorem C109_aix [DecidableEq K] (b : Aix.Binding) (alloc : Nat → Nat → Alloc) (t : Nat → Int) (ht : ∀ i, 0 ≤ t i ∧ t i < 2 ^ 32) (L : Lib) (B : Parse.BufLib) (other : Bytes → Py (List (String × Int)))
    (g : Geometry) (hg : Valid g) (sh : Shelf) (hsh : Proper B sh) (n room : Nat) (hroom : room < 2 ^ 32) (p : Client σ Cmd Seen A) (q : Client σ Op Reply A') (ok : σ → Prop) (Rel : A → A' → Prop)
    (hask : ∀ s, ok s → Asks g (p.ask s) (q.ask s)) (hfit : ∀ c r, (c = .vpd .identification ∨ c = .rtpg 0 room ∨ ∃ s, ok s ∧ c = p.ask s) → Cdb.request L c.cdb = .ok r → ∀ i, AixOk b (alloc i) r)
    (hnext : ∀ s r reply, ok s → Shows r reply → Along Rel (p.next s r) (q.next s reply))
    (w : Nat → W Handle K (Option Bytes) (DevErr Sense) (Aix.AixWorld State)) (hw : ∀ i, ∃ k, AixIdle (w i).st (w i).os k) (k : State) (hk : k.All (Served B sh n room)) (s : σ) (a' : A') (m' : Contents) (c : Nat)
    (h : q.Runs ok (OnArray g) s k.contents a' m' c) :
    let Runs := fun a w' k' N => (onSeveral L B other (choosing n room p)).Runs (fun x => ok x.state ∧ Right sh n x)
      (ThroughPath fun i => machine (T := T) (Aix.aixBlocking (lp64 false) getSense b (Aix.scDevice (path g sh i))).plat (Aix.prepare (lp64 false) (alloc i) (t i))) (.port s 0) (w, k) a (w', k') N
    (∃ a w' k' N, Runs a w' k' N) ∧ ∀ a w' k' N, Runs a w' k' N → Rel a.1 a' ∧ a.2 < n ∧ usable sh k'.groups a.2 ∧ k'.contents = m' ∧ c ≤ N ∧ N ≤ c + (2 * n + 1) * (k.changes + 1) ∧
      (k.moves = [] → ∀ i, i < n → optimized sh k.groups i → (∀ j, j < i → ¬ optimized sh k.groups j) → a.2 = i ∧ N = c + 2 * (i + 1)) ∧ ∀ i, ∃ k, AixIdle (w' i).st (w' i).os k := by
  obtain ⟨a, k', N, h1, h2, h3⟩ := whole L B other hg outcome_delivers outcome_passes hsh hroom hask hnext hk h
  have same := fun a N => same_paths (idle := fun w k => AixIdle w.st w.os k) (p := onSeveral L B other (choosing n room p)) (ok := fun x => ok x.state ∧ Right sh n x)
    (fun i => serves_aix (T := T) getSense b (path g sh i) (alloc i) (t i) (ht i) fun k q h => path_parses g sh i k q (by intro h0; rw [h0] at h; simp at h)) (fun _ _ _ h => h) (fun _ _ _ h => ⟨h.1, h.2.1, h.2.2.1, rfl⟩)
    (fun _ _ h => h.2.2.2) (fun x ho r hr => hfit ((choosing n room p).ask x).2 r (asked_one ho.1) hr ((choosing n room p).ask x).1) (.port s 0) w k hw a N
  obtain ⟨w', h4, -⟩ := (same a N).1 k' h1
  refine ⟨⟨a, w', k', N, h4⟩, fun a₁ w₁ k₁ N₁ h => ?_⟩
  obtain ⟨h5, h6⟩ := (same a₁ N₁).2 w₁ k₁ h
  obtain ⟨rfl, rfl, rfl⟩ := h2 _ _ _ h5
  obtain ⟨b1, b2, b3, b4, b5, b6, b7⟩ := h3
  exact ⟨b1, b2, b3, b4, b5, b6, b7, h6⟩

/-- **C109 on Windows**. -/
theorem C109_windows [DecidableEq K] (b : Bool) (alloc : Nat → Nat → Alloc) (L : Lib) (B : Parse.BufLib) (other : Bytes → Py (List (String × Int)))
    (g : Geometry) (hg : Valid g) (sh : Shelf) (hsh : Proper B sh) (n room : Nat) (hroom : room < 2 ^ 32) (p : Client σ Cmd Seen A) (q : Client σ Op Reply A') (ok : σ → Prop) (Rel : A → A' → Prop)
    (hask : ∀ s, ok s → Asks g (p.ask s) (q.ask s)) (hfit : ∀ c r, (c = .vpd .identification ∨ c = .rtpg 0 room ∨ ∃ s, ok s ∧ c = p.ask s) → Cdb.request L c.cdb = .ok r → ∀ i, WindowsOk b (alloc i) r)
    (hnext : ∀ s r reply, ok s → Shows r reply → Along Rel (p.next s r) (q.next s reply))
    (w : Nat → W Win32.Spt K (Option Bytes) (DevErr Sense) (Win32.WinWorld State)) (hw : ∀ i, ∃ k, WindowsIdle (w i).st (w i).os k) (k : State) (hk : k.All (Served B sh n room)) (s : σ) (a' : A') (m' : Contents) (c : Nat)
    (h : q.Runs ok (OnArray g) s k.contents a' m' c) :
    let Runs := fun a w' k' N => (onSeveral L B other (choosing n room p)).Runs (fun x => ok x.state ∧ Right sh n x)
      (ThroughPath fun i => machine (T := T) (Win32.winPlat (Win32.W b) getSense (Win32.sptDevice b (path g sh i))) (Win32.prepare (Win32.W b) (alloc i))) (.port s 0) (w, k) a (w', k') N
    (∃ a w' k' N, Runs a w' k' N) ∧ ∀ a w' k' N, Runs a w' k' N → Rel a.1 a' ∧ a.2 < n ∧ usable sh k'.groups a.2 ∧ k'.contents = m' ∧ c ≤ N ∧ N ≤ c + (2 * n + 1) * (k.changes + 1) ∧
      (k.moves = [] → ∀ i, i < n → optimized sh k.groups i → (∀ j, j < i → ¬ optimized sh k.groups j) → a.2 = i ∧ N = c + 2 * (i + 1)) ∧ ∀ i, ∃ k, WindowsIdle (w' i).st (w' i).os k := by
  obtain ⟨a, k', N, h1, h2, h3⟩ := whole L B other hg winOutcome_delivers winOutcome_passes hsh hroom hask hnext hk h
  have same := fun a N => same_paths (idle := fun w k => WindowsIdle w.st w.os k) (p := onSeveral L B other (choosing n room p)) (ok := fun x => ok x.state ∧ Right sh n x)
    (fun i => serves_windows (T := T) b getSense (path g sh i) (alloc i) fun k q h => path_parses g sh i k q (by rw [h]; decide)) (fun _ _ _ h => h) (fun _ _ _ h => ⟨h.1, h.2.1, rfl⟩)
    (fun _ _ h => h.2.2) (fun x ho r hr => hfit ((choosing n room p).ask x).2 r (asked_one ho.1) hr ((choosing n room p).ask x).1) (.port s 0) w k hw a N
  obtain ⟨w', h4, -⟩ := (same a N).1 k' h1
  refine ⟨⟨a, w', k', N, h4⟩, fun a₁ w₁ k₁ N₁ h => ?_⟩
  obtain ⟨h5, h6⟩ := (same a₁ N₁).2 w₁ k₁ h
  obtain ⟨rfl, rfl, rfl⟩ := h2 _ _ _ h5
  obtain ⟨b1, b2, b3, b4, b5, b6, b7⟩ := h3
  exact ⟨b1, b2, b3, b4, b5, b6, b7, h6⟩

/-! The hypotheses are met: two paths to the ports 1 and 2 of two groups; the first group is in standby, the second is active/optimized. Writing a block takes four commands to find the second path
and one to write; if the groups change once, at most eleven in all. -/

/-- A vendor specific designator, and the relative target port. -/
def plates : Shelf := { first := 0, designators := fun i => [[2, 0x10, 0, 1, 0x41], [1, 0x14, 0, 4, 0, 0, 0, if i = 0 then 1 else 2]] }

/-- Port 1 in the one state, port 2 in the other. -/
def cups (one two : UInt8) : List Bytes := [[one, 0x0f, 0, 1, 0, 0, 0, 1, 0, 0, 0, 1], [two, 0x0f, 0, 2, 0, 0, 0, 1, 0, 0, 0, 2]]

def table (m : Contents) (moves : List (Option (List Bytes))) : State := { contents := m, groups := cups 2 0, moves := moves }

def start (m : Contents) : W Handle Unit (Option Bytes) (DevErr Sense) (World (State × Option Bytes)) :=
  { st := { pending := [], index := 6, maxq := 7 }, os := { mem := fun _ => 0xEE, kernel := (table m [], none) }, fired := [], box := fun _ => [] }

theorem plates_proper (B : Parse.BufLib) : Proper B plates := by
  intro i
  by_cases h : i = 0
  · subst h; exact ⟨by decide +kernel, .inr (by decide +kernel), by decide +kernel⟩
  · simp only [plates, if_neg h]
    exact ⟨by decide +kernel, .inr (by decide +kernel), by decide +kernel⟩

theorem cups_served (B : Parse.BufLib) : Served B plates 2 1024 (cups 2 0) ∧ Served B plates 2 1024 (cups 0 2) :=
  ⟨⟨by decide +kernel, fun _ => by decide +kernel, by decide +kernel, by decide +kernel, 1, by decide, by decide +kernel⟩,
    ⟨by decide +kernel, fun _ => by decide +kernel, by decide +kernel, by decide +kernel, 0, by decide, by decide +kernel⟩⟩

theorem example_fit (L : Lib) (data : Bytes) (hd : data.length = 1 * 512) (c : Cmd) (r : Req)
    (hc : c = .vpd .identification ∨ c = .rtpg 0 (1024 : Nat) ∨ ∃ s : Unit, True ∧ c = (single (α := Seen) (Cmd.write16 7 data 512)).ask s) (hr : Cdb.request L c.cdb = .ok r) (i : Nat) : LinuxOk (Paths.room i) r := by
  have fit : ∀ q : Req, q.cdb.length ≤ 16 → dataSize q ≤ 2048 → LinuxOk (Paths.room i) q := by
    intro q h1 h2
    refine ⟨by omega, by omega, fun _ => ⟨?_, ?_⟩⟩
    · simp; omega
    · simp
  rcases hc with rfl | rfl | ⟨_, _, rfl⟩
  · cases (Cdb.C36_inquiry L 1 0x83 252 (by simp [Fits]) (by simp [Fits]) (by simp [Fits])).symm.trans hr
    exact fit _ (by simp [Req.cdb, Spec.Cdb.inquiry]) (by simp [dataSize])
  · cases (Cdb.C36_rtpg L 0 1024 (.inl rfl) (by simp [Fits])).symm.trans hr
    exact fit _ (by simp [Req.cdb, Spec.Cdb.reportTargetPortGroups]) (by simp [dataSize])
  · obtain ⟨-, c, -, -, -, rfl⟩ := (Cdb.C28_write16 L 7 data 512 r).1 hr
    exact fit _ (by simp [Req.cdb, Spec.Cdb.write16, cdb16]) (by simp only [dataSize, hd]; decide)

/-- Writing a block, whatever the target does. -/
theorem example_runs (L : Lib) (B : Parse.BufLib) (other : Bytes → Py (List (String × Int))) (m : Contents) (data : Bytes) (hd : data.length = 1 * 512) (moves : List (Option (List Bytes)))
    (hk : (table m moves).All (Served B plates 2 1024)) :
    ∃ a w' k' N, (onSeveral L B other (choosing 2 1024 (single (.write16 7 data 512)))).Runs (fun x => True ∧ Right plates 2 x)
      (ThroughPath fun i => machine (T := Unit) (Linux.sgBlocking (K := Unit) (lp64 true) getSense (Linux.sgDevice true (path ⟨512, 1000⟩ plates i))).plat (Linux.prepare (lp64 true) (Paths.room i) 30000))
      (.port () 0) (fun _ => start m, table m moves) a (w', k') N ∧ Shows a.1 .done ∧ k'.contents = writeAt m (7 * 512) data ∧ N ≤ 1 + 5 * ((table m moves).changes + 1) ∧ (moves = [] → a.2 = 1 ∧ N = 5) := by
  have hrun : (single (α := Reply) (Op.write 7 data)).Runs (fun _ => True) (OnArray ⟨512, 1000⟩) () (table m moves).contents .done (writeAt m (7 * 512) data) 1 :=
    .done trivial (by simp only [single, OnArray, table, Op.run, hd, Nat.reduceMul, Nat.reduceDiv, Nat.reduceAdd, Nat.reduceLeDiff, if_true]) rfl
  obtain ⟨⟨a, w', k', N, h1⟩, h2⟩ := C109_linux (T := Unit) (K := Unit) true Paths.room (fun _ => 30000) (fun _ => by decide) L B other
    ⟨512, 1000⟩ ⟨by decide, by decide⟩ plates (plates_proper B) 2 1024 (by decide) (single (.write16 7 data 512)) (single (.write 7 data)) (fun _ => True) Shows
    (fun _ _ => .write16 (g := ⟨512, 1000⟩) (by decide) hd (by decide)) (example_fit L data hd) (fun _ _ _ _ hs => hs)
    (fun _ => start m) (fun _ => ⟨table m [], rfl, by simp [start], by simp [start], by simp [start], rfl⟩) (table m moves) hk () .done (writeAt m (7 * 512) data) 1 hrun
  obtain ⟨h3, -, -, h4, -, h5, h6, -⟩ := h2 a w' k' N h1
  refine ⟨a, w', k', N, h1, h3, h4, h5, fun h => h6 h 1 (by decide) (show optimized plates (cups 2 0) 1 by decide +kernel) fun j hj => ?_⟩
  have : j = 0 := by omega
  subst this
  show ¬ optimized plates (cups 2 0) 0
  decide +kernel

example (B : Parse.BufLib) (m : Contents) : (table m []).All (Served B plates 2 1024) := ⟨(cups_served B).1, by simp [table]⟩

example (B : Parse.BufLib) (m : Contents) : (table m [none, none, none, none, some (cups 0 2)]).All (Served B plates 2 1024) :=
  ⟨(cups_served B).1, by simp [table]; exact (cups_served B).2⟩

end Verif.Commands.Clients.Ports
