import Verif.AsyncRun
import Verif.Props.ExecuteDevice
/-! # The invariant of `wait_for` on one executer shared by the commands -/
set_option linter.unusedSimpArgs false
set_option linter.unusedSectionVars false

namespace Verif.AsyncInv
open Verif.Executer Verif.ExecuterGen Verif.Coroutine Verif.Platform Verif.Platform.Win32 Verif.Spec Verif.AsyncRun
open Verif.ReactorShared (Co Step Steps Raises Returns)

variable {S R δ : Type}

/-- Where a command is: not started, its request in flight, served, its event picked, its coroutine done. -/
inductive Phase where
  | ready | flying | landed | picked | over
  deriving DecidableEq

def Phase.active : Phase → Bool
  | .flying | .landed | .picked => true
  | _ => false

def Phase.served : Phase → Bool
  | .landed | .picked | .over => true
  | _ => false

def Phase.weight : Phase → Nat
  | .ready => 4 | .flying => 3 | .landed => 2 | .picked => 1 | .over => 0

abbrev Ans (S R : Type) := Except (Exn (DevErr S)) (Option (Val (Option Bytes) (DevErr S) R))

/-- What the proof remembers about every command: its phase, packet index, event, request object, request, and the device's answer to it;
how many commands were started, and the order in which they were served. -/
structure Ghost (S R : Type) where
  n : Nat
  ph : Nat → Phase
  pk : Nat → Nat
  ev : Nat → Nat
  h : Nat → Spt
  q : Nat → Req
  ans : Nat → Ans S R
  order : List Nat

def up {α : Type} (f : Nat → α) (c : Nat) (v : α) : Nat → α := fun x => if x = c then v else f x

theorem up_self {α : Type} (f : Nat → α) (c : Nat) (v : α) : up f c v c = v := by simp [up]
theorem up_ne {α : Type} (f : Nat → α) {c x : Nat} (v : α) (h : x ≠ c) : up f c v x = f x := by simp [up, h]

abbrev Wd (S δ : Type) := ExecuterGen.W Spt Nat (Option Bytes) (DevErr S) (AsyncWorld (IoKernel δ))
abbrev Fr (R : Type) := Frame Req Spt Nat (Option Bytes) R AsyncGen
abbrev RSt (S R δ : Type) := ReactorShared.St (Fr R) (Wd S δ) (Val (Option Bytes) (DevErr S) R) (Exn (DevErr S)) Nat

/-- The coroutine of a command in a phase. -/
def coOf (b : Bool) (cmd : Nat → Command Req (Option Bytes) R) (g : Ghost S R) (c : Nat) :
    Option (Co (Fr R) (Val (Option Bytes) (DevErr S) R) (Exn (DevErr S)) Nat) :=
  match g.ph c with
  | .ready => some ⟨[.execute (cmd c)], .send .none, none⟩
  | .flying | .landed => some ⟨waiting (g.h c) (g.pk c) (cmd c), .send .none, some (.tok (g.ev c))⟩
  | .picked => some ⟨waiting (g.h c) (g.pk c) (cmd c), .send (.num (blockSize b)), some (.tok (g.ev c))⟩
  | .over => none

/-- What is assumed of the commands. -/
structure Setup (b : Bool) (alloc : Nat → Alloc) (cmd : Nat → Command Req (Option Bytes) R) (cmds : List Nat) (mq : Nat) : Prop where
  nodup : cmds.Nodup
  ok : ∀ c ∈ cmds, ∀ q, (cmd c).request = .ok q →
    q.cdb.length ≤ 16 ∧ dataSize q < 2 ^ 32 ∧ ∀ i, i < mq → Separate (bits b) (winRegions b (alloc i) q)
  apart : ∀ c ∈ cmds, ∀ d ∈ cmds, ∀ q q', (cmd c).request = .ok q → (cmd d).request = .ok q' → ∀ i j, i < mq → j < mq → i ≠ j →
    ∀ x, ¬ (Inside b (alloc i) q x ∧ Inside b (alloc j) q' x)

structure Inv (b : Bool) (parse : Bytes → Py (Option S)) (dev : Device δ) (alloc : Nat → Alloc) (cmd : Nat → Command Req (Option Bytes) R)
    (cmds : List Nat) (i0 mq : Nat) (k0 : δ) (st : RSt S R δ) (g : Ghost S R) : Prop where
  todo : st.todo = cmds.drop g.n ∨ (cmds.length ≤ g.n ∧ ∃ c ∈ cmds, st.todo = [c] ∧ g.ph c = .picked)
  nle : g.n ≤ mq
  nle' : g.n ≤ cmds.length
  ready : ∀ c ∈ cmds, (g.ph c = .ready ↔ c ∈ cmds.drop g.n)
  picked : ∀ c ∈ cmds, g.ph c = .picked → st.todo = [c]
  coNodup : (Dict.keys st.coroutines).Nodup
  co : ∀ c ∈ cmds, Dict.get st.coroutines c = coOf b cmd g c
  co' : ∀ c, c ∉ cmds → Dict.get st.coroutines c = none
  res : ∀ c ∈ cmds, g.ph c = .over → ∃ r, g.ans c = .ok (some (.obj r)) ∧ Dict.get st.results c = some (some (.plain (.obj r)))
  maxq : st.world.st.maxq = mq
  index : st.world.st.index = (i0 + g.n) % mq
  pNodup : (Dict.keys st.world.st.pending).Nodup
  pend : ∀ c ∈ cmds, (g.ph c).active → Dict.get st.world.st.pending (g.pk c) = some (g.h c, some (some c))
  pend' : ∀ i x, Dict.get st.world.st.pending i = some x → ∃ c ∈ cmds, (g.ph c).active ∧ g.pk c = i
  pLen : st.world.st.pending.length ≤ g.n
  pFull : cmds.drop g.n ≠ [] → st.world.st.pending.length = g.n
  pk : ∀ c ∈ cmds, (g.ph c).active → ∃ j, j < g.n ∧ g.pk c = (i0 + j) % mq
  box : ∀ c ∈ cmds, (g.ph c).active → st.world.box (some c) = []
  incoming : st.world.os.incoming = []
  built : ∀ c ∈ cmds, (g.ph c).active →
    (cmd c).request = .ok (g.q c) ∧ create (Win32.W b) (alloc (g.pk c)) (g.pk c) (g.q c) = .ok (g.h c)
  evLt : ∀ c ∈ cmds, (g.ph c).active → g.ev c < st.world.os.events
  landLt : ∀ t ∈ st.world.os.world.kernel.landed.map Prod.fst, t < st.world.os.events
  evInj : ∀ c ∈ cmds, ∀ d ∈ cmds, (g.ph c).active → (g.ph d).active → g.ev c = g.ev d → c = d
  fly : ∀ c ∈ cmds, g.ph c = .flying → (g.ev c, (g.h c).blockAddr) ∈ st.world.os.world.kernel.flying
  fly' : ∀ p ∈ st.world.os.world.kernel.flying, ∃ c ∈ cmds, g.ph c = .flying ∧ p = (g.ev c, (g.h c).blockAddr)
  flyNodup : st.world.os.world.kernel.flying.Nodup
  unland : ∀ c ∈ cmds, g.ph c = .flying → g.ev c ∉ st.world.os.world.kernel.landed.map Prod.fst
  land : ∀ c ∈ cmds, g.ph c = .landed → g.ev c ∈ st.world.os.world.kernel.landed.map Prod.fst
  holds : ∀ c ∈ cmds, g.ph c = .flying → (g.h c).install st.world.os.world.mem = st.world.os.world.mem
  said : ∀ c ∈ cmds, g.ph c = .landed ∨ g.ph c = .picked →
    decoded (cmd c) (clsOut (classify (Win32.W b) parse (g.h c) st.world.os.world.mem)) = g.ans c
  ordNodup : g.order.Nodup
  ord : ∀ c, c ∈ g.order ↔ c ∈ cmds ∧ (g.ph c).served
  asks : askAll dev (winOutcome parse) (g.order.map cmd) k0 = (g.order.map g.ans, st.world.os.world.kernel.dev)

theorem askAll_snoc (dev : Device δ) (out : Req → Answer → Except (Exn (DevErr S)) (Option (Option Bytes)))
    (cs : List (Command Req (Option Bytes) R)) (c : Command Req (Option Bytes) R) (q : Req) (hq : c.request = .ok q) (k : δ) :
    askAll dev out (cs ++ [c]) k =
      ((askAll dev out cs k).1 ++ [decoded c (out q (dev (askAll dev out cs k).2 (asked q)).1)], (dev (askAll dev out cs k).2 (asked q)).2) := by
  induction cs generalizing k with
  | nil => simp [askAll, hq]
  | cons d cs ih =>
    simp only [List.cons_append, askAll]
    cases d.request with
    | error e => simp only [ih, List.cons_append]
    | ok q' => simp only [ih, List.cons_append]

theorem Setup.of_regions {b : Bool} {alloc : Nat → Alloc} {q q' : Req} {i j : Nat}
    (h : ∀ r ∈ winRegions b (alloc i) q, ∀ r' ∈ winRegions b (alloc j) q', r.1 + r.2 ≤ r'.1 ∨ r'.1 + r'.2 ≤ r.1) (x : Nat) :
    ¬ (Inside b (alloc i) q x ∧ Inside b (alloc j) q' x) := by
  rintro ⟨h1, h2⟩
  unfold Inside at h1 h2
  rw [total_eq] at h1 h2
  rcases h1 with h1 | h1 <;> rcases h2 with h2 | h2
  · have := h ((alloc i).block, if b then 311 else 299) (by simp [winRegions]) ((alloc j).block, if b then 311 else 299) (by simp [winRegions]); simp only at this; omega
  · have := h ((alloc i).block, if b then 311 else 299) (by simp [winRegions]) ((alloc j).data, dataSize q') (by simp [winRegions]); simp only at this; omega
  · have := h ((alloc i).data, dataSize q) (by simp [winRegions]) ((alloc j).block, if b then 311 else 299) (by simp [winRegions]); simp only at this; omega
  · have := h ((alloc i).data, dataSize q) (by simp [winRegions]) ((alloc j).data, dataSize q') (by simp [winRegions]); simp only at this; omega


variable {b : Bool} {parse : Bytes → Py (Option S)} {dev : Device δ} {alloc : Nat → Alloc} {cmd : Nat → Command Req (Option Bytes) R}
  {cmds : List Nat} {i0 mq : Nat} {k0 : δ} {st : RSt S R δ} {g : Ghost S R}

abbrev prog (b : Bool) (parse : Bytes → Py (Option S)) (dev : Device δ) (alloc : Nat → Alloc) (c : Nat) :=
  code (R := R) (Win32.W b) parse (ioDevice b dev) alloc (some c)

theorem active_of_flying {p : Phase} (h : p = .flying) : p.active = true := by rw [h]; rfl
theorem active_of_landed {p : Phase} (h : p = .landed) : p.active = true := by rw [h]; rfl
theorem active_of_picked {p : Phase} (h : p = .picked) : p.active = true := by rw [h]; rfl

/-- Different commands use different packets. -/
theorem Inv.pk_ne (I : Inv b parse dev alloc cmd cmds i0 mq k0 st g) {c d : Nat} (hc : c ∈ cmds) (hd : d ∈ cmds)
    (ac : (g.ph c).active) (ad : (g.ph d).active) (hne : c ≠ d) : g.pk c ≠ g.pk d := by
  intro he
  have h1 := I.pend c hc ac
  have h2 := I.pend d hd ad
  rw [he, h2] at h1
  simp only [Option.some.injEq, Prod.mk.injEq] at h1
  exact hne h1.2.symm

theorem Inv.pk_lt (I : Inv b parse dev alloc cmd cmds i0 mq k0 st g) {c : Nat} (hc : c ∈ cmds) (ac : (g.ph c).active) : g.pk c < mq := by
  obtain ⟨j, hj, he⟩ := I.pk c hc ac
  rw [he]
  exact Nat.mod_lt _ (by have := I.nle; omega)

theorem Inv.built' (hs : Setup b alloc cmd cmds mq) (I : Inv b parse dev alloc cmd cmds i0 mq k0 st g) {c : Nat} (hc : c ∈ cmds)
    (ac : (g.ph c).active) : Built b (g.h c) (alloc (g.pk c)) (g.pk c) (g.q c) := by
  obtain ⟨hr, hcr⟩ := I.built c hc ac
  obtain ⟨h1, h2, h3⟩ := hs.ok c hc _ hr
  obtain ⟨-, hx⟩ := win_apart (h3 (g.pk c) (I.pk_lt hc ac))
  obtain ⟨h, hc', hb⟩ := create_built b (alloc (g.pk c)) (g.pk c) (g.q c) h1 h2 hx
  rw [hcr] at hc'; cases hc'
  exact hb

/-- The ghost after the request of command `c` was served with answer `a`. -/
def Ghost.landing (g : Ghost S R) (c : Nat) (a : Ans S R) : Ghost S R :=
  { g with ph := up g.ph c .landed, ans := up g.ans c a, order := g.order ++ [c] }

theorem served_of {p : Phase} : p.served = true ↔ p = .landed ∨ p = .picked ∨ p = .over := by cases p <;> simp [Phase.served]

/-- The device serves a request in flight. -/
theorem Inv.kernel (hs : Setup b alloc cmd cmds mq) (I : Inv b parse dev alloc cmd cmds i0 mq k0 st g) {w}
    (ha : (ioKernel (K := Nat) b dev).advance st.world w) :
    ∃ c ∈ cmds, g.ph c = .flying ∧ ∃ a, Inv b parse dev alloc cmd cmds i0 mq k0 { st with world := w } (g.landing c a) := by
  obtain ⟨p, hp, rfl⟩ := ha
  obtain ⟨c, hc, hph, rfl⟩ := I.fly' p hp
  have ac := active_of_flying hph
  obtain ⟨hr, hcr⟩ := I.built c hc ac
  obtain ⟨h1, h2, h3⟩ := hs.ok c hc _ hr
  have hb := I.built' hs hc ac
  obtain ⟨m', hio, hout, hcls⟩ := device_serves parse dev h1 h2 (h3 _ (I.pk_lt hc ac)) hcr st.world.os.world.mem st.world.os.world.kernel.dev (I.holds c hc hph)
  have hland : Spec.land b dev (g.ev c, (g.h c).blockAddr) st.world.os.world =
      { mem := m', kernel := { dev := (dev st.world.os.world.kernel.dev (asked (g.q c))).2,
                               flying := st.world.os.world.kernel.flying.erase (g.ev c, (g.h c).blockAddr),
                               landed := (g.ev c, true) :: st.world.os.world.kernel.landed } } := by
    simp only [Spec.land, hio]
    rfl
  rw [hland]
  have hnotin : c ∉ g.order := by
    intro h
    have := ((I.ord c).1 h).2
    rw [hph] at this
    cases this
  -- the bytes of the other requests are left alone
  have hoth : ∀ d ∈ cmds, d ≠ c → (g.ph d).active → ∀ x, Inside b (alloc (g.pk d)) (g.q d) x → m' x = st.world.os.world.mem x := by
    intro d hd hne ad x hx
    apply hout
    intro hx'
    exact hs.apart d hd c hc _ _ (I.built d hd ad).1 hr _ _ (I.pk_lt hd ad) (I.pk_lt hc ac) (I.pk_ne hd hc ad ac hne) x ⟨hx, hx'⟩
  have hact : ∀ d, ((g.landing c (decoded (cmd c) (winOutcome parse (g.q c) (dev st.world.os.world.kernel.dev (asked (g.q c))).1))).ph d).active =
      (g.ph d).active := by
    intro d
    by_cases hd : d = c
    · subst hd; simp [Ghost.landing, up, Phase.active, hph]
    · simp [Ghost.landing, up, hd]
  refine ⟨c, hc, hph, decoded (cmd c) (winOutcome parse (g.q c) (dev st.world.os.world.kernel.dev (asked (g.q c))).1), ?_⟩
  constructor
  case todo =>
    rcases I.todo with h | ⟨hl, d, hd, ht, hp'⟩
    · exact .inl h
    · refine .inr ⟨hl, d, hd, ht, ?_⟩
      have : d ≠ c := by rintro rfl; rw [hph] at hp'; cases hp'
      simpa [Ghost.landing, up, this] using hp'
  case nle => exact I.nle
  case nle' => exact I.nle'
  case ready =>
    intro d hd
    by_cases hdc : d = c
    · subst hdc
      have := I.ready d hd
      simp only [hph, reduceCtorEq, false_iff] at this
      simpa [Ghost.landing, up] using this
    · simpa [Ghost.landing, up, hdc] using I.ready d hd
  case picked =>
    intro d hd
    by_cases hdc : d = c
    · subst hdc; simp [Ghost.landing, up]
    · simpa [Ghost.landing, up, hdc] using I.picked d hd
  case coNodup => exact I.coNodup
  case co =>
    intro d hd
    have := I.co d hd
    by_cases hdc : d = c
    · subst hdc
      simp only [coOf, hph] at this
      simpa [Ghost.landing, up, coOf] using this
    · simpa [Ghost.landing, up, hdc, coOf] using this
  case co' => exact I.co'
  case res =>
    intro d hd
    by_cases hdc : d = c
    · subst hdc; simp [Ghost.landing, up]
    · simpa [Ghost.landing, up, hdc] using I.res d hd
  case maxq => exact I.maxq
  case index => exact I.index
  case pNodup => exact I.pNodup
  case pend => intro d hd h; rw [hact] at h; exact I.pend d hd h
  case pend' =>
    intro i x h
    obtain ⟨d, hd, h1, h2⟩ := I.pend' i x h
    exact ⟨d, hd, by rw [hact]; exact h1, h2⟩
  case pLen => exact I.pLen
  case pFull => exact I.pFull
  case pk => intro d hd h; rw [hact] at h; exact I.pk d hd h
  case box => intro d hd h; rw [hact] at h; exact I.box d hd h
  case incoming => exact I.incoming
  case built => intro d hd h; rw [hact] at h; exact I.built d hd h
  case evLt => intro d hd h; rw [hact] at h; exact I.evLt d hd h
  case landLt =>
    intro t ht
    simp only [List.map_cons, List.mem_cons] at ht
    rcases ht with rfl | ht
    · exact I.evLt c hc ac
    · exact I.landLt t ht
  case evInj => intro d hd e he h h'; rw [hact] at h h'; exact I.evInj d hd e he h h'
  case fly =>
    intro d hd
    by_cases hdc : d = c
    · subst hdc; simp [Ghost.landing, up]
    · intro h
      have hf : g.ph d = .flying := by simpa [Ghost.landing, up, hdc] using h
      refine (List.mem_erase_of_ne ?_).2 (I.fly d hd hf)
      intro he
      simp only [Ghost.landing, Prod.mk.injEq] at he
      exact hdc (I.evInj d hd c hc (active_of_flying hf) ac he.1)
  case fly' =>
    intro p hp
    have := (List.Nodup.mem_erase_iff I.flyNodup).1 hp
    obtain ⟨d, hd, hf, rfl⟩ := I.fly' p this.2
    have hdc : d ≠ c := by rintro rfl; exact this.1 rfl
    exact ⟨d, hd, by simpa [Ghost.landing, up, hdc] using hf, rfl⟩
  case flyNodup => exact I.flyNodup.erase _
  case unland =>
    intro d hd
    by_cases hdc : d = c
    · subst hdc; simp [Ghost.landing, up]
    · intro h
      have hf : g.ph d = .flying := by simpa [Ghost.landing, up, hdc] using h
      simp only [List.map_cons, List.mem_cons, not_or]
      exact ⟨fun he => hdc (I.evInj d hd c hc (active_of_flying hf) ac he), I.unland d hd hf⟩
  case land =>
    intro d hd h
    simp only [List.map_cons, List.mem_cons]
    by_cases hdc : d = c
    · subst hdc; exact .inl rfl
    · exact .inr (I.land d hd (by simpa [Ghost.landing, up, hdc] using h))
  case holds =>
    intro d hd
    by_cases hdc : d = c
    · subst hdc; simp [Ghost.landing, up]
    · intro h
      have hf : g.ph d = .flying := by simpa [Ghost.landing, up, hdc] using h
      exact holds_congr (I.built' hs hd (active_of_flying hf)) (hoth d hd hdc (active_of_flying hf)) (I.holds d hd hf)
  case said =>
    intro d hd h
    by_cases hdc : d = c
    · subst hdc
      simp only [Ghost.landing, up, if_true]
      rw [hcls]
    · have hf : g.ph d = .landed ∨ g.ph d = .picked := by simpa [Ghost.landing, up, hdc] using h
      have ad : (g.ph d).active := by rcases hf with h | h <;> rw [h] <;> rfl
      simp only [Ghost.landing, up, if_neg hdc]
      rw [classify_congr (I.built' hs hd ad) parse (hoth d hd hdc ad)]
      exact I.said d hd hf
  case ordNodup =>
    simp only [Ghost.landing]
    exact List.nodup_append.2 ⟨I.ordNodup, by simp, by
      intro x hx y hy
      simp only [List.mem_singleton] at hy
      subst hy
      rintro rfl
      exact hnotin hx⟩
  case ord =>
    intro d
    simp only [Ghost.landing, List.mem_append, List.mem_singleton]
    by_cases hdc : d = c
    · subst hdc; simp [up, hc, Phase.served]
    · simp [up, hdc, I.ord d]
  case asks =>
    have hmap : g.order.map (up g.ans c (decoded (cmd c) (winOutcome parse (g.q c) (dev st.world.os.world.kernel.dev (asked (g.q c))).1))) =
        g.order.map g.ans := by
      apply List.map_congr_left
      intro x hx
      exact up_ne _ _ (fun he => hnotin (he ▸ hx))
    simp only [Ghost.landing, List.map_append, List.map_cons, List.map_nil, hmap, up_self]
    rw [askAll_snoc dev _ _ _ _ hr, I.asks]


/-- The ghost after the event of command `c` was picked. -/
def Ghost.picking (g : Ghost S R) (c : Nat) : Ghost S R := { g with ph := up g.ph c .picked }

theorem Inv.mem (I : Inv b parse dev alloc cmd cmds i0 mq k0 st g) {c co} (h : Dict.get st.coroutines c = some co) :
    c ∈ cmds ∧ coOf b cmd g c = some co := by
  have hc : c ∈ cmds := by
    by_cases hc : c ∈ cmds
    · exact hc
    · rw [I.co' c hc] at h; cases h
  exact ⟨hc, by rw [← I.co c hc, h]⟩

/-- A token whose event is signalled belongs to a served command. -/
theorem Inv.signalled (I : Inv b parse dev alloc cmd cmds i0 mq k0 st g) {c co t} (ht : st.todo = [])
    (h : Dict.get st.coroutines c = some co) (hr : co.result = some (.tok t)) (hsig : (ioKernel (K := Nat) b dev).signalled t st.world) :
    g.ph c = .landed ∧ t = g.ev c ∧ co = ⟨waiting (g.h c) (g.pk c) (cmd c), .send .none, some (.tok (g.ev c))⟩ := by
  obtain ⟨hc, hco⟩ := I.mem h
  cases hp : g.ph c with
  | ready => simp only [coOf, hp, Option.some.injEq] at hco; subst hco; cases hr
  | flying =>
    simp only [coOf, hp, Option.some.injEq] at hco; subst hco
    simp only [Option.some.injEq, Yld.tok.injEq] at hr
    subst hr
    exact absurd hsig (I.unland c hc hp)
  | landed =>
    simp only [coOf, hp, Option.some.injEq] at hco; subst hco
    simp only [Option.some.injEq, Yld.tok.injEq] at hr
    exact ⟨rfl, hr.symm, rfl⟩
  | picked => have := I.picked c hc hp; rw [ht] at this; cases this
  | over => simp only [coOf, hp, reduceCtorEq] at hco

/-- `get_result` of a served request changes nothing. -/
theorem Inv.await (I : Inv b parse dev alloc cmd cmds i0 mq k0 st g) {c} (hc : c ∈ cmds) (hp : g.ph c = .landed) :
    (prog (R := R) b parse dev alloc c).await (g.ev c) st.world = (st.world, .ok (.send (.num (blockSize b)))) := by
  have hnone : st.world.os.world.kernel.flying.find? (·.1 == g.ev c) = none := by
    rw [List.find?_eq_none]
    intro p hp' he
    obtain ⟨d, hd, hf, rfl⟩ := I.fly' p hp'
    have := I.evInj d hd c hc (active_of_flying hf) (active_of_landed hp) (by simpa using he)
    subst this
    rw [hf] at hp; cases hp
  simp only [prog, code, machine, asyncPlat, getResult, ioDevice, landNow, hnone]

theorem Inv.event (I : Inv b parse dev alloc cmd cmds i0 mq k0 st g) {c} (hc : c ∈ cmds) (hph : g.ph c = .landed) (ht : st.todo = []) :
    Inv b parse dev alloc cmd cmds i0 mq k0
      ⟨[c], Dict.set st.coroutines c ⟨waiting (g.h c) (g.pk c) (cmd c), .send (.num (blockSize b)), some (.tok (g.ev c))⟩, st.results, st.world⟩
      (g.picking c) := by
  have hlen : cmds.length ≤ g.n := by
    rcases I.todo with h | ⟨hl, -⟩
    · rw [ht] at h
      exact List.drop_eq_nil_iff.1 h.symm
    · exact hl
  have ac := active_of_landed hph
  have hact : ∀ d, ((g.picking c).ph d).active = (g.ph d).active := by
    intro d
    by_cases hd : d = c
    · subst hd; simp [Ghost.picking, up, Phase.active, hph]
    · simp [Ghost.picking, up, hd]
  have hfl : ∀ d, (g.picking c).ph d = .flying ↔ g.ph d = .flying := by
    intro d
    by_cases hd : d = c
    · subst hd; simp [Ghost.picking, up, hph]
    · simp [Ghost.picking, up, hd]
  constructor
  case todo => exact .inr ⟨hlen, c, hc, rfl, by simp [Ghost.picking, up]⟩
  case nle => exact I.nle
  case nle' => exact I.nle'
  case ready =>
    intro d hd
    by_cases hdc : d = c
    · subst hdc
      have := I.ready d hd
      simp only [hph, reduceCtorEq, false_iff] at this
      simpa [Ghost.picking, up] using this
    · simpa [Ghost.picking, up, hdc] using I.ready d hd
  case picked =>
    intro d hd
    by_cases hdc : d = c
    · subst hdc; simp [Ghost.picking, up]
    · intro h
      have := I.picked d hd (by simpa [Ghost.picking, up, hdc] using h)
      rw [ht] at this; cases this
  case coNodup => exact Reactor.dict_nodup_set _ _ _ I.coNodup
  case co =>
    intro d hd
    rw [Reactor.dict_get_set]
    by_cases hdc : d = c
    · subst hdc
      simp [Ghost.picking, up, coOf]
    · rw [if_neg (fun h => hdc h.symm), I.co d hd]
      simp [Ghost.picking, up, hdc, coOf]
  case co' =>
    intro d hd
    rw [Reactor.dict_get_set, if_neg (by rintro rfl; exact hd hc)]
    exact I.co' d hd
  case res =>
    intro d hd
    by_cases hdc : d = c
    · subst hdc; simp [Ghost.picking, up]
    · simpa [Ghost.picking, up, hdc] using I.res d hd
  case maxq => exact I.maxq
  case index => exact I.index
  case pNodup => exact I.pNodup
  case pend => intro d hd h; rw [hact] at h; exact I.pend d hd h
  case pend' =>
    intro i x h
    obtain ⟨d, hd, h1, h2⟩ := I.pend' i x h
    exact ⟨d, hd, by rw [hact]; exact h1, h2⟩
  case pLen => exact I.pLen
  case pFull => exact I.pFull
  case pk => intro d hd h; rw [hact] at h; exact I.pk d hd h
  case box => intro d hd h; rw [hact] at h; exact I.box d hd h
  case incoming => exact I.incoming
  case built => intro d hd h; rw [hact] at h; exact I.built d hd h
  case evLt => intro d hd h; rw [hact] at h; exact I.evLt d hd h
  case landLt => exact I.landLt
  case evInj => intro d hd e he h h'; rw [hact] at h h'; exact I.evInj d hd e he h h'
  case fly => intro d hd h; rw [hfl] at h; exact I.fly d hd h
  case fly' =>
    intro p hp
    obtain ⟨d, hd, hf, rfl⟩ := I.fly' p hp
    exact ⟨d, hd, by rw [hfl]; exact hf, rfl⟩
  case flyNodup => exact I.flyNodup
  case unland => intro d hd h; rw [hfl] at h; exact I.unland d hd h
  case land =>
    intro d hd
    by_cases hdc : d = c
    · subst hdc; simp [Ghost.picking, up]
    · simpa [Ghost.picking, up, hdc] using I.land d hd
  case holds => intro d hd h; rw [hfl] at h; exact I.holds d hd h
  case said =>
    intro d hd h
    by_cases hdc : d = c
    · subst hdc; exact I.said d hd (.inl hph)
    · exact I.said d hd (by simpa [Ghost.picking, up, hdc] using h)
  case ordNodup => exact I.ordNodup
  case ord =>
    intro d
    by_cases hdc : d = c
    · subst hdc; have := I.ord d; rw [hph] at this; simpa [Ghost.picking, up, Phase.served] using this
    · simpa [Ghost.picking, up, hdc] using I.ord d
  case asks => exact I.asks

/-- Which coroutine the `for` loop runs. -/
theorem Inv.next (I : Inv b parse dev alloc cmd cmds i0 mq k0 st g) {c cs} (ht : st.todo = c :: cs) :
    c ∈ cmds ∧ ((g.ph c = .ready ∧ cmds.drop g.n = c :: cs ∧ g.n < cmds.length) ∨ (g.ph c = .picked ∧ cs = [] ∧ cmds.length ≤ g.n)) := by
  rcases I.todo with h | ⟨hl, d, hd, h, hp⟩
  · rw [ht] at h
    have hc : c ∈ cmds.drop g.n := by rw [← h]; exact List.mem_cons_self ..
    have hc' := List.mem_of_mem_drop hc
    refine ⟨hc', .inl ⟨(I.ready c hc').2 hc, h.symm, ?_⟩⟩
    by_cases hn : g.n < cmds.length
    · exact hn
    · rw [List.drop_eq_nil_iff.2 (by omega)] at h; cases h
  · rw [ht] at h
    cases h
    exact ⟨hd, .inr ⟨hp, rfl, hl⟩⟩

/-- The ghost after command `c` was started with request `q` and request object `h`. -/
def Ghost.starting (g : Ghost S R) (c i e : Nat) (h : Spt) (q : Req) : Ghost S R :=
  { g with n := g.n + 1, ph := up g.ph c .flying, pk := up g.pk c i, ev := up g.ev c e, h := up g.h c h, q := up g.q c q }

theorem sptSize_W (b : Bool) : sptSize (Win32.W b) = blockSize b := by cases b <;> decide +kernel

theorem Inv.start (hs : Setup b alloc cmd cmds mq) (I : Inv b parse dev alloc cmd cmds i0 mq k0 st g) {c cs}
    (hd : cmds.drop g.n = c :: cs) {q} (hq : (cmd c).request = .ok q) (hlt : g.n < mq) :
    ∃ h w, AsyncLoop (prog (R := R) b parse dev alloc c) ⟨[.execute (cmd c)], .send .none, none, st.world⟩
        (.blocked st.world.os.events ⟨waiting h st.world.st.index (cmd c), .send .none, some (.tok st.world.os.events), w⟩) ∧
      Inv b parse dev alloc cmd cmds i0 mq k0
        ⟨cs, Dict.set st.coroutines c ⟨waiting h st.world.st.index (cmd c), .send .none, some (.tok st.world.os.events)⟩, st.results, w⟩
        (g.starting c st.world.st.index st.world.os.events h q) := by
  have hcd : c ∈ cmds.drop g.n := by rw [hd]; exact List.mem_cons_self ..
  have hc := List.mem_of_mem_drop hcd
  have hph := (I.ready c hc).2 hcd
  have hnl : g.n < cmds.length := by
    by_cases hn : g.n < cmds.length
    · exact hn
    · rw [List.drop_eq_nil_iff.2 (by omega)] at hd; cases hd
  have hcs : cmds.drop (g.n + 1) = cs := by
    rw [← List.drop_drop, hd]; rfl
  have hccs : c ∉ cs := by
    have : (c :: cs).Nodup := hd ▸ hs.nodup.sublist (List.drop_sublist _ _)
    exact (List.nodup_cons.1 this).1
  have hplen : st.world.st.pending.length = g.n := I.pFull (by rw [hd]; simp)
  obtain ⟨h1, h2, h3⟩ := hs.ok c hc _ hq
  have hilt : st.world.st.index < mq := by rw [I.index]; exact Nat.mod_lt _ (by omega)
  obtain ⟨-, hx⟩ := win_apart (h3 st.world.st.index hilt)
  obtain ⟨h, hcr, hb⟩ := create_built b (alloc st.world.st.index) st.world.st.index q h1 h2 hx
  let k1 : IoKernel δ := { st.world.os.world.kernel with flying := st.world.os.world.kernel.flying ++ [(st.world.os.events, h.blockAddr)] }
  let w1 : World (IoKernel δ) := { mem := h.install st.world.os.world.mem, kernel := k1 }
  have hio : (ioDevice b dev).deviceIoControl ioctlCode h.blockAddr (sptSize (Win32.W b)) st.world.os.events
      { st.world.os.world with mem := h.install st.world.os.world.mem } = (.pending, w1) := by
    simp only [ioDevice, sptSize_W]
    rw [if_neg (by simp [ioctlCode])]
  -- the packet index is fresh
  have hfresh : ∀ d ∈ cmds, (g.ph d).active → g.pk d ≠ st.world.st.index := by
    intro d hd ad he
    obtain ⟨j, hj, hpk⟩ := I.pk d hd ad
    rw [hpk, I.index] at he
    have hb1 : (i0 + g.n - (i0 + j)) % mq = 0 := Nat.sub_mod_eq_zero_of_mod_eq he.symm
    rw [show i0 + g.n - (i0 + j) = g.n - j by omega, Nat.mod_eq_of_lt (by omega)] at hb1
    omega
  have hfree : Dict.get st.world.st.pending st.world.st.index = none := by
    cases hg : Dict.get st.world.st.pending st.world.st.index with
    | none => rfl
    | some x =>
      obtain ⟨d, hd, ad, he⟩ := I.pend' _ _ hg
      exact absurd he (hfresh d hd ad)
  have hset : Dict.set st.world.st.pending st.world.st.index (h, some (some c)) =
      st.world.st.pending ++ [(st.world.st.index, (h, some (some c)))] :=
    Dict.set_fresh _ _ _ ((Dict.get_none_iff _ _).1 hfree)
  have hoth : ∀ d ∈ cmds, (g.ph d).active → ∀ x, Inside b (alloc (g.pk d)) (g.q d) x →
      h.install st.world.os.world.mem x = st.world.os.world.mem x := by
    intro d hd ad x hx
    apply install_outside hb
    intro hx'
    exact hs.apart d hd c hc _ _ (I.built d hd ad).1 hq _ _ (I.pk_lt hd ad) hilt (hfresh d hd ad) x ⟨hx, hx'⟩
  have hact : ∀ d, d ≠ c → ((g.starting c st.world.st.index st.world.os.events h q).ph d) = g.ph d := by
    intro d hd; simp [Ghost.starting, up, hd]
  refine ⟨h, submittedWorld (some c) h st.world w1,
    start_blocked hq st.world (by rw [hplen, I.maxq]; exact hlt) hcr hio, ?_⟩
  constructor
  case todo => exact .inl (by simp only [Ghost.starting, hcs])
  case nle => exact hlt
  case nle' => exact hnl
  case ready =>
    intro d hdc
    simp only [Ghost.starting, hcs]
    by_cases hdc' : d = c
    · subst hdc'; simp [up, hccs]
    · have := I.ready d hdc
      rw [hd] at this
      simpa [up, hdc'] using this
  case picked =>
    intro d hdm
    by_cases hdc : d = c
    · subst hdc; simp [Ghost.starting, up]
    · intro hp
      rw [hact d hdc] at hp
      have := I.picked d hdm hp
      rcases I.todo with ht | ⟨hl, -⟩
      · rw [ht, hd] at this
        simp only [List.cons.injEq] at this
        exact absurd this.1.symm hdc
      · omega
  case coNodup => exact Reactor.dict_nodup_set _ _ _ I.coNodup
  case co =>
    intro d hdm
    rw [Reactor.dict_get_set]
    by_cases hdc : d = c
    · subst hdc
      simp [Ghost.starting, up, coOf]
    · rw [if_neg (fun h => hdc h.symm), I.co d hdm]
      simp [Ghost.starting, up, hdc, coOf]
  case co' =>
    intro d hdm
    rw [Reactor.dict_get_set, if_neg (by rintro rfl; exact hdm hc)]
    exact I.co' d hdm
  case res =>
    intro d hdm
    by_cases hdc : d = c
    · subst hdc; simp [Ghost.starting, up]
    · simpa [Ghost.starting, up, hdc] using I.res d hdm
  case maxq => exact I.maxq
  case index =>
    simp only [submittedWorld, Ghost.starting]
    rw [I.maxq, I.index, Nat.mod_add_mod, Nat.add_assoc]
  case pNodup =>
    simp only [submittedWorld]
    exact Reactor.dict_nodup_set _ _ _ I.pNodup
  case pend =>
    intro d hdm ad
    simp only [submittedWorld]
    rw [Reactor.dict_get_set]
    by_cases hdc : d = c
    · subst hdc
      simp [Ghost.starting, up]
    · rw [hact d hdc] at ad
      simp only [Ghost.starting, up, if_neg hdc]
      rw [if_neg (fun he => hfresh d hdm ad he.symm)]
      exact I.pend d hdm ad
  case pend' =>
    intro i x hg
    simp only [submittedWorld] at hg
    rw [Reactor.dict_get_set] at hg
    by_cases hi : st.world.st.index = i
    · exact ⟨c, hc, by simp [Ghost.starting, up, Phase.active], by simpa [Ghost.starting, up] using hi⟩
    · rw [if_neg hi] at hg
      obtain ⟨d, hdm, ad, hpk⟩ := I.pend' i x hg
      have hdc : d ≠ c := by rintro rfl; rw [hph] at ad; cases ad
      exact ⟨d, hdm, by rw [hact d hdc]; exact ad, by simpa [Ghost.starting, up, hdc] using hpk⟩
  case pLen => simp only [submittedWorld, hset, Ghost.starting, List.length_append, List.length_singleton, hplen]; omega
  case pFull => intro _; simp only [submittedWorld, hset, Ghost.starting, List.length_append, List.length_singleton, hplen]
  case pk =>
    intro d hdm ad
    by_cases hdc : d = c
    · subst hdc
      exact ⟨g.n, Nat.lt_succ_self _, by simp [Ghost.starting, up, I.index]⟩
    · rw [hact d hdc] at ad
      obtain ⟨j, hj, he⟩ := I.pk d hdm ad
      exact ⟨j, Nat.lt_succ_of_lt hj, by simpa [Ghost.starting, up, hdc] using he⟩
  case box =>
    intro d hdm ad
    by_cases hdc : d = c
    · subst hdc
      simp [submittedWorld, setBox]
    · rw [hact d hdc] at ad
      simp only [submittedWorld, setBox, Option.some.injEq, if_neg hdc]
      exact I.box d hdm ad
  case incoming => exact I.incoming
  case built =>
    intro d hdm ad
    by_cases hdc : d = c
    · subst hdc
      simp only [Ghost.starting, up, if_true]
      exact ⟨hq, hcr⟩
    · rw [hact d hdc] at ad
      simp only [Ghost.starting, up, if_neg hdc]
      exact I.built d hdm ad
  case evLt =>
    intro d hdm ad
    by_cases hdc : d = c
    · subst hdc
      simp [Ghost.starting, up, submittedWorld]
    · rw [hact d hdc] at ad
      simp only [Ghost.starting, up, if_neg hdc, submittedWorld]
      exact Nat.lt_succ_of_lt (I.evLt d hdm ad)
  case landLt =>
    intro t ht
    exact Nat.lt_succ_of_lt (I.landLt t ht)
  case evInj =>
    intro d hdm e hem ad ae he
    by_cases hdc : d = c
    · by_cases hec : e = c
      · rw [hdc, hec]
      · rw [hact e hec] at ae
        have := I.evLt e hem ae
        simp only [Ghost.starting, up, if_pos hdc, if_neg hec] at he
        omega
    · rw [hact d hdc] at ad
      by_cases hec : e = c
      · have := I.evLt d hdm ad
        simp only [Ghost.starting, up, if_pos hec, if_neg hdc] at he
        omega
      · rw [hact e hec] at ae
        simp only [Ghost.starting, up, if_neg hec, if_neg hdc] at he
        exact I.evInj d hdm e hem ad ae he
  case fly =>
    intro d hdm hf
    simp only [submittedWorld, w1, k1, List.mem_append, List.mem_singleton]
    by_cases hdc : d = c
    · subst hdc
      right
      simp [Ghost.starting, up]
    · rw [hact d hdc] at hf
      left
      simp only [Ghost.starting, up, if_neg hdc]
      exact I.fly d hdm hf
  case fly' =>
    intro p hp
    simp only [submittedWorld, w1, k1, List.mem_append, List.mem_singleton] at hp
    rcases hp with hp | rfl
    · obtain ⟨d, hdm, hf, rfl⟩ := I.fly' p hp
      have hdc : d ≠ c := by rintro rfl; rw [hph] at hf; cases hf
      exact ⟨d, hdm, by rw [hact d hdc]; exact hf, by simp [Ghost.starting, up, hdc]⟩
    · exact ⟨c, hc, by simp [Ghost.starting, up], by simp [Ghost.starting, up]⟩
  case flyNodup =>
    simp only [submittedWorld, w1, k1]
    refine List.nodup_append.2 ⟨I.flyNodup, by simp, ?_⟩
    intro x hx y hy
    simp only [List.mem_singleton] at hy
    subst hy
    rintro rfl
    obtain ⟨d, hdm, hf, he⟩ := I.fly' _ hx
    have := I.evLt d hdm (active_of_flying hf)
    simp only [Prod.mk.injEq] at he
    omega
  case unland =>
    intro d hdm hf ht
    simp only [submittedWorld, w1, k1] at ht
    by_cases hdc : d = c
    · subst hdc
      simp only [Ghost.starting, up, if_true] at ht
      exact absurd (I.landLt _ ht) (Nat.lt_irrefl _)
    · rw [hact d hdc] at hf
      simp only [Ghost.starting, up, if_neg hdc] at ht
      exact I.unland d hdm hf ht
  case land =>
    intro d hdm hf
    by_cases hdc : d = c
    · subst hdc; simp [Ghost.starting, up] at hf
    · rw [hact d hdc] at hf
      simp only [Ghost.starting, up, if_neg hdc]
      exact I.land d hdm hf
  case holds =>
    intro d hdm hf
    simp only [submittedWorld, w1, k1]
    by_cases hdc : d = c
    · subst hdc
      simp only [Ghost.starting, up, if_true]
      exact install_install hb _
    · rw [hact d hdc] at hf
      simp only [Ghost.starting, up, if_neg hdc]
      exact holds_congr (I.built' hs hdm (active_of_flying hf)) (hoth d hdm (active_of_flying hf)) (I.holds d hdm hf)
  case said =>
    intro d hdm hf
    simp only [submittedWorld, w1, k1]
    by_cases hdc : d = c
    · subst hdc; simp [Ghost.starting, up] at hf
    · rw [hact d hdc] at hf
      have ad : (g.ph d).active := by rcases hf with h | h <;> rw [h] <;> rfl
      simp only [Ghost.starting, up, if_neg hdc]
      rw [classify_congr (I.built' hs hdm ad) parse (hoth d hdm ad)]
      exact I.said d hdm hf
  case ordNodup => exact I.ordNodup
  case ord =>
    intro d
    by_cases hdc : d = c
    · subst hdc; have := I.ord d; rw [hph] at this; simpa [Ghost.starting, up, Phase.served] using this
    · simpa [Ghost.starting, up, hdc] using I.ord d
  case asks => exact I.asks

/-- The ghost after command `c` is done. -/
def Ghost.finishing (g : Ghost S R) (c : Nat) : Ghost S R := { g with ph := up g.ph c .over }

theorem decoded_ok {cmd : Command Req (Option Bytes) R} {o : Except (Exn (DevErr S)) (Option (Option Bytes))} {v}
    (h : decoded cmd o = .ok v) : ∃ r, v = some (.obj r) := by
  cases o with
  | error e => cases h
  | ok d =>
    simp only [decoded] at h
    split at h
    · cases h; exact ⟨_, rfl⟩
    · cases h

theorem Inv.finish (hs : Setup b alloc cmd cmds mq) (I : Inv b parse dev alloc cmd cmds i0 mq k0 st g) {c} (hc : c ∈ cmds) (hph : g.ph c = .picked)
    {r} (hr : g.ans c = .ok (some (.obj r))) :
    ∃ w, AsyncLoop (prog (R := R) b parse dev alloc c)
        ⟨waiting (g.h c) (g.pk c) (cmd c), .send (.num (blockSize b)), some (.tok (g.ev c)), st.world⟩ (.done (some (.plain (.obj r))) w) ∧
      Inv b parse dev alloc cmd cmds i0 mq k0
        ⟨[], Dict.erase st.coroutines c, Dict.set st.results c (some (.plain (.obj r))), w⟩ (g.finishing c) := by
  have ac := active_of_picked hph
  have ht := I.picked c hc hph
  have hlen : cmds.length ≤ g.n := by
    obtain ⟨-, h | h⟩ := I.next ht
    · rw [h.1] at hph; cases hph
    · exact h.2.2
  have hb := I.built' hs hc ac
  have hp := I.pend c hc ac
  obtain ⟨args, hrun⟩ := finish_done (io := ioDevice b dev) (alloc := alloc) (cmd := cmd c) (v := .num (blockSize b)) (r := some (.tok (g.ev c)))
    st.world I.incoming (I.box c hc ac) hb.id hp
    ((I.said c hc (.inr hph)).trans hr)
  have hact : ∀ d, d ≠ c → (g.finishing c).ph d = g.ph d := by
    intro d hd; simp [Ghost.finishing, up, hd]
  have hself : (g.finishing c).ph c = .over := by simp [Ghost.finishing, up]
  refine ⟨_, hrun, ?_⟩
  constructor
  case todo => exact .inl (List.drop_eq_nil_iff.2 hlen).symm
  case nle => exact I.nle
  case nle' => exact I.nle'
  case ready =>
    intro d hd
    by_cases hdc : d = c
    · subst hdc
      have := I.ready d hd
      simp only [hph, reduceCtorEq, false_iff] at this
      simpa [Ghost.finishing, up] using this
    · simpa [Ghost.finishing, up, hdc] using I.ready d hd
  case picked =>
    intro d hd
    by_cases hdc : d = c
    · subst hdc; rw [hself]; intro h; cases h
    · intro h
      rw [hact d hdc] at h
      have := I.picked d hd h
      rw [ht] at this
      simp only [List.cons.injEq] at this
      exact absurd this.1.symm hdc
  case coNodup => exact I.coNodup.sublist ((Dict.erase_keys_sublist _ _).map _)
  case co =>
    intro d hd
    rw [Reactor.dict_get_erase _ _ _ I.coNodup]
    by_cases hdc : d = c
    · subst hdc
      simp [coOf, hself]
    · rw [if_neg (fun h => hdc h.symm), I.co d hd]
      simp [Ghost.finishing, up, hdc, coOf]
  case co' =>
    intro d hd
    rw [Reactor.dict_get_erase _ _ _ I.coNodup, if_neg (by rintro rfl; exact hd hc)]
    exact I.co' d hd
  case res =>
    intro d hd
    rw [Reactor.dict_get_set]
    by_cases hdc : d = c
    · subst hdc
      intro _
      exact ⟨r, hr, by simp⟩
    · intro h
      rw [hact d hdc] at h
      rw [if_neg (fun h => hdc h.symm)]
      exact I.res d hd h
  case maxq => exact I.maxq
  case index => exact I.index
  case pNodup => exact I.pNodup.sublist ((Dict.erase_keys_sublist _ _).map _)
  case pend =>
    intro d hd ad
    by_cases hdc : d = c
    · subst hdc; rw [hself] at ad; cases ad
    · rw [hact d hdc] at ad
      simp only [processedWorld]
      rw [Reactor.dict_get_erase _ _ _ I.pNodup, if_neg (fun he => I.pk_ne hd hc ad ac hdc he.symm)]
      exact I.pend d hd ad
  case pend' =>
    intro i x h
    simp only [processedWorld] at h
    rw [Reactor.dict_get_erase _ _ _ I.pNodup] at h
    by_cases hi : g.pk c = i
    · rw [if_pos hi] at h; cases h
    · rw [if_neg hi] at h
      obtain ⟨d, hd, ad, he⟩ := I.pend' i x h
      have hdc : d ≠ c := by rintro rfl; exact hi he
      exact ⟨d, hd, by rw [hact d hdc]; exact ad, he⟩
  case pLen => exact Nat.le_trans (Dict.length_erase_le _ _) I.pLen
  case pFull => intro h; exact absurd (List.drop_eq_nil_iff.2 hlen) h
  case pk =>
    intro d hd ad
    by_cases hdc : d = c
    · subst hdc; rw [hself] at ad; cases ad
    · rw [hact d hdc] at ad; exact I.pk d hd ad
  case box =>
    intro d hd ad
    by_cases hdc : d = c
    · subst hdc; rw [hself] at ad; cases ad
    · rw [hact d hdc] at ad
      simp only [processedWorld, setBox, Option.some.injEq, if_neg hdc]
      exact I.box d hd ad
  case incoming => exact I.incoming
  case built =>
    intro d hd ad
    by_cases hdc : d = c
    · subst hdc; rw [hself] at ad; cases ad
    · rw [hact d hdc] at ad; exact I.built d hd ad
  case evLt =>
    intro d hd ad
    by_cases hdc : d = c
    · subst hdc; rw [hself] at ad; cases ad
    · rw [hact d hdc] at ad; exact I.evLt d hd ad
  case landLt => exact I.landLt
  case evInj =>
    intro d hd e he ad ae
    by_cases hdc : d = c
    · subst hdc; rw [hself] at ad; cases ad
    · by_cases hec : e = c
      · subst hec; rw [hself] at ae; cases ae
      · rw [hact d hdc] at ad; rw [hact e hec] at ae; exact I.evInj d hd e he ad ae
  case fly =>
    intro d hd hf
    by_cases hdc : d = c
    · subst hdc; rw [hself] at hf; cases hf
    · rw [hact d hdc] at hf; exact I.fly d hd hf
  case fly' =>
    intro p hp
    obtain ⟨d, hd, hf, rfl⟩ := I.fly' p hp
    have hdc : d ≠ c := by rintro rfl; rw [hph] at hf; cases hf
    exact ⟨d, hd, by rw [hact d hdc]; exact hf, rfl⟩
  case flyNodup => exact I.flyNodup
  case unland =>
    intro d hd hf
    by_cases hdc : d = c
    · subst hdc; rw [hself] at hf; cases hf
    · rw [hact d hdc] at hf; exact I.unland d hd hf
  case land =>
    intro d hd hf
    by_cases hdc : d = c
    · subst hdc; rw [hself] at hf; cases hf
    · rw [hact d hdc] at hf; exact I.land d hd hf
  case holds =>
    intro d hd hf
    by_cases hdc : d = c
    · subst hdc; rw [hself] at hf; cases hf
    · rw [hact d hdc] at hf; exact I.holds d hd hf
  case said =>
    intro d hd hf
    by_cases hdc : d = c
    · subst hdc; rw [hself] at hf; simp at hf
    · rw [hact d hdc] at hf; exact I.said d hd hf
  case ordNodup => exact I.ordNodup
  case ord =>
    intro d
    by_cases hdc : d = c
    · subst hdc; have := I.ord d; rw [hph] at this; rw [hself]; exact this
    · rw [hact d hdc]; exact I.ord d
  case asks => exact I.asks


/-! ## The first state -/

theorem foldl_set_get {α : Type} (v : Nat → α) (cs : List Nat) (d : Dict α) (c : Nat) :
    Dict.get (cs.foldl (fun d c => Dict.set d c (v c)) d) c = if c ∈ cs then some (v c) else Dict.get d c := by
  induction cs generalizing d with
  | nil => simp
  | cons x cs ih =>
    rw [List.foldl_cons, ih, Reactor.dict_get_set]
    by_cases h : c ∈ cs
    · simp [h]
    · by_cases hx : x = c
      · subst hx; simp [h]
      · simp [h, hx, Ne.symm hx]

theorem foldl_set_nodup {α : Type} (v : Nat → α) (cs : List Nat) (d : Dict α) (h : (Dict.keys d).Nodup) :
    (Dict.keys (cs.foldl (fun d c => Dict.set d c (v c)) d)).Nodup := by
  induction cs generalizing d with
  | nil => exact h
  | cons x cs ih => exact ih _ (Reactor.dict_nodup_set _ _ _ h)

theorem Inv.init (w : Wd S δ) (h1 : w.st.pending = []) (h2 : w.st.index < w.st.maxq) (h3 : w.os.incoming = [])
    (h4 : w.os.world.kernel.flying = []) (h5 : ∀ t ∈ w.os.world.kernel.landed.map Prod.fst, t < w.os.events) :
    ∃ g, Inv b parse dev alloc cmd cmds w.st.index w.st.maxq w.os.world.kernel.dev
      (ReactorShared.initial Val.none (fun c => Frame.execute (cmd c)) cmds w) g ∧ ∀ c, g.ph c = .ready := by
  let g : Ghost S R :=
    { n := 0, ph := fun _ => .ready, pk := fun _ => 0, ev := fun _ => 0, h := fun _ => ⟨0, 0, [], none⟩, q := fun _ => .read [] 0,
      ans := fun _ => .ok none, order := [] }
  refine ⟨g, ?_, fun _ => rfl⟩
  constructor
  case todo => exact .inl rfl
  case nle => exact Nat.zero_le _
  case nle' => exact Nat.zero_le _
  case ready => intro c hc; simpa [g] using hc
  case picked => intro c hc h; cases h
  case coNodup => exact foldl_set_nodup _ _ _ List.nodup_nil
  case co =>
    intro c hc
    simp only [ReactorShared.initial]
    rw [foldl_set_get (fun c => _), if_pos hc]
    rfl
  case co' =>
    intro c hc
    simp only [ReactorShared.initial]
    rw [foldl_set_get (fun c => _), if_neg hc]
    rfl
  case res => intro c hc h; cases h
  case maxq => rfl
  case index => exact (Nat.mod_eq_of_lt h2).symm
  case pNodup => simp only [ReactorShared.initial]; rw [h1]; exact List.nodup_nil
  case pend => intro c hc h; cases h
  case pend' => intro i x h; simp only [ReactorShared.initial] at h; rw [h1] at h; cases h
  case pLen => simp only [ReactorShared.initial]; rw [h1]; exact Nat.le_refl _
  case pFull => intro _; simp only [ReactorShared.initial]; rw [h1]; rfl
  case pk => intro c hc h; cases h
  case box => intro c hc h; cases h
  case incoming => exact h3
  case built => intro c hc h; cases h
  case evLt => intro c hc h; cases h
  case landLt => exact h5
  case evInj => intro c hc d hd h; cases h
  case fly => intro c hc h; cases h
  case fly' => intro p hp; simp only [ReactorShared.initial] at hp; rw [h4] at hp; cases hp
  case flyNodup => simp only [ReactorShared.initial]; rw [h4]; exact List.nodup_nil
  case unland => intro c hc h; cases h
  case land => intro c hc h; cases h
  case holds => intro c hc h; cases h
  case said => intro c hc h; rcases h with h | h <;> cases h
  case ordNodup => exact List.nodup_nil
  case ord => intro c; simp [g, Phase.served]
  case asks => rfl

/-! ## Every step -/

def total (cmds : List Nat) (g : Ghost S R) : Nat := (cmds.map fun c => (g.ph c).weight).sum

theorem sum_up (cs : List Nat) (hn : cs.Nodup) (ph : Nat → Phase) (c : Nat) (p : Phase) (hc : c ∈ cs) (hw : p.weight + 1 = (ph c).weight) :
    (cs.map fun d => (up ph c p d).weight).sum + 1 = (cs.map fun d => (ph d).weight).sum := by
  induction cs with
  | nil => cases hc
  | cons x cs ih =>
    have hnx := List.nodup_cons.1 hn
    simp only [List.map_cons, List.sum_cons]
    by_cases hx : x = c
    · subst hx
      have : (cs.map fun d => (up ph x p d).weight) = cs.map fun d => (ph d).weight := by
        apply List.map_congr_left
        intro d hd
        rw [up_ne]
        rintro rfl
        exact hnx.1 hd
      rw [this, up_self]
      omega
    · have hc' : c ∈ cs := by
        rcases List.mem_cons.1 hc with h | h
        · exact absurd h.symm hx
        · exact h
      have := ih hnx.2 hc'
      rw [up_ne _ _ hx]
      omega

theorem Inv.step (hs : Setup b alloc cmd cmds mq) (I : Inv b parse dev alloc cmd cmds i0 mq k0 st g) {st'}
    (h : Step (prog (R := R) b parse dev alloc) (ioKernel b dev) st st') :
    ∃ g', Inv b parse dev alloc cmd cmds i0 mq k0 st' g' ∧ total cmds g' + 1 = total cmds g := by
  cases h with
  | kernel ha =>
    obtain ⟨c, hc, hph, a, I'⟩ := I.kernel hs ha
    exact ⟨_, I', sum_up _ hs.nodup _ _ _ hc (by rw [hph]; rfl)⟩
  | event ht hco hres hsig haw =>
    rename_i c co t s i
    obtain ⟨hph, rfl, rfl⟩ := I.signalled ht hco hres hsig
    have hc := (I.mem hco).1
    rw [I.await hc hph] at haw
    cases haw
    exact ⟨_, I.event hc hph ht, sum_up _ hs.nodup _ _ _ hc (by rw [hph]; rfl)⟩
  | done ht hco hl =>
    rename_i c cs co r s
    obtain ⟨hc, ⟨hph, hd, hn⟩ | ⟨hph, rfl, hn⟩⟩ := I.next ht
    · have hc' := (I.mem hco).2
      simp only [coOf, hph, Option.some.injEq] at hc'
      subst hc'
      exfalso
      simp only [Co.cfg] at hl
      cases hq : (cmd c).request with
      | error e => have := Reactor.asyncLoop_det hl (unbuildable hq st.world); cases this
      | ok q =>
        by_cases hlt : g.n < mq
        · obtain ⟨h, w, hrun, -⟩ := I.start hs hd hq hlt
          have := Reactor.asyncLoop_det hl hrun; cases this
        · obtain ⟨w, hrun, -⟩ := start_full (a := Win32.W b) (parse := parse) (io := ioDevice b dev) (alloc := alloc) (own := some c) hq st.world
            (by rw [I.maxq, I.pFull (by rw [hd]; simp)]; omega)
          have := Reactor.asyncLoop_det hl hrun; cases this
    · have hc' := (I.mem hco).2
      simp only [coOf, hph, Option.some.injEq] at hc'
      subst hc'
      simp only [Co.cfg] at hl
      have ac := active_of_picked hph
      cases hans : g.ans c with
      | error e =>
        obtain ⟨w, hrun, -⟩ := finish_raised (io := ioDevice b dev) (alloc := alloc) (cmd := cmd c) (v := .num (blockSize b)) (r := some (.tok (g.ev c)))
          st.world I.incoming (I.box c hc ac) (I.built' hs hc ac).id (I.pend c hc ac) ((I.said c hc (.inr hph)).trans hans)
        have := Reactor.asyncLoop_det hl hrun; cases this
      | ok v =>
        obtain ⟨r', rfl⟩ := decoded_ok ((I.said c hc (.inr hph)).trans hans)
        obtain ⟨w, hrun, I'⟩ := I.finish hs hc hph hans
        have := Reactor.asyncLoop_det hl hrun; cases this
        exact ⟨_, I', sum_up _ hs.nodup _ _ _ hc (by rw [hph]; rfl)⟩
  | blocked ht hco hl =>
    rename_i c cs co t cfg
    obtain ⟨hc, ⟨hph, hd, hn⟩ | ⟨hph, rfl, hn⟩⟩ := I.next ht
    · have hc' := (I.mem hco).2
      simp only [coOf, hph, Option.some.injEq] at hc'
      subst hc'
      simp only [Co.cfg] at hl
      cases hq : (cmd c).request with
      | error e => have := Reactor.asyncLoop_det hl (unbuildable hq st.world); cases this
      | ok q =>
        by_cases hlt : g.n < mq
        · obtain ⟨h, w, hrun, I'⟩ := I.start hs hd hq hlt
          have := Reactor.asyncLoop_det hl hrun; cases this
          exact ⟨_, I', sum_up _ hs.nodup _ _ _ hc (by rw [hph]; rfl)⟩
        · obtain ⟨w, hrun, -⟩ := start_full (a := Win32.W b) (parse := parse) (io := ioDevice b dev) (alloc := alloc) (own := some c) hq st.world
            (by rw [I.maxq, I.pFull (by rw [hd]; simp)]; omega)
          have := Reactor.asyncLoop_det hl hrun; cases this
    · have hc' := (I.mem hco).2
      simp only [coOf, hph, Option.some.injEq] at hc'
      subst hc'
      exfalso
      simp only [Co.cfg] at hl
      have ac := active_of_picked hph
      cases hans : g.ans c with
      | error e =>
        obtain ⟨w, hrun, -⟩ := finish_raised (io := ioDevice b dev) (alloc := alloc) (cmd := cmd c) (v := .num (blockSize b)) (r := some (.tok (g.ev c)))
          st.world I.incoming (I.box c hc ac) (I.built' hs hc ac).id (I.pend c hc ac) ((I.said c hc (.inr hph)).trans hans)
        have := Reactor.asyncLoop_det hl hrun; cases this
      | ok v =>
        obtain ⟨r', rfl⟩ := decoded_ok ((I.said c hc (.inr hph)).trans hans)
        obtain ⟨w, hrun, -⟩ := I.finish hs hc hph hans
        have := Reactor.asyncLoop_det hl hrun; cases this

/-- A state from which no exception but a failed wait can come has a next state, or `wait_for` returns. -/
theorem Inv.progress (hs : Setup b alloc cmd cmds mq) (I : Inv b parse dev alloc cmd cmds i0 mq k0 st g) (rs) (hrs : rs = cmds.map (Dict.get st.results)) :
    Returns cmds st rs ∨ (∃ st', Step (prog (R := R) b parse dev alloc) (ioKernel b dev) st st') ∨
      ∃ e s, Raises (prog (R := R) b parse dev alloc) { ioKernel b dev with waitRaises := fun _ _ => False } st e s := by
  cases ht : st.todo with
  | cons c cs =>
    right
    obtain ⟨hc, ⟨hph, hd, hn⟩ | ⟨hph, rfl, hn⟩⟩ := I.next ht
    · have hco := I.co c hc
      simp only [coOf, hph] at hco
      cases hq : (cmd c).request with
      | error e => exact .inr ⟨_, _, .command ht hco (unbuildable hq st.world)⟩
      | ok q =>
        by_cases hlt : g.n < mq
        · obtain ⟨h, w, hrun, -⟩ := I.start hs hd hq hlt
          exact .inl ⟨_, .blocked ht hco hrun⟩
        · obtain ⟨w, hrun, -⟩ := start_full (a := Win32.W b) (parse := parse) (io := ioDevice b dev) (alloc := alloc) (own := some c) hq st.world
            (by rw [I.maxq, I.pFull (by rw [hd]; simp)]; omega)
          exact .inr ⟨_, _, .command ht hco hrun⟩
    · have hco := I.co c hc
      simp only [coOf, hph] at hco
      have ac := active_of_picked hph
      cases hans : g.ans c with
      | error e =>
        obtain ⟨w, hrun, -⟩ := finish_raised (io := ioDevice b dev) (alloc := alloc) (cmd := cmd c) (v := .num (blockSize b)) (r := some (.tok (g.ev c)))
          st.world I.incoming (I.box c hc ac) (I.built' hs hc ac).id (I.pend c hc ac) ((I.said c hc (.inr hph)).trans hans)
        exact .inr ⟨_, _, .command ht hco hrun⟩
      | ok v =>
        obtain ⟨r', rfl⟩ := decoded_ok ((I.said c hc (.inr hph)).trans hans)
        obtain ⟨w, hrun, -⟩ := I.finish hs hc hph hans
        exact .inl ⟨_, .done ht hco hrun⟩
  | nil =>
    by_cases he : st.coroutines = []
    · exact .inl ⟨ht, he, hrs⟩
    · right; left
      have : ∃ c co, Dict.get st.coroutines c = some co := by
        cases hcs : st.coroutines with
        | nil => exact absurd hcs he
        | cons p l => exact ⟨p.1, p.2, by simp [Dict.get]⟩
      obtain ⟨c, co, hg⟩ := this
      obtain ⟨hc, hco⟩ := I.mem hg
      have hdrop : cmds.drop g.n = [] := by
        rcases I.todo with h | ⟨hl, -⟩
        · rw [← h, ht]
        · exact List.drop_eq_nil_iff.2 hl
      cases hph : g.ph c with
      | ready => have := (I.ready c hc).1 hph; rw [hdrop] at this; cases this
      | picked => have := I.picked c hc hph; rw [ht] at this; cases this
      | over => simp only [coOf, hph, reduceCtorEq] at hco
      | flying => exact ⟨_, .kernel (w := _) ⟨_, I.fly c hc hph, rfl⟩⟩
      | landed =>
        simp only [coOf, hph, Option.some.injEq] at hco
        subst hco
        exact ⟨_, .event ht hg rfl (I.land c hc hph) (I.await hc hph)⟩

end Verif.AsyncInv
