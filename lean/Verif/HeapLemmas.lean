import Verif.Heap
set_option linter.unusedSimpArgs false
set_option linter.unusedSectionVars false
/-! # Lemmas for C87: what the driver writes stays within the buffers of pending requests -/

namespace Verif.Heap
open Verif.Executer Verif.Platform Verif.Platform.Linux Verif.Spec Verif.Spec.Heap
open Verif.Reactor (dict_get_set dict_get_erase dict_keys_erase)

variable {S δ : Type}

theorem _root_.Verif.Spec.Heap.Apart.symm {x y : Nat × Nat} (h : Apart x y) : Apart y x := fun b hb => h b ⟨hb.2.2.1, hb.2.2.2, hb.1, hb.2.1⟩

theorem _root_.Verif.Spec.Heap.Apart.sub {x y : Nat × Nat} (h : Apart x y) {n : Nat} (hn : n ≤ y.2) : Apart x (y.1, n) :=
  fun b hb => h b ⟨hb.1, hb.2.1, hb.2.2.1, by have := hb.2.2.2; simp only at this; omega⟩

theorem apart_empty (x : Nat × Nat) (a : Nat) : Apart x (a, 0) := fun b hb => by have := hb.2.2; simp only at this; omega

theorem apart_of_clear {x y : Nat × Nat} (h : Clear x y) : Apart x y := fun b hb => by unfold Clear at h; omega

/-- Writing elsewhere. -/
theorem read_write {r : Nat × Nat} {x : Nat} {bs : Bytes} (h : Apart r (x, bs.length)) (m : Mem) :
    readMem (writeMem m x bs) r.1 r.2 = readMem m r.1 r.2 := by
  apply readMem_congr
  intro y h1 h2
  simp only [writeMem]
  rw [if_neg]
  rintro ⟨h3, h4⟩
  exact h y ⟨h1, h2, h3, h4⟩

/-- Building a request object elsewhere. -/
theorem read_install {r : Nat × Nat} {h : Handle} (hr : ∀ p ∈ places h, Apart r p) (m : Mem) :
    readMem (h.install m) r.1 r.2 = readMem m r.1 r.2 := by
  unfold Handle.install places at *
  dsimp only
  rw [read_write (hr _ (by simp))]
  cases hd : h.data with
  | none => simp only; rw [read_write (hr _ (by simp)), read_write (hr _ (by simp))]
  | some p =>
    obtain ⟨x, d⟩ := p
    simp only
    rw [read_write (hr (x, d.length) (by simp [hd])), read_write (hr _ (by simp)), read_write (hr _ (by simp))]

/-- The buffers of a command are as they were if their memory is. -/
theorem held_congr {h : Handle} {al : Alloc} {c : Req} {m m' : Mem} {d : Bytes} (hh : Held h al c m d)
    (hr : ∀ r ∈ regions al c 88, readMem m' r.1 r.2 = readMem m r.1 r.2) : Held h al c m' d := by
  simp only [regions, List.mem_cons, List.not_mem_nil, or_false, forall_eq_or_imp, forall_eq] at hr
  obtain ⟨h1, h2, h3, h4⟩ := hr
  refine ⟨h1 ▸ hh.block, h2 ▸ hh.sense, h3 ▸ hh.cmd, ?_, ?_⟩
  · intro cdb n hc hn
    subst hc
    exact h4.trans (hh.data.1 cdb n rfl hn)
  · intro cdb b hc
    subst hc
    exact h4.trans (hh.data.2 cdb b rfl)

/-- The memory of a request object is what `malloc` handed out for it. -/
theorem places_regions {l : Bool} {al : Alloc} {i : Nat} {c : Req} {t : Int} :
    ∀ p ∈ places (create (lp64 l) al i c t), p ∈ regions al c 88 := by
  intro p hp
  simp only [places, create_length, create_blockAddr, create_senseAddr, create_senseInit, create_cmdAddr, create_cmd, create_data, List.mem_append,
    List.mem_cons, List.not_mem_nil, or_false] at hp
  simp only [regions, List.mem_cons, List.not_mem_nil, or_false]
  rcases hp with (rfl | rfl | rfl) | hp
  · exact .inl rfl
  · exact .inr (.inl rfl)
  · exact .inr (.inr (.inl rfl))
  · cases c with
    | read cdb n =>
      simp only [bufOf] at hp
      split at hp
      · rename_i x d hx
        split at hx
        · simp only [Option.some.injEq, Prod.mk.injEq] at hx
          obtain ⟨rfl, rfl⟩ := hx
          simp only [zeros_length, List.mem_cons, List.not_mem_nil, or_false] at hp
          exact .inr (.inr (.inr hp))
        · cases hx
      · cases hp
    | write cdb d =>
      simp only [bufOf, List.mem_cons, List.not_mem_nil, or_false] at hp
      exact .inr (.inr (.inr hp))

/-- And what `malloc` handed out for it is its memory, or empty. -/
theorem regions_places {l : Bool} {al : Alloc} {i : Nat} {c : Req} {t : Int} :
    ∀ r ∈ regions al c 88, r ∈ places (create (lp64 l) al i c t) ∨ r.2 = 0 := by
  intro r hr
  simp only [regions, List.mem_cons, List.not_mem_nil, or_false] at hr
  simp only [places, create_length, create_blockAddr, create_senseAddr, create_senseInit, create_cmdAddr, create_cmd, create_data, List.mem_append,
    List.mem_cons, List.not_mem_nil, or_false]
  rcases hr with rfl | rfl | rfl | rfl
  · exact .inl (.inl (.inl rfl))
  · exact .inl (.inl (.inr (.inl rfl)))
  · exact .inl (.inl (.inr (.inr rfl)))
  · cases c with
    | read cdb n =>
      by_cases hn : n > 0
      · left; right; simp [bufOf, hn, dataSize]
      · right; simp only [dataSize]; omega
    | write cdb d => left; right; simp [bufOf, dataSize]

theorem mem_of_get {α : Type} {d : Dict α} {k : Nat} {v : α} (h : Dict.get d k = some v) : (k, v) ∈ d := by
  induction d with
  | nil => cases h
  | cons p r ih =>
    obtain ⟨k', v'⟩ := p
    simp only [Dict.get] at h
    split at h
    · rename_i hk
      subst hk; cases h; exact List.mem_cons_self
    · exact List.mem_cons_of_mem _ (ih h)

/-! ## The invariant -/

/-- The outstanding commands: number, command, memory, contents of the data buffer. -/
def opens (w : List (Nat × Req × Alloc)) (d : List (Nat × Req × Alloc × Answer × Bool)) : List (Nat × Req × Alloc × Bytes) :=
  d.map (fun e => (e.1, e.2.1, e.2.2.1, if e.2.2.2.2 then filled e.2.1 e.2.2.2.1 else initial e.2.1)) ++
    w.map (fun e => (e.1, e.2.1, e.2.2, initial e.2.1))

section
variable (l : Bool) (parse : Bytes → Py (Option S)) (dev : Device δ) (tmo : Int) (limit : Nat)

/-- The request object of the `t`-th command. -/
def made (t : Nat) (c : Req) (al : Alloc) : Handle := create (lp64 l) al (t % limit) c tmo

/-- What holds of an outstanding command. -/
structure OpenOk (pend : Dict (Handle × Option Nat)) (m : Mem) (e : Nat × Req × Alloc × Bytes) : Prop where
  cdb : e.2.1.cdb.length ≤ 255
  size : dataSize e.2.1 < 2 ^ 32
  sep : Separate 64 (regions e.2.2.1 e.2.1 88)
  get : Dict.get pend (e.1 % limit) = some (made l tmo limit e.1 e.2.1 e.2.2.1, some e.1)
  held : Held (made l tmo limit e.1 e.2.1 e.2.2.1) e.2.2.1 e.2.1 m e.2.2.2

/-- The process agrees with the ideal queue, and the memory is divided up as it should be. -/
structure Inv (a : Queue.State δ (Told S)) (w : List (Nat × Req × Alloc)) (d : List (Nat × Req × Alloc × Answer × Bool)) (s : Proc δ S) : Prop where
  next : s.live.next = a.next
  maxq : s.live.ex.maxq = limit
  index : s.live.ex.index = a.next % limit
  log : s.live.log = a.log
  dev : s.live.world.kernel.dev = a.dev
  waiting : a.waiting = w.map (fun e => (e.1, e.2.1))
  done : a.done = d.map (fun e => (e.1, e.2.1, e.2.2.2.1))
  kwaiting : s.live.world.kernel.waiting = w.map (fun e => ((made l tmo limit e.1 e.2.1 e.2.2).block, asked e.2.1))
  kdone : s.live.world.kernel.done = d.map (fun e => ((made l tmo limit e.1 e.2.1 e.2.2.1).block, asked e.2.1, e.2.2.2.1, e.2.2.2.2))
  slots : ((opens w d).map (fun e => e.1 % limit)).Nodup
  keys : ((opens w d).map (fun e => e.1 % limit)).Perm (Dict.keys s.live.ex.pending)
  each : ∀ e ∈ opens w d, OpenOk l tmo limit s.live.ex.pending s.live.world.mem e
  apart : ∀ e ∈ opens w d, ∀ f ∈ opens w d, e.1 % limit ≠ f.1 % limit →
    ∀ x ∈ regions e.2.2.1 e.2.1 88, ∀ y ∈ regions f.2.2.1 f.2.1 88, Apart x y
  objs : ∀ o ∈ s.objs, readMem s.live.world.mem o.addr o.bytes.length = o.bytes ∧
    ∀ e ∈ opens w d, ∀ x ∈ regions e.2.2.1 e.2.1 88, Apart (o.addr, o.bytes.length) x
  le : (opens w d).length ≤ limit
  parses : ∀ e ∈ d, e.2.2.2.1.status.toNat / 2 % 2 = 1 → ∃ sn, parse (padded 255 e.2.2.2.1.sense) = .ok sn

theorem tickets_eq {a : Queue.State δ (Told S)} {w d} {s : Proc δ S} (h : Inv l parse tmo limit a w d s) :
    a.tickets = (opens w d).map Prod.fst := by
  simp only [Queue.State.tickets, h.done, h.waiting, opens, List.map_append, List.map_map]
  rfl

theorem inv_init (m : Mem) (k : δ) : Inv l parse tmo limit (Queue.State.init k) [] [] (Proc.init limit m k) := by
  refine ⟨rfl, rfl, ?_, rfl, rfl, rfl, rfl, rfl, rfl, ?_, ?_, ?_, ?_, ?_, ?_, ?_⟩
  · simp [Proc.init, Live.init, St.init, Queue.State.init]
  · simp [opens]
  · simp [opens, Proc.init, Live.init, St.init, Dict.keys]
  · intro e he; simp [opens] at he
  · intro e he; simp [opens] at he
  · intro o ho; simp [Proc.init] at ho
  · simp [opens]
  · intro e he; simp at he

variable {l parse dev tmo limit}

theorem OpenOk.fields (hl : limit ≤ 2 ^ 31) (ht : 0 ≤ tmo ∧ tmo < 2 ^ 32) (hpos : 0 < limit) {pend : Dict (Handle × Option Nat)} {m : Mem} {t c al b}
    (h : OpenOk l tmo limit pend m (t, c, al, b)) : BlockFields l al (t % limit) c tmo (made l tmo limit t c al).block := by
  have hlt := Nat.mod_lt t hpos
  have hb := h.sep.2
  simp only [regions, List.mem_cons, List.not_mem_nil, or_false, forall_eq_or_imp, forall_eq] at hb
  obtain ⟨-, hb2, hb3, hb4⟩ := hb
  exact create_fields l _ _ c tmo (by omega) h.cdb h.size ht hb2 hb3 hb4

/-- The memory of an outstanding command is in use. -/
theorem OpenOk.used {s : Proc δ S} {e : Nat × Req × Alloc × Bytes} (h : OpenOk l tmo limit s.live.ex.pending s.live.world.mem e) :
    ∀ p ∈ places (made l tmo limit e.1 e.2.1 e.2.2.1), p ∈ s.used := by
  intro p hp
  simp only [Proc.used, List.mem_append, List.mem_flatMap]
  exact .inl ⟨_, mem_of_get h.get, hp⟩

/-- What is apart from the memory in use is apart from that of an outstanding command. -/
theorem OpenOk.apart {s : Proc δ S} {e : Nat × Req × Alloc × Bytes} (h : OpenOk l tmo limit s.live.ex.pending s.live.world.mem e)
    {r : Nat × Nat} (hr : ∀ u ∈ s.used, Apart r u) : ∀ x ∈ regions e.2.2.1 e.2.1 88, Apart r x := by
  intro x hx
  rcases regions_places (l := l) (i := e.1 % limit) (t := tmo) x hx with hp | h0
  · exact hr x (h.used x hp)
  · obtain ⟨x1, x2⟩ := x
    simp only at h0
    subst h0
    exact apart_empty _ _

/-- The program makes an object. -/
theorem inv_make {a : Queue.State δ (Told S)} {w d} {s : Proc δ S} (room : Nat) (h : Inv l parse tmo limit a w d s) (x : Obj)
    (hx : Fresh s (.make x)) : Inv l parse tmo limit a w d (Proc.step l parse dev tmo room s (.make x)) := by
  have hf : ∀ e ∈ opens w d, ∀ r ∈ regions e.2.2.1 e.2.1 88, Apart (x.addr, x.bytes.length) r :=
    fun e he r hr => (h.each e he).apart (s := s) hx r hr
  refine ⟨h.next, h.maxq, h.index, h.log, h.dev, h.waiting, h.done, h.kwaiting, h.kdone, h.slots, h.keys, ?_, h.apart, ?_, h.le, h.parses⟩
  · intro e he
    have ho := h.each e he
    refine ⟨ho.cdb, ho.size, ho.sep, ho.get, held_congr ho.held ?_⟩
    intro r hr
    exact read_write (hf e he r hr).symm _
  · intro o ho
    simp only [Proc.step, objects, List.mem_append, List.mem_singleton] at ho
    rcases ho with ho | rfl
    · refine ⟨?_, (h.objs o ho).2⟩
      have hu : (o.addr, o.bytes.length) ∈ s.used := by
        simp only [Proc.used, List.mem_append, List.mem_map]
        exact .inr ⟨o, ho, rfl⟩
      have := read_write (Apart.symm (hx _ hu)) s.live.world.mem
      simp only at this
      simp only [Proc.step]
      rw [this]
      exact (h.objs o ho).1
    · exact ⟨readMem_writeMem_same _ _ _, fun e he r hr => hf e he r hr⟩

/-- The program gives up an object. -/
theorem inv_drop {a : Queue.State δ (Told S)} {w d} {s : Proc δ S} (room : Nat) (h : Inv l parse tmo limit a w d s) (i : Nat) :
    Inv l parse tmo limit a w d (Proc.step l parse dev tmo room s (.drop i)) :=
  ⟨h.next, h.maxq, h.index, h.log, h.dev, h.waiting, h.done, h.kwaiting, h.kdone, h.slots, h.keys, h.each, h.apart,
    fun o ho => h.objs o (List.mem_of_mem_eraseIdx ho), h.le, h.parses⟩

variable (hl : limit ≤ 2 ^ 31) (ht : 0 ≤ tmo ∧ tmo < 2 ^ 32)
include hl ht

/-- A send. -/
theorem inv_send {a : Queue.State δ (Told S)} {w d} {s : Proc δ S} (room : Nat) (hr : limit ≤ room)
    (h : Inv l parse tmo limit a w d s) (c : Req) (al : Alloc) (hfit : Fits (.send c al false)) (hx : Fresh s (.send c al false))
    (hfresh : a.tickets.length < limit → ∀ t ∈ a.tickets, t % limit ≠ a.next % limit) :
    ∃ w', Inv l parse tmo limit (Queue.step dev limit (hear parse) a (.send c)) w' d (Proc.step l parse dev tmo room s (.send c al false)) := by
  have htk := tickets_eq l parse tmo limit h
  obtain ⟨hsep, hused⟩ := hx
  have hlen : s.live.ex.pending.length = a.tickets.length := by
    have := h.keys.length_eq
    simp only [Dict.keys, List.length_map] at this
    rw [htk, List.length_map]; exact this.symm
  by_cases hfull : limit ≤ a.tickets.length
  · have hs : Proc.step l parse dev tmo room s (.send c al false) = { s with live := { s.live with log := s.live.log ++ [.refused] } } := by
      simp only [Proc.step, Executer.send, nextPacketIndex, hlen, h.maxq, ge_iff_le, hfull, if_true]
    have ha : Queue.step dev limit (hear parse) a (.send c) = { a with log := a.log ++ [.refused] } := by
      simp only [Queue.step, hfull, if_true]
    rw [hs, ha]
    exact ⟨w, h.next, h.maxq, h.index, by simp only [h.log], h.dev, h.waiting, h.done, h.kwaiting, h.kdone, h.slots, h.keys, h.each, h.apart, h.objs,
      h.le, h.parses⟩
  · have hpos : 0 < limit := by omega
    have hfresh := hfresh (by omega)
    have hnk : a.next % limit ∉ Dict.keys s.live.ex.pending := by
      intro hk
      have := h.keys.mem_iff.2 hk
      obtain ⟨e, he, heq⟩ := List.mem_map.1 this
      exact hfresh e.1 (by rw [htk]; exact List.mem_map_of_mem he) heq
    have hheld := held_install l al (a.next % limit) c tmo s.live.world.mem hsep
    have hbf : BlockFields l al (a.next % limit) c tmo (made l tmo limit a.next c al).block := by
      have hlt := Nat.mod_lt a.next hpos
      have hb := hsep.2
      simp only [regions, List.mem_cons, List.not_mem_nil, or_false, forall_eq_or_imp, forall_eq] at hb
      obtain ⟨-, hb2, hb3, hb4⟩ := hb
      exact create_fields l _ _ c tmo (by omega) hfit.1 hfit.2 ht hb2 hb3 hb4
    have hv := view_held l _ _ c tmo _ hbf hheld
    have hkl : s.live.world.kernel.waiting.length + s.live.world.kernel.done.length = a.tickets.length := by
      rw [h.kwaiting, h.kdone]
      simp only [Queue.State.tickets, h.done, h.waiting, List.length_append, List.length_map]
      omega
    have hs : Proc.step l parse dev tmo room s (.send c al false) =
        { s with live := ⟨{ s.live.ex with index := (s.live.ex.index + 1) % limit, pending := s.live.ex.pending ++ [(a.next % limit, (made l tmo limit a.next c al, some a.next))] },
          ⟨(made l tmo limit a.next c al).install s.live.world.mem,
            { s.live.world.kernel with waiting := s.live.world.kernel.waiting ++ [((made l tmo limit a.next c al).block, asked c)] }⟩,
          s.live.next + 1, s.live.log ++ [.accepted s.live.next]⟩ } := by
      have hsg : sendThen (sgQueue l room 0) false (made l tmo limit a.next c al) s.live.world = (.ok (), ⟨(made l tmo limit a.next c al).install s.live.world.mem,
            { s.live.world.kernel with waiting := s.live.world.kernel.waiting ++ [((made l tmo limit a.next c al).block, asked c)] }⟩) := by
        simp only [sendThen, sgSend, sgQueue]
        unfold made at hv ⊢
        simp only [hv, hkl]
        rw [if_neg (by omega)]
        rfl
      simp only [Proc.step, Executer.send, nextPacketIndex, hlen, h.maxq, ge_iff_le, hfull, if_false, prepare, h.index]
      unfold made at hsg ⊢
      simp only [hsg, Dict.set_fresh _ _ _ hnk, h.next]
    have ha : Queue.step dev limit (hear parse) a (.send c) =
        { a with next := a.next + 1, waiting := a.waiting ++ [(a.next, c)], log := a.log ++ [.accepted a.next] } := by
      simp only [Queue.step, hfull, if_false]
    refine ⟨w ++ [(a.next, c, al)], ?_⟩
    rw [hs, ha]
    have hop : opens (w ++ [(a.next, c, al)]) d = opens w d ++ [(a.next, c, al, initial c)] := by
      simp [opens]
    have hnot : a.next % limit ∉ (opens w d).map (fun e => e.1 % limit) := fun hm => hnk (h.keys.mem_iff.1 hm)
    have hnew : ∀ e ∈ opens w d, ∀ x ∈ regions al c 88, ∀ y ∈ regions e.2.2.1 e.2.1 88, Apart x y :=
      fun e he x hx' => (h.each e he).apart (s := s) (hused x hx')
    refine ⟨by simp only [h.next], h.maxq, ?_, by simp only [h.log, h.next], h.dev, ?_, h.done, ?_, h.kdone, ?_, ?_, ?_, ?_, ?_, ?_, h.parses⟩
    · simp only [h.index, Nat.mod_add_mod]
    · simp only [h.waiting, List.map_append, List.map_cons, List.map_nil]
    · simp only [h.kwaiting, List.map_append, List.map_cons, List.map_nil]
    · simp only [hop, List.map_append, List.map_cons, List.map_nil]
      rw [List.nodup_append]
      refine ⟨h.slots, by simp, ?_⟩
      intro x hx y hy e
      simp only [List.mem_singleton] at hy
      exact hnot (hy ▸ e ▸ hx)
    · simp only [hop, List.map_append, List.map_cons, List.map_nil, Dict.keys]
      exact h.keys.append_right _
    · intro e he
      simp only [hop, List.mem_append, List.mem_singleton] at he
      rcases he with he | rfl
      · have ho := h.each e he
        have hne : e.1 % limit ≠ a.next % limit := fun heq => hnot (List.mem_map.2 ⟨e, he, heq⟩)
        refine ⟨ho.cdb, ho.size, ho.sep, ?_, held_congr ho.held ?_⟩
        · have hg := ho.get
          rw [← Dict.set_fresh _ _ _ hnk, dict_get_set, if_neg (fun hh => hne hh.symm)]
          exact hg
        · intro r hr'
          exact read_install (fun p hp => (hnew e he p (places_regions p hp) r hr').symm) _
      · refine ⟨hfit.1, hfit.2, hsep, ?_, hheld⟩
        simp only
        rw [← Dict.set_fresh _ _ _ hnk, dict_get_set, if_pos rfl]
    · intro e he f hf hne
      simp only [hop, List.mem_append, List.mem_singleton] at he hf
      rcases he with he | rfl <;> rcases hf with hf | rfl
      · exact h.apart e he f hf hne
      · exact fun x hx' y hy => (hnew e he y hy x hx').symm
      · exact hnew f hf
      · exact absurd rfl hne
    · intro o ho
      have hu : (o.addr, o.bytes.length) ∈ s.used := by
        simp only [Proc.used, List.mem_append, List.mem_map]
        exact .inr ⟨o, ho, rfl⟩
      constructor
      · have := read_install (r := (o.addr, o.bytes.length)) (h := made l tmo limit a.next c al)
          (fun p hp => (hused p (places_regions p hp) _ hu).symm) s.live.world.mem
        simp only at this ⊢
        rw [this]
        exact (h.objs o ho).1
      · intro e he x hx'
        simp only [hop, List.mem_append, List.mem_singleton] at he
        rcases he with he | rfl
        · exact (h.objs o ho).2 e he x hx'
        · exact (hused x hx' _ hu).symm
    · simp only [hop, List.length_append, List.length_singleton]
      rw [htk, List.length_map] at hfull
      omega

/-- The device executes a command. -/
theorem inv_finish {a : Queue.State δ (Told S)} {w d} {s : Proc δ S} (room : Nat)
    (hparse : ∀ k q, (dev k q).1.status.toNat / 2 % 2 = 1 → ∃ sn, parse (padded 255 (dev k q).1.sense) = .ok sn)
    (h : Inv l parse tmo limit a w d s) (i : Nat) (direct : Bool) :
    ∃ w' d', Inv l parse tmo limit (Queue.step dev limit (hear parse) a (.finish i direct)) w' d'
      (Proc.step l parse dev tmo room s (.finish i direct)) := by
  cases hw : w[i]? with
  | none =>
    refine ⟨w, d, ?_⟩
    have hk : s.live.world.kernel.waiting[i]? = none := by rw [h.kwaiting, List.getElem?_map, hw]; rfl
    have hwa : a.waiting[i]? = none := by rw [h.waiting, List.getElem?_map, hw]; rfl
    simp only [Queue.step, hwa, Proc.step, sgFinish, hk]
    exact h
  | some tc =>
    obtain ⟨t, c, al⟩ := tc
    have hk : s.live.world.kernel.waiting[i]? = some ((made l tmo limit t c al).block, asked c) := by
      rw [h.kwaiting, List.getElem?_map, hw]; rfl
    have hwa : a.waiting[i]? = some (t, c) := by rw [h.waiting, List.getElem?_map, hw]; rfl
    have hmem : (t, c, al) ∈ w := List.mem_of_getElem? hw
    have hopen : (t, c, al, initial c) ∈ opens w d := by
      simp only [opens, List.mem_append, List.mem_map]
      exact .inr ⟨(t, c, al), hmem, rfl⟩
    have ho := h.each _ hopen
    have hpos : 0 < limit := Nat.lt_of_lt_of_le (List.length_pos_of_mem hopen) h.le
    have hf := ho.fields hl ht hpos
    have hv : sgView l (made l tmo limit t c al).block s.live.world.mem = some (asked c) := view_held l _ _ c tmo _ hf ho.held
    generalize hans : (dev a.dev (asked c)).1 = ans
    have hreq : (if direct = true then { asked c with toDevice := ((sgView l (made l tmo limit t c al).block s.live.world.mem).map OsRequest.toDevice).getD [] }
        else asked c) = asked c := by
      rw [hv]; cases direct <;> rfl
    have hlive : Proc.step l parse dev tmo room s (.finish i direct) =
        { s with live := { s.live with world := ⟨if direct = true then writeMem s.live.world.mem (word l (made l tmo limit t c al).block 16 8) (ans.data.take (asked c).fromDevice)
            else s.live.world.mem, ⟨(dev a.dev (asked c)).2, s.live.world.kernel.waiting.eraseIdx i,
              s.live.world.kernel.done ++ [((made l tmo limit t c al).block, asked c, ans, direct)]⟩⟩ } } := by
      simp only [Proc.step, sgFinish, hk, hreq, h.dev, hans]
    have hid : Queue.step dev limit (hear parse) a (.finish i direct) =
        { a with dev := (dev a.dev (asked c)).2, waiting := a.waiting.eraseIdx i, done := a.done ++ [(t, c, ans)] } := by
      simp only [Queue.step, hwa, hans]
    have hperm : (opens w d).Perm ((t, c, al, initial c) :: opens (w.eraseIdx i) d) := by
      unfold opens
      refine List.Perm.trans (List.Perm.append_left _ ((perm_eraseIdx hw).map _)) ?_
      simp only [List.map_cons]
      exact List.perm_middle
    have hperm' : (opens (w.eraseIdx i) (d ++ [(t, c, al, ans, direct)])).Perm
        ((t, c, al, if direct then filled c ans else initial c) :: opens (w.eraseIdx i) d) := by
      unfold opens
      simp only [List.map_append, List.map_cons, List.map_nil, List.append_assoc, List.singleton_append]
      exact List.perm_middle
    have hsl : ((opens (w.eraseIdx i) (d ++ [(t, c, al, ans, direct)])).map (fun e => e.1 % limit)).Perm
        ((opens w d).map (fun e => e.1 % limit)) := by
      refine (hperm'.map _).trans (List.Perm.trans ?_ (hperm.map _).symm)
      exact List.Perm.refl _
    have hother : ∀ e ∈ opens (w.eraseIdx i) d, e.1 % limit ≠ t % limit := by
      intro e he heq
      have hnd := (hperm.map (fun e => e.1 % limit)).nodup h.slots
      simp only [List.map_cons, List.nodup_cons] at hnd
      exact hnd.1 (List.mem_map.2 ⟨e, he, heq⟩)
    -- every command outstanding afterwards was so before, with the same memory
    have hsame : ∀ e ∈ opens (w.eraseIdx i) (d ++ [(t, c, al, ans, direct)]), ∃ f ∈ opens w d, f.1 = e.1 ∧ f.2.1 = e.2.1 ∧ f.2.2.1 = e.2.2.1 := by
      intro e he
      replace he := hperm'.mem_iff.1 he
      simp only [List.mem_cons] at he
      rcases he with rfl | he
      · exact ⟨_, hopen, rfl, rfl, rfl⟩
      · exact ⟨e, hperm.mem_iff.2 (List.mem_cons_of_mem _ he), rfl, rfl, rfl⟩
    -- what is apart from the data buffer stays as it is
    have hmemory : ∀ r : Nat × Nat, (∀ y ∈ regions al c 88, Apart r y) →
        readMem (if direct = true then writeMem s.live.world.mem (word l (made l tmo limit t c al).block 16 8) (ans.data.take (asked c).fromDevice)
          else s.live.world.mem) r.1 r.2 = readMem s.live.world.mem r.1 r.2 := by
      intro r hr
      cases direct with
      | false => rfl
      | true =>
        simp only [if_true]
        rcases dataPtr_or l _ _ c tmo hf with hp | hp
        · apply read_write
          rw [hp]
          have := hr (al.data, dataSize c) (by simp [regions])
          exact this.sub (by have := fromDevice_le c; rw [List.length_take]; simp only; omega)
        · rw [hp, List.take_zero, writeMem_nil]
    refine ⟨w.eraseIdx i, d ++ [(t, c, al, ans, direct)], ?_⟩
    rw [hlive, hid]
    refine ⟨h.next, h.maxq, h.index, h.log, rfl, ?_, ?_, ?_, ?_, ?_, ?_, ?_, ?_, ?_, ?_, ?_⟩
    · simp only [h.waiting, map_eraseIdx]
    · simp only [h.done, List.map_append, List.map_cons, List.map_nil]
    · simp only [h.kwaiting, map_eraseIdx]
    · simp only [h.kdone, List.map_append, List.map_cons, List.map_nil]
    · exact hsl.symm.nodup h.slots
    · exact hsl.trans h.keys
    · intro e he
      replace he := hperm'.mem_iff.1 he
      simp only [List.mem_cons] at he
      rcases he with rfl | he
      · refine ⟨ho.cdb, ho.size, ho.sep, ho.get, ?_⟩
        cases direct with
        | false => exact ho.held
        | true => exact ho.held.store ho.sep ans _ (dataPtr_or l _ _ c tmo hf)
      · have hm := hperm.mem_iff.2 (List.mem_cons_of_mem _ he)
        have hoe := h.each e hm
        exact ⟨hoe.cdb, hoe.size, hoe.sep, hoe.get, held_congr hoe.held fun r hr => hmemory r fun y hy => h.apart e hm _ hopen (hother e he) r hr y hy⟩
    · intro e he f hf' hne
      obtain ⟨e', he', h1, h2, h3⟩ := hsame e he
      obtain ⟨f', hf', h4, h5, h6⟩ := hsame f hf'
      rw [← h1, ← h4] at hne
      rw [← h2, ← h3, ← h5, ← h6]
      exact h.apart e' he' f' hf' hne
    · intro o hob
      obtain ⟨ho1, ho2⟩ := h.objs o hob
      refine ⟨(hmemory (o.addr, o.bytes.length) (ho2 _ hopen)).trans ho1, ?_⟩
      intro e he
      obtain ⟨e', he', h1, h2, h3⟩ := hsame e he
      rw [← h2, ← h3]
      exact ho2 e' he'
    · have h1 := hperm.length_eq
      have h2 := hperm'.length_eq
      have h3 := h.le
      simp only [List.length_cons] at h1 h2
      omega
    · intro e he
      simp only [List.mem_append, List.mem_singleton] at he
      rcases he with he | rfl
      · exact h.parses e he
      · rw [← hans]; exact hparse _ _

/-- A response is processed. -/
theorem inv_receive {a : Queue.State δ (Told S)} {w d} {s : Proc δ S} (room : Nat)
    (h : Inv l parse tmo limit a w d s) (i : Nat) :
    ∃ d', Inv l parse tmo limit (Queue.step dev limit (hear parse) a (.receive i)) w d' (Proc.step l parse dev tmo room s (.receive i)) := by
  cases hw : d[i]? with
  | none =>
    refine ⟨d, ?_⟩
    have hk : s.live.world.kernel.done[i]? = none := by rw [h.kdone, List.getElem?_map, hw]; rfl
    have ha : a.done[i]? = none := by rw [h.done, List.getElem?_map, hw]; rfl
    simp only [Queue.step, ha, Proc.step, process, sgReceive, sgQueue, hk]
    exact ⟨h.next, h.maxq, h.index, by simp only [h.log], h.dev, h.waiting, h.done, h.kwaiting, h.kdone, h.slots, h.keys, h.each, h.apart, h.objs, h.le, h.parses⟩
  | some x =>
    obtain ⟨t, c, al, ans, direct⟩ := x
    have hk : s.live.world.kernel.done[i]? = some ((made l tmo limit t c al).block, asked c, ans, direct) := by
      rw [h.kdone, List.getElem?_map, hw]; rfl
    have ha : a.done[i]? = some (t, c, ans) := by rw [h.done, List.getElem?_map, hw]; rfl
    have hmem : (t, c, al, ans, direct) ∈ d := List.mem_of_getElem? hw
    have hopen : (t, c, al, if direct then filled c ans else initial c) ∈ opens w d := by
      simp only [opens, List.mem_append, List.mem_map]
      exact .inl ⟨_, hmem, rfl⟩
    have ho := h.each _ hopen
    have hpos : 0 < limit := Nat.lt_of_lt_of_le (List.length_pos_of_mem hopen) h.le
    have hf := ho.fields hl ht hpos
    have hsep := ho.sep
    have hptr := dataPtr_or l _ _ c tmo hf
    have hsp : sgSensePtr l (made l tmo limit t c al).block = al.sense := by
      rw [sgSensePtr, word_lp64, hf.sensePtr, Int.toNat_natCast]
    have hroomq : (asked c).senseRoom = 255 := by cases c <;> rfl
    generalize hm : (if direct = true then s.live.world.mem else writeMem s.live.world.mem (word l (made l tmo limit t c al).block 16 8)
      (ans.data.take (asked c).fromDevice)) = m
    have hheld : Held (made l tmo limit t c al) al c m (filled c ans) := by
      rw [← hm]
      cases direct with
      | true => exact ho.held
      | false => exact ho.held.store hsep ans _ hptr
    have hget : getOs s.live.ex ((t % limit : Nat) : Int) = some (made l tmo limit t c al) := by
      have hg := ho.get
      simp only at hg
      rw [getOs, if_pos (Int.natCast_nonneg _), Int.toNat_natCast, getOsData, hg]; rfl
    obtain ⟨o, hr1, hr2⟩ := response l parse al (t % limit) c tmo m ans (getOs s.live.ex) hget hf hsep hheld
      (h.parses _ hmem)
    have htake : (splice (made l tmo limit t c al).block 64 [ans.status]).take 88 = splice (made l tmo limit t c al).block 64 [ans.status] :=
      List.take_of_length_le (by rw [splice_length, hf.len]; exact Nat.le_refl _)
    have hrecv : sgReceive (lp64 l) parse (sgQueue l room i) s.live.ex s.live.world =
        (.ok (o, t % limit), ⟨writeMem m al.sense (ans.sense.take 255), { s.live.world.kernel with done := s.live.world.kernel.done.eraseIdx i }⟩) := by
      simp only [sgReceive, sizeValue, sgQueue, hk, hm, hsp, hroomq, htake]
      rw [← hr1]; rfl
    have hg := ho.get
    simp only at hg
    have hlive : Proc.step l parse dev tmo room s (.receive i) =
        { s with live := ⟨{ s.live.ex with pending := Dict.erase s.live.ex.pending (t % limit) },
          ⟨writeMem m al.sense (ans.sense.take 255), { s.live.world.kernel with done := s.live.world.kernel.done.eraseIdx i }⟩,
          s.live.next, s.live.log ++ [.told t (hear parse c ans)]⟩ } := by
      simp only [Proc.step, process, hrecv, hg, hr2]
    have hid : Queue.step dev limit (hear parse) a (.receive i) =
        { a with done := a.done.eraseIdx i, log := a.log ++ [.told t (hear parse c ans)] } := by
      simp only [Queue.step, ha]
    have hperm : (opens w d).Perm ((t, c, al, if direct then filled c ans else initial c) :: opens w (d.eraseIdx i)) := by
      unfold opens
      exact List.Perm.append_right _ ((perm_eraseIdx hw).map _)
    have hnd := (hperm.map (fun e => e.1 % limit)).nodup h.slots
    simp only [List.map_cons, List.nodup_cons] at hnd
    have hother : ∀ e ∈ opens w (d.eraseIdx i), e.1 % limit ≠ t % limit :=
      fun e he heq => hnd.1 (List.mem_map.2 ⟨e, he, heq⟩)
    have hold : ∀ e ∈ opens w (d.eraseIdx i), e ∈ opens w d := fun e he => hperm.mem_iff.2 (List.mem_cons_of_mem _ he)
    have hkn : (Dict.keys s.live.ex.pending).Nodup := h.keys.nodup h.slots
    have hmemory : ∀ r : Nat × Nat, (∀ y ∈ regions al c 88, Apart r y) →
        readMem (writeMem m al.sense (ans.sense.take 255)) r.1 r.2 = readMem s.live.world.mem r.1 r.2 := by
      intro r hr
      rw [read_write ((hr (al.sense, 255) (by simp [regions])).sub (by rw [List.length_take]; simp only; omega)), ← hm]
      cases direct with
      | true => rfl
      | false =>
        simp only [Bool.false_eq_true, if_false]
        rcases hptr with hp | hp
        · apply read_write
          rw [hp]
          have := hr (al.data, dataSize c) (by simp [regions])
          exact this.sub (by have := fromDevice_le c; rw [List.length_take]; simp only; omega)
        · rw [hp, List.take_zero, writeMem_nil]
    refine ⟨d.eraseIdx i, ?_⟩
    rw [hlive, hid]
    refine ⟨h.next, h.maxq, h.index, by simp only [h.log], h.dev, h.waiting, ?_, h.kwaiting, ?_, hnd.2, ?_, ?_, ?_, ?_, ?_, ?_⟩
    · simp only [h.done, map_eraseIdx]
    · simp only [h.kdone, map_eraseIdx]
    · rw [dict_keys_erase _ _ hkn]
      have := (((hperm.map (fun e => e.1 % limit)).symm.trans h.keys).erase (t % limit))
      simpa only [List.map_cons, List.erase_cons_head] using this
    · intro e he
      have hoe := h.each e (hold e he)
      have hne := hother e he
      refine ⟨hoe.cdb, hoe.size, hoe.sep, ?_, held_congr hoe.held fun r hr => hmemory r fun y hy => h.apart e (hold e he) _ hopen hne r hr y hy⟩
      simp only
      rw [dict_get_erase _ _ _ hkn, if_neg (fun hh => hne hh.symm)]
      exact hoe.get
    · exact fun e he f hf' => h.apart e (hold e he) f (hold f hf')
    · intro o hob
      obtain ⟨ho1, ho2⟩ := h.objs o hob
      exact ⟨(hmemory (o.addr, o.bytes.length) (ho2 _ hopen)).trans ho1, fun e he => ho2 e (hold e he)⟩
    · have h1 := hperm.length_eq
      have h3 := h.le
      simp only [List.length_cons] at h1
      omega
    · intro e he
      exact h.parses e (List.mem_of_mem_eraseIdx he)

theorem inv_run {room : Nat} (hr : limit ≤ room)
    (hparse : ∀ k q, (dev k q).1.status.toNat / 2 % 2 = 1 → ∃ sn, parse (padded 255 (dev k q).1.sense) = .ok sn)
    (acts : List Act) (hfit : ∀ x ∈ acts, Fits x) (hcalm : ∀ x ∈ acts, x.Calm) (a : Queue.State δ (Told S)) (w d) (s : Proc δ S)
    (h : Inv l parse tmo limit a w d s) (hal : Allocates l parse dev tmo room s acts)
    (hnw : Queue.NoWrap dev limit (hear parse) a (acts.filterMap Act.op)) :
    ∃ w' d', Inv l parse tmo limit (Queue.runFrom dev limit (hear parse) a (acts.filterMap Act.op)) w' d' (Proc.run l parse dev tmo room s acts) := by
  induction acts generalizing a w d s with
  | nil => exact ⟨w, d, h⟩
  | cons x acts ih =>
    have hx := hfit x List.mem_cons_self
    have hc := hcalm x List.mem_cons_self
    have hrest := fun o ho => hfit o (List.mem_cons_of_mem _ ho)
    have hrest' := fun o ho => hcalm o (List.mem_cons_of_mem _ ho)
    obtain ⟨hal1, hal2⟩ := hal
    cases x with
    | send c al b =>
      simp only [Act.Calm] at hc
      subst hc
      obtain ⟨h1, h2⟩ := hnw
      obtain ⟨w', h'⟩ := inv_send hl ht (dev := dev) room hr h c al hx hal1 h1
      exact ih hrest hrest' _ _ _ _ h' hal2 h2
    | finish i direct =>
      obtain ⟨w', d', h'⟩ := inv_finish hl ht room hparse h i direct
      exact ih hrest hrest' _ _ _ _ h' hal2 hnw.2
    | receive i =>
      obtain ⟨d', h'⟩ := inv_receive hl ht (dev := dev) room h i
      exact ih hrest hrest' _ _ _ _ h' hal2 hnw.2
    | make x => exact ih hrest hrest' _ _ _ _ (inv_make room h x hal1) hal2 hnw
    | drop i => exact ih hrest hrest' _ _ _ _ (inv_drop room h i) hal2 hnw

end
end Verif.Heap
