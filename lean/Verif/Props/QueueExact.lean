import Verif.Props.Queue
import Verif.Props.Executer
/-! # C67: the condition on packet numbers is exact -/

set_option linter.unusedSimpArgs false

namespace Verif.Platform.Linux
open Verif.Executer Verif.Spec

variable {δ S : Type}

/-! ## The ideal queue forgets nothing -/

structure Complete {A : Type} (a : Queue.State δ A) : Prop where
  old : ∀ t ∈ a.tickets, t < a.next
  nodup : a.tickets.Nodup
  acc : ∀ t ∈ a.tickets, Queue.Ev.accepted t ∈ a.log
  silent : ∀ t ∈ a.tickets, ∀ x, Queue.Ev.told t x ∉ a.log
  told : ∀ t x, Queue.Ev.told t x ∈ a.log → t < a.next
  all : ∀ t, Queue.Ev.accepted t ∈ a.log → t ∈ a.tickets ∨ ∃ x, Queue.Ev.told t x ∈ a.log

theorem complete_init {A : Type} (k : δ) : Complete (Queue.State.init k : Queue.State δ A) := by
  constructor <;> simp [Queue.State.init, Queue.State.tickets]

theorem complete_step {A : Type} {dev : Device δ} {limit : Nat} {hear : Req → Answer → A} {a : Queue.State δ A} (h : Complete a) (op : Queue.Op) :
    Complete (Queue.step dev limit hear a op) := by
  cases op with
  | send c =>
    simp only [Queue.step]
    split
    · refine ⟨h.old, h.nodup, fun t ht => ?_, fun t ht x hx => ?_, fun t x hx => ?_, fun t ht => ?_⟩
      · exact List.mem_append_left _ (h.acc t ht)
      · simp at hx; exact h.silent t ht x hx
      · simp at hx; exact h.told t x hx
      · simp at ht
        exact (h.all t ht).imp id fun ⟨x, hx⟩ => ⟨x, List.mem_append_left _ hx⟩
    · have hmem : ∀ t, t ∈ a.done.map Prod.fst ++ (a.waiting ++ [(a.next, c)]).map Prod.fst ↔ t ∈ a.tickets ∨ t = a.next := by
        intro t; simp only [Queue.State.tickets, List.map_append, List.map_cons, List.map_nil, List.mem_append, List.mem_singleton]; grind
      have hnew : a.next ∉ a.tickets := fun hm => Nat.lt_irrefl _ (h.old _ hm)
      refine ⟨fun t ht => ?_, ?_, fun t ht => ?_, fun t ht x hx => ?_, fun t x hx => ?_, fun t ht => ?_⟩
      · simp only
        rcases (hmem t).1 ht with ht | rfl
        · have := h.old t ht; omega
        · omega
      · show (a.done.map Prod.fst ++ (a.waiting ++ [(a.next, c)]).map Prod.fst).Nodup
        rw [List.map_append, ← List.append_assoc]
        rw [List.nodup_append]
        refine ⟨h.nodup, by simp, ?_⟩
        intro x hx y hy e
        simp at hy
        exact hnew (hy ▸ e ▸ hx)
      · rcases (hmem t).1 ht with ht | rfl
        · exact List.mem_append_left _ (h.acc t ht)
        · simp
      · simp at hx
        rcases (hmem t).1 ht with ht | rfl
        · exact h.silent t ht x hx
        · exact Nat.lt_irrefl _ (h.told _ x hx)
      · simp at hx
        have := h.told t x hx
        simp only; omega
      · simp at ht
        rcases ht with ht | rfl
        · exact (h.all t ht).imp (fun h => (hmem t).2 (.inl h)) fun ⟨x, hx⟩ => ⟨x, List.mem_append_left _ hx⟩
        · exact .inl ((hmem _).2 (.inr rfl))
  | finish i direct =>
    simp only [Queue.step]
    split
    · exact h
    · rename_i t c hw
      have hp : (((a.done ++ [(t, c, (dev a.dev (asked c)).1)]).map Prod.fst) ++ (a.waiting.eraseIdx i).map Prod.fst).Perm a.tickets := by
        have h1 : (a.waiting.map Prod.fst).Perm (t :: (a.waiting.eraseIdx i).map Prod.fst) := by
          simpa using (perm_eraseIdx hw).map Prod.fst
        simp only [Queue.State.tickets, List.map_append, List.map_cons, List.map_nil, List.append_assoc, List.cons_append, List.nil_append]
        exact (List.Perm.append_left _ h1.symm)
      have hm : ∀ u, u ∈ ((a.done ++ [(t, c, (dev a.dev (asked c)).1)]).map Prod.fst) ++ (a.waiting.eraseIdx i).map Prod.fst ↔ u ∈ a.tickets := fun u => hp.mem_iff
      exact ⟨fun u hu => h.old u ((hm u).1 hu), hp.nodup_iff.2 h.nodup, fun u hu => h.acc u ((hm u).1 hu), fun u hu => h.silent u ((hm u).1 hu), h.told,
        fun u hu => (h.all u hu).imp (fun h => (hm u).2 h) id⟩
  | receive i =>
    simp only [Queue.step]
    split
    · refine ⟨h.old, h.nodup, fun t ht => ?_, fun t ht x hx => ?_, fun t x hx => ?_, fun t ht => ?_⟩
      · exact List.mem_append_left _ (h.acc t ht)
      · simp at hx; exact h.silent t ht x hx
      · simp at hx; exact h.told t x hx
      · simp at ht
        exact (h.all t ht).imp id fun ⟨x, hx⟩ => ⟨x, List.mem_append_left _ hx⟩
    · rename_i t c ans hd
      have hp : (t :: ((a.done.eraseIdx i).map Prod.fst ++ a.waiting.map Prod.fst)).Perm a.tickets := by
        have h1 : (a.done.map Prod.fst).Perm (t :: (a.done.eraseIdx i).map Prod.fst) := by
          simpa using (perm_eraseIdx hd).map Prod.fst
        exact (h1.symm.append_right _)
      have hn := hp.nodup_iff.2 h.nodup
      rw [List.nodup_cons] at hn
      have hsub : ∀ u, u ∈ (a.done.eraseIdx i).map Prod.fst ++ a.waiting.map Prod.fst → u ∈ a.tickets := fun u hu => hp.mem_iff.1 (List.mem_cons_of_mem _ hu)
      have htm : t ∈ a.tickets := hp.mem_iff.1 List.mem_cons_self
      refine ⟨fun u hu => h.old u (hsub u hu), hn.2, fun u hu => List.mem_append_left _ (h.acc u (hsub u hu)), fun u hu x hx => ?_, fun u x hx => ?_, fun u hu => ?_⟩
      · simp at hx
        rcases hx with hx | ⟨rfl, _⟩
        · exact h.silent u (hsub u hu) x hx
        · exact hn.1 hu
      · simp at hx
        rcases hx with hx | ⟨rfl, _⟩
        · exact h.told u x hx
        · exact h.old _ htm
      · simp at hu
        rcases h.all u hu with hu | ⟨x, hx⟩
        · rcases List.mem_cons.1 (hp.mem_iff.2 hu) with rfl | hu
          · exact .inr ⟨hear c ans, by simp⟩
          · exact .inl hu
        · exact .inr ⟨x, List.mem_append_left _ hx⟩

/-! ## A command that was lost stays lost -/

structure Lost (t : Nat) (s : Live δ S) : Prop where
  old : t < s.next
  pend : ∀ e ∈ s.ex.pending, e.2.2 ≠ some t
  acc : Queue.Ev.accepted t ∈ s.log
  silent : ∀ x, Queue.Ev.told t x ∉ s.log

theorem mem_set_key {α : Type} {d : Dict α} (hn : (Dict.keys d).Nodup) {k : Nat} {v : α} {e : Nat × α} (h : e ∈ Dict.set d k v) :
    e = (k, v) ∨ (e ∈ d ∧ e.1 ≠ k) := by
  induction d with
  | nil => exact .inl (by simpa [Dict.set] using h)
  | cons p r ih =>
    obtain ⟨k', v'⟩ := p
    have hn' : k' ∉ Dict.keys r ∧ (Dict.keys r).Nodup := by simpa [Dict.keys] using hn
    simp only [Dict.set] at h
    split at h
    · rename_i hk
      rcases List.mem_cons.1 h with h | h
      · exact .inl h
      · exact .inr ⟨List.mem_cons_of_mem _ h, fun he => hn'.1 (by rw [hk, ← he]; exact List.mem_map_of_mem h)⟩
    · rename_i hk
      rcases List.mem_cons.1 h with h | h
      · exact .inr ⟨h ▸ List.mem_cons_self .., by rw [h]; exact hk⟩
      · exact (ih hn'.2 h).imp id fun h => ⟨List.mem_cons_of_mem _ h.1, h.2⟩

section
variable {l : Bool} {parse : Bytes → Py (Option S)} {dev : Device δ} {alloc : Nat → Alloc} {tmo : Int} {limit room : Nat} {cmds : Req → Prop}

/-- `send` takes the callback it was given, and nothing else, into the table, at most at one place, whose former contents are gone. -/
theorem lost_send {s : Live δ S} {t : Nat} (c : Req) (hold : t < s.next) (hacc : Queue.Ev.accepted t ∈ s.log) (hsil : ∀ x, Queue.Ev.told t x ∉ s.log)
    (hfull : s.ex.pending.length ≥ s.ex.maxq → ∀ e ∈ s.ex.pending, e.2.2 ≠ some t)
    (hset : ∀ v, v.2 = some s.next → ∀ e ∈ Dict.set s.ex.pending s.ex.index v, e.2.2 ≠ some t) :
    Lost t (Live.step l parse dev alloc tmo room s (.send c)) := by
  simp only [Live.step, Executer.send, nextPacketIndex]
  by_cases hf : s.ex.pending.length ≥ s.ex.maxq
  · simp only [if_pos hf]
    exact ⟨hold, hfull hf, List.mem_append_left _ hacc, fun x hx => by simp at hx; exact hsil x hx⟩
  · simp only [if_neg hf, prepare]
    generalize hq : create (lp64 l) (alloc s.ex.index) s.ex.index c tmo = q
    cases hs : sgSend (sgQueue l room 0) q s.world with
    | mk o w =>
      cases o with
      | error e =>
        refine ⟨hold, fun e he => hset (q, some s.next) rfl e (mem_erase he), List.mem_append_left _ hacc, fun x hx => ?_⟩
        simp at hx; exact hsil x hx
      | ok u =>
        refine ⟨Nat.lt_succ_of_lt hold, fun e he => hset (q, some s.next) rfl e he, List.mem_append_left _ hacc, fun x hx => ?_⟩
        simp at hx; exact hsil x hx

theorem lost_step {s : Live δ S} {t : Nat} (h : Lost t s) (op : Queue.Op) : Lost t (Live.step l parse dev alloc tmo room s op) := by
  cases op with
  | send c =>
    refine lost_send c h.old h.acc h.silent (fun _ => h.pend) fun v hv e he => ?_
    rcases mem_set he with he | rfl
    · exact h.pend e he
    · simp only [hv]
      intro hh
      have := h.old
      have : s.next = t := Option.some.inj hh
      omega
  | finish i direct => exact ⟨h.old, h.pend, h.acc, h.silent⟩
  | receive i =>
    simp only [Live.step, process]
    split
    · rename_i hr
      refine ⟨h.old, ?_, List.mem_append_left _ h.acc, fun x hx => ?_⟩
      · split at hr
        · cases hr
        · split at hr
          · cases hr
          · split at hr
            · cases hr
            · exact fun e he => h.pend e (mem_erase he)
      · rename_i t' a
        split at hr
        · cases hr
        · split at hr
          · cases hr
          · rename_i hg
            split at hr
            · cases hr
            · cases hr
              have hne : t' ≠ t := fun e => h.pend _ (get_mem hg) (by rw [e])
              simp at hx
              rcases hx with hx | ⟨hx, _⟩
              · exact h.silent x hx
              · exact hne hx.symm
    · rename_i hr
      refine ⟨h.old, ?_, List.mem_append_left _ h.acc, fun x hx => by simp at hx; exact h.silent x hx⟩
      split at hr
      · exact h.pend
      · split at hr
        · exact h.pend
        · split at hr
          · exact fun e he => h.pend e (mem_erase he)
          · cases hr

theorem lost_run {s : Live δ S} {t : Nat} (h : Lost t s) (ops : List Queue.Op) : Lost t (Live.runFrom l parse dev alloc tmo room s ops) := by
  induction ops generalizing s with
  | nil => exact h
  | cons op ops ih => exact ih (lost_step h op)

variable (hroom : Room alloc limit cmds) (hl : limit ≤ 2 ^ 31) (ht : 0 ≤ tmo ∧ tmo < 2 ^ 32)
include hroom hl ht

theorem wrap_loses (hr : limit ≤ room)
    (hparse : ∀ k q, (dev k q).1.status.toNat / 2 % 2 = 1 → ∃ sn, parse (padded 255 (dev k q).1.sense) = .ok sn)
    (ops : List Queue.Op) (hops : ∀ op ∈ ops, Queue.Sends cmds op) (a : Queue.State δ (Told S)) (d : List (Nat × Req × Answer × Bool)) (s : Live δ S)
    (h : Inv l parse alloc tmo limit cmds a d s) (hc : Complete a) (hnw : ¬ Queue.NoWrap dev limit (hear parse) a ops) :
    ∃ t, Lost t (Live.runFrom l parse dev alloc tmo room s ops) := by
  induction ops generalizing a d s with
  | nil => exact absurd trivial hnw
  | cons op ops ih =>
    have hop := hops op List.mem_cons_self
    have hrest := fun o ho => hops o (List.mem_cons_of_mem _ ho)
    by_cases h1 : Queue.NoWrap dev limit (hear parse) a [op]
    · obtain ⟨d', h'⟩ := inv_run (l := l) hroom hl ht hr hparse [op] (by simpa using hop) a d s h h1
      exact ih hrest _ d' _ h' (complete_step hc op) fun hn => hnw ⟨h1.1, hn⟩
    · cases op with
      | finish i direct => exact absurd ⟨trivial, trivial⟩ h1
      | receive i => exact absurd ⟨trivial, trivial⟩ h1
      | send c =>
        have hex : a.tickets.length < limit ∧ ∃ t ∈ a.tickets, t % limit = a.next % limit := by
          apply Classical.byContradiction
          intro hne
          exact h1 ⟨fun hlt t htk he => hne ⟨hlt, t, htk, he⟩, trivial⟩
        obtain ⟨hlt, t, htk, hte⟩ := hex
        have htq := tickets_eq l parse alloc tmo limit cmds h
        have hnd : (Dict.keys s.ex.pending).Nodup := h.keys.nodup_iff.1 h.slots
        have hlen : s.ex.pending.length = a.tickets.length := by
          have := h.keys.length_eq
          simp only [Dict.keys, List.length_map] at this
          rw [htq, List.length_map]; exact this.symm
        have hold : t < s.next := by rw [h.next]; exact hc.old t htk
        refine ⟨t, lost_run (lost_send c hold (by rw [h.log]; exact hc.acc t htk) (by rw [h.log]; exact hc.silent t htk) ?_ ?_) ops⟩
        · intro hf
          rw [hlen, h.maxq] at hf
          omega
        · intro v hv e he
          rcases mem_set_key hnd he with rfl | ⟨hm, hne⟩
          · simp only [hv]
            intro hh
            have : s.next = t := Option.some.inj hh
            omega
          · intro hh
            have hk : e.1 ∈ Dict.keys s.ex.pending := List.mem_map_of_mem hm
            obtain ⟨o, ho, hoe⟩ := List.mem_map.1 (h.keys.mem_iff.2 hk)
            have hg := (h.each o ho).get
            obtain ⟨i, hi⟩ := List.getElem?_of_mem hm
            obtain ⟨hg2, _⟩ := Dict.get_erase_of_getElem _ hnd i e.1 e.2 hi
            have hoe : o.1 % limit = e.1 := hoe
            rw [hoe, hg2] at hg
            have : e.2.2 = some o.1 := by rw [Option.some.inj hg]
            rw [this] at hh
            have : o.1 = t := Option.some.inj hh
            apply hne
            rw [← hoe, this, h.index, hte]

/-- **C67, what reuse costs**: if a packet number is given to a command while another outstanding command has it, an accepted command is lost: whatever
happens afterwards, its callback is never called. -/
theorem C67_lost (hr : limit ≤ room)
    (hparse : ∀ k q, (dev k q).1.status.toNat / 2 % 2 = 1 → ∃ sn, parse (padded 255 (dev k q).1.sense) = .ok sn)
    (ops : List Queue.Op) (hops : ∀ op ∈ ops, Queue.Sends cmds op) (m : Mem) (k : δ)
    (hnw : ¬ Queue.NoWrap dev limit (hear parse) (Queue.State.init k) ops) :
    ∃ t, Queue.Ev.accepted t ∈ (Live.runFrom l parse dev alloc tmo room (Live.init limit m k) ops).log ∧
      ∀ more x, Queue.Ev.told t x ∉ (Live.runFrom l parse dev alloc tmo room (Live.init limit m k) (ops ++ more)).log := by
  obtain ⟨t, h⟩ := wrap_loses (l := l) hroom hl ht hr hparse ops hops _ [] _ (inv_init l parse alloc tmo limit cmds m k) (complete_init k) hnw
  refine ⟨t, h.acc, fun more x => ?_⟩
  have := (lost_run (l := l) (parse := parse) (dev := dev) (alloc := alloc) (tmo := tmo) (room := room) h more).silent x
  simpa [Live.runFrom, List.foldl_append] using this

/-- **C67, the exact condition**: once the driver has nothing left, the callback of every accepted command was called if and only if no packet number was given
to a command while another outstanding command had it. By `C67_partial` the callbacks were then told what they should be. -/
theorem C67_exact (hr : limit ≤ room)
    (hparse : ∀ k q, (dev k q).1.status.toNat / 2 % 2 = 1 → ∃ sn, parse (padded 255 (dev k q).1.sense) = .ok sn)
    (ops : List Queue.Op) (hops : ∀ op ∈ ops, Queue.Sends cmds op) (m : Mem) (k : δ)
    (hw : (Live.runFrom l parse dev alloc tmo room (Live.init limit m k) ops).world.kernel.waiting = [])
    (hd : (Live.runFrom l parse dev alloc tmo room (Live.init limit m k) ops).world.kernel.done = []) :
    (∀ t, Queue.Ev.accepted t ∈ (Live.runFrom l parse dev alloc tmo room (Live.init limit m k) ops).log →
      ∃ x, Queue.Ev.told t x ∈ (Live.runFrom l parse dev alloc tmo room (Live.init limit m k) ops).log) ↔
    Queue.NoWrap dev limit (hear parse) (Queue.State.init k) ops := by
  constructor
  · intro hall
    apply Classical.byContradiction
    intro hn
    obtain ⟨t, h1, h2⟩ := C67_lost (l := l) hroom hl ht hr hparse ops hops m k hn
    obtain ⟨x, hx⟩ := hall t h1
    exact h2 [] x (by simpa using hx)
  · intro hn t hacc
    obtain ⟨d, h⟩ := inv_run (l := l) hroom hl ht hr hparse ops hops _ [] _ (inv_init l parse alloc tmo limit cmds m k) hn
    have hcomp : Complete (Queue.runFrom dev limit (hear parse) (Queue.State.init k) ops) := by
      have : ∀ (ops : List Queue.Op) (a : Queue.State δ (Told S)), Complete a → Complete (Queue.runFrom dev limit (hear parse) a ops) := by
        intro ops
        induction ops with
        | nil => exact fun _ h => h
        | cons op ops ih => exact fun a h => ih _ (complete_step h op)
      exact this ops _ (complete_init k)
    have e1 : (Queue.runFrom dev limit (hear parse) (Queue.State.init k) ops).waiting = [] := by
      have := h.kwaiting.symm.trans hw
      exact List.map_eq_nil_iff.1 this
    have e2 : (Queue.runFrom dev limit (hear parse) (Queue.State.init k) ops).done = [] := by
      have := List.map_eq_nil_iff.1 (h.kdone.symm.trans hd)
      rw [h.done, this]; rfl
    rw [h.log] at hacc ⊢
    rcases hcomp.all t hacc with htk | hx
    · simp [Queue.State.tickets, e1, e2] at htk
    · exact hx

end

/-- A history that reuses a number and ends with an empty driver. -/
example : let ops : List Queue.Op := [.send (.read [8, 65] 1), .send (.read [8, 66] 1), .finish 1 false, .receive 0, .send (.read [8, 67] 1), .finish 0 false, .receive 0, .finish 0 false, .receive 0]
    let s := Live.runFrom true (S := Unit) (fun _ => .ok none) echo pages 30000 16 (Live.init 2 (fun _ => 0) ()) ops
    s.world.kernel.waiting = [] ∧ s.world.kernel.done = [] ∧ (∀ op ∈ ops, Queue.Sends Small op) ∧
    s.log = [.accepted 0, .accepted 1, .told 1 ⟨some (some [66]), none⟩, .accepted 2, .told 2 ⟨some (some [65]), none⟩, .nothing] := by
  refine ⟨by decide +kernel, by decide +kernel, by simp [Queue.Sends, Small, dataSize, Req.cdb], by decide +kernel⟩

end Verif.Platform.Linux
