import Verif.Spec.Executer
/-! # Helper lemmas for the executer theorems -/

namespace Verif.Executer

theorem eraseIdx_map' {α β : Type} (f : α → β) (l : List α) (i : Nat) : (l.map f).eraseIdx i = (l.eraseIdx i).map f := by
  induction l generalizing i with
  | nil => simp
  | cons x xs ih => cases i <;> simp [ih]

namespace Dict
variable {α : Type}

theorem get_none_iff (d : Dict α) (k : Nat) : get d k = none ↔ k ∉ keys d := by
  induction d with
  | nil => simp [get, keys]
  | cons p r ih =>
    obtain ⟨k', v⟩ := p
    simp only [get, keys, List.map_cons, List.mem_cons, not_or] at *
    by_cases h : k' = k
    · simp [h]
    · simp only [h, if_false, ih]
      constructor
      · intro h2; exact ⟨fun e => h e.symm, h2⟩
      · exact fun h2 => h2.2

theorem set_fresh (d : Dict α) (k : Nat) (v : α) (h : k ∉ keys d) : set d k v = d ++ [(k, v)] := by
  induction d with
  | nil => rfl
  | cons p r ih =>
    obtain ⟨k', v'⟩ := p
    simp only [keys, List.map_cons, List.mem_cons, not_or] at h
    have : ¬ k' = k := fun e => h.1 e.symm
    simp [set, this, ih h.2]

theorem erase_append_fresh (d : Dict α) (k : Nat) (v : α) (h : k ∉ keys d) : erase (d ++ [(k, v)]) k = d := by
  induction d with
  | nil => simp [erase]
  | cons p r ih =>
    obtain ⟨k', v'⟩ := p
    simp only [keys, List.map_cons, List.mem_cons, not_or] at h
    have : ¬ k' = k := fun e => h.1 e.symm
    simp [erase, this, ih h.2]

theorem get_erase_of_getElem (d : Dict α) (hn : (keys d).Nodup) (i : Nat) (k : Nat) (v : α)
    (h : d[i]? = some (k, v)) : get d k = some v ∧ erase d k = d.eraseIdx i := by
  induction d generalizing i with
  | nil => simp at h
  | cons p r ih =>
    obtain ⟨k', v'⟩ := p
    simp only [keys, List.map_cons, List.nodup_cons] at hn
    cases i with
    | zero =>
      simp at h
      obtain ⟨rfl, rfl⟩ := h
      simp [get, erase]
    | succ i =>
      simp at h
      have hmem : k ∈ List.map Prod.fst r := List.mem_map.2 ⟨(k, v), List.mem_of_getElem? h, rfl⟩
      have hne : ¬ k' = k := fun e => hn.1 (e ▸ hmem)
      obtain ⟨h1, h2⟩ := ih hn.2 i h
      simp [get, erase, hne, h1, h2]

theorem keys_eraseIdx (d : Dict α) (i : Nat) : keys (d.eraseIdx i) = (keys d).eraseIdx i := by
  simp [keys, eraseIdx_map']

theorem length_set_le (d : Dict α) (k : Nat) (v : α) : (set d k v).length ≤ d.length + 1 := by
  induction d with
  | nil => simp [set]
  | cons p r ih =>
    obtain ⟨k', v'⟩ := p
    simp only [set]
    split <;> simp <;> omega

theorem length_erase_le (d : Dict α) (k : Nat) : (erase d k).length ≤ d.length := by
  induction d with
  | nil => simp [erase]
  | cons p r ih =>
    obtain ⟨k', v'⟩ := p
    simp only [erase]
    split <;> simp <;> omega

theorem length_erase_set_le (d : Dict α) (k : Nat) (v : α) : (erase (set d k v) k).length ≤ d.length := by
  induction d with
  | nil => simp [set, erase]
  | cons p r ih =>
    obtain ⟨k', v'⟩ := p
    simp only [set]
    split
    · simp [erase]
    · rename_i h; simp [erase, h, ih]

theorem keys_set (d : Dict α) (k : Nat) (v : α) :
    keys (set d k v) = if k ∈ keys d then keys d else keys d ++ [k] := by
  induction d with
  | nil => simp [set, keys]
  | cons p r ih =>
    obtain ⟨k', v'⟩ := p
    by_cases h : k' = k
    · simp [set, h, keys]
    · have h' : ¬ k = k' := fun e => h e.symm
      have : keys (set ((k', v') :: r) k v) = k' :: keys (set r k v) := by simp [set, h, keys]
      rw [this, ih]
      have h3 : keys ((k', v') :: r) = k' :: keys r := rfl
      rw [h3]
      by_cases hm : k ∈ keys r
      · simp [hm]
      · simp [hm, h']

theorem erase_keys_sublist (d : Dict α) (k : Nat) : (erase d k).Sublist d := by
  induction d with
  | nil => simp [erase]
  | cons p r ih =>
    obtain ⟨k', v'⟩ := p
    simp only [erase]
    split
    · exact List.sublist_cons_self _ _
    · exact ih.cons_cons _

end Dict

variable {P X : Type}

/-- The pending entry of a command the device holds. -/
def entry (q : Nat × Nat) : Nat × ((Nat × Nat) × Option Nat) := (q.1, (q, some q.2))

theorem keys_entry (l : List (Nat × Nat)) : Dict.keys (l.map entry) = l.map Prod.fst := by
  simp [Dict.keys, entry, Function.comp_def]

/-- Simulation relation between the real and the ideal executer. -/
structure Sim (s : Sys P X) (a : Ideal P X) : Prop where
  maxq : s.ex.maxq = a.maxq
  pend : s.ex.pending = s.dev.map entry
  nodup : (s.dev.map Prod.fst).Nodup
  out : a.out = s.dev.map Prod.snd
  next : s.next = a.next
  log : s.log = a.log

theorem sim_init (maxq : Nat) : Sim (Sys.init maxq : Sys P X) (Ideal.init maxq) :=
  ⟨rfl, rfl, by simp [Sys.init], rfl, rfl, rfl⟩

theorem sim_send {s : Sys P X} {a : Ideal P X} (h : Sim s a) (p o : Bool)
    (hf : p = true → s.dev.length < s.ex.maxq → s.slotFree) : Sim (s.step (.send p o)) (a.step (.send p o)) := by
  have hlen : s.ex.pending.length = a.out.length := by rw [h.pend, h.out]; simp
  by_cases hfull : a.maxq ≤ a.out.length
  · have h1 : nextPacketIndex s.ex = .error .nameError := by
      simp only [nextPacketIndex]; rw [if_pos]; rw [hlen, h.maxq]; exact hfull
    have h2 : s.step (.send p o) = { s with next := s.next + 1, log := s.log ++ [.refused s.next .nameError] } := by
      simp only [Sys.step, Executer.send, h1]
    have h3 : a.step (.send p o) = { a with next := a.next + 1, log := a.log ++ [.refused a.next .nameError] } := by
      simp only [Ideal.step, hfull, if_true]
    rw [h2, h3]
    exact ⟨h.maxq, h.pend, h.nodup, h.out, by simp [h.next], by simp [h.log, h.next]⟩
  · have hlt : s.dev.length < s.ex.maxq := by
      rw [h.maxq]; have := h.out ▸ hfull; simp at this; exact this
    have h1 : nextPacketIndex s.ex = .ok (s.ex.index, { s.ex with index := (s.ex.index + 1) % s.ex.maxq }) := by
      simp only [nextPacketIndex]; rw [if_neg]; rw [hlen, h.maxq]; exact hfull
    cases p with
    | false =>
      simp only [Sys.step, Executer.send, h1, Ideal.step, hfull, if_false]
      exact ⟨h.maxq, h.pend, h.nodup, h.out, by simp [h.next], by simp [h.log, h.next]⟩
    | true =>
      have hfree := hf rfl hlt
      have hk : s.ex.index ∉ Dict.keys s.ex.pending := by rw [h.pend, keys_entry]; exact hfree
      cases o with
      | false =>
        simp only [Sys.step, Executer.send, h1, Ideal.step, hfull, if_false, osSend, Dict.set_fresh _ _ _ hk, if_true,
          Dict.erase_append_fresh _ _ _ hk]
        exact ⟨h.maxq, h.pend, h.nodup, h.out, by simp [h.next], by simp [h.log, h.next]⟩
      | true =>
        simp only [Sys.step, Executer.send, h1, Ideal.step, hfull, if_false, osSend, Dict.set_fresh _ _ _ hk, if_true]
        refine ⟨h.maxq, ?_, ?_, ?_, by simp [h.next], by simp [h.log, h.next]⟩
        · simp [h.pend, entry]
        · simp only [List.map_append, List.map_cons, List.map_nil]
          rw [List.nodup_append]
          refine ⟨h.nodup, by simp, ?_⟩
          intro x hx y hy
          simp at hy
          subst hy
          exact fun e => hfree (e ▸ hx)
        · simp [h.out, h.next]

theorem sim_recv {s : Sys P X} {a : Ideal P X} (h : Sim s a) (op : Op P X)
    (hop : match op with | .send _ _ => False | .stray pid _ => pid ∉ s.dev.map Prod.fst | _ => True) :
    Sim (s.step op) (a.step op) := by
  cases op with
  | send p o => exact hop.elim
  | recvError e =>
    simp only [Sys.step, Sys.recv, process, devRecv, Ideal.step]
    exact ⟨h.maxq, h.pend, h.nodup, h.out, h.next, by simp [h.log]⟩
  | stray pid o =>
    have hg : Dict.get s.ex.pending pid = none := by
      rw [Dict.get_none_iff, h.pend, keys_entry]; exact hop
    simp only [Sys.step, Sys.recv, process, devRecv, Ideal.step, hg]
    exact ⟨h.maxq, h.pend, h.nodup, h.out, h.next, by simp [h.log]⟩
  | complete i o =>
    cases hd : s.dev[i]? with
    | none =>
      have ha : a.out[i]? = none := by rw [h.out]; simp [hd]
      simp only [Sys.step, Sys.recv, process, devRecv, Ideal.step, ha, hd]
      exact ⟨h.maxq, h.pend, h.nodup, h.out, h.next, by simp [h.log]⟩
    | some q =>
      obtain ⟨pid, t⟩ := q
      have ha : a.out[i]? = some t := by rw [h.out]; simp [hd]
      have hp : s.ex.pending[i]? = some (pid, ((pid, t), some t)) := by rw [h.pend]; simp [hd, entry]
      have hnd : (Dict.keys s.ex.pending).Nodup := by rw [h.pend, keys_entry]; exact h.nodup
      obtain ⟨hg, he⟩ := Dict.get_erase_of_getElem _ hnd i pid _ hp
      simp only [Sys.step, Sys.recv, process, devRecv, Ideal.step, ha, hd, hg, he]
      refine ⟨h.maxq, ?_, ?_, ?_, h.next, ?_⟩
      · simp [h.pend, eraseIdx_map']
      · simp only [← eraseIdx_map']
        exact h.nodup.sublist (List.eraseIdx_sublist ..)
      · simp [h.out, eraseIdx_map']
      · simp only [h.log, Option.toList, List.map_cons, List.map_nil, List.append_nil]
        cases o <;> rfl

theorem sim_step {s : Sys P X} {a : Ideal P X} (h : Sim s a) (op : Op P X) (ops : List (Op P X))
    (hl : s.NoReuse (op :: ops)) : Sim (s.step op) (a.step op) := by
  have h1 := hl.1
  cases op with
  | send p o => exact sim_send h p o h1
  | complete i o => exact sim_recv h _ trivial
  | stray pid o => exact sim_recv h _ h1
  | recvError e => exact sim_recv h _ trivial

theorem sim_run {s : Sys P X} {a : Ideal P X} (ops : List (Op P X)) (h : Sim s a) (hl : s.NoReuse ops) :
    Sim (s.runFrom ops) (ops.foldl Ideal.step a) := by
  induction ops generalizing s a with
  | nil => exact h
  | cons op ops ih => exact ih (sim_step h op ops hl) hl.2

end Verif.Executer
