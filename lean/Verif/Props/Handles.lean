import Verif.Platform.Win32Overlapped
import Verif.Spec.Overlapped
set_option linter.unusedSimpArgs false
/-! # C92: handles are given back -/

namespace Verif.Platform.Win32
open Verif.Spec

/-- The handles of the file objects that are open. -/
def openFiles (fs : List FileObj) : List Nat := fs.filterMap fun f => if f.handle = -1 then none else some f.handle.toNat

/-- The events an operation created. -/
def eventOf : Did → Option Nat
  | .created 0 => none
  | .created h => some h
  | _ => none

/-- The events a program created, the last first. -/
def eventsMade (ds : List Did) : List Nat := (ds.filterMap eventOf).reverse

theorem openFiles_append (x y : List FileObj) : openFiles (x ++ y) = openFiles x ++ openFiles y := List.filterMap_append

theorem openFiles_close {fs : List FileObj} {i : Nat} {as : Bool} {h : Int} (hi : fs[i]? = some ⟨as, h⟩) (hh : h ≠ -1) :
    (openFiles fs).Perm (h.toNat :: openFiles (fs.set i ⟨as, -1⟩)) := by
  induction fs generalizing i with
  | nil => simp at hi
  | cons f r ih =>
    cases i with
    | zero =>
      simp only [List.getElem?_cons_zero, Option.some.injEq] at hi
      subst hi
      simp [openFiles, hh]
    | succ i =>
      have h1 := ih (i := i) (by simpa using hi)
      simp only [openFiles, List.set_cons_succ, List.filterMap_cons] at h1 ⊢
      cases hf : (if f.handle = -1 then none else some f.handle.toNat) with
      | none => simpa only [hf] using h1
      | some x =>
        simp only [hf]
        exact (h1.cons x).trans (List.Perm.swap ..)

/-- What holds throughout a program that started with the handles `t`. -/
structure Accounted (t : List Nat) (evs : List Nat) (p : Process) : Prop where
  table : p.table.Perm (openFiles p.files ++ (evs ++ t))
  nodup : p.table.Nodup

theorem fileOp_accounted {create} (hc : FreshHandles create) {t evs : List Nat} {p : Process} (h : Accounted t evs p) (op : FileOp) :
    Accounted t ((eventOf (fileOp create op p).1).toList ++ evs) (fileOp create op p).2 := by
  cases op with
  | «open» as =>
    simp only [fileOp]
    cases hx : create p.table with
    | none => exact h
    | some x =>
      refine ⟨?_, List.nodup_cons.2 ⟨(hc _ _ hx).2, h.nodup⟩⟩
      have : openFiles [(⟨as, (x : Int)⟩ : FileObj)] = [x] := by
        simp only [openFiles, List.filterMap_cons, List.filterMap_nil]
        rw [if_neg (by omega)]
        simp
      simp only [openFiles_append, this, eventOf, Option.toList_none, List.nil_append, List.append_assoc, List.singleton_append]
      exact (h.table.cons x).trans List.perm_middle.symm
  | ioctl i =>
    simp only [fileOp]
    split
    · cases hx : create p.table with
      | none => exact h
      | some x =>
        obtain ⟨h0, hn⟩ := hc _ _ hx
        refine ⟨?_, List.nodup_cons.2 ⟨hn, h.nodup⟩⟩
        have : eventOf (.created x) = some x := by cases x with
          | zero => exact absurd rfl h0
          | succ n => rfl
        simp only [this, Option.toList_some, List.singleton_append, List.cons_append]
        exact (h.table.cons x).trans List.perm_middle.symm
    · exact h
    · exact h
  | close i =>
    simp only [fileOp]
    split
    · rename_i as hd hi
      split
      · exact h
      · split
        · rename_i hne hmem
          refine ⟨?_, h.nodup.erase _⟩
          have h1 := openFiles_close hi hne
          have h2 := (h.table.trans (h1.append_right _)).erase hd.toNat
          simp only [List.cons_append, List.erase_cons_head] at h2
          exact h2
        · exact h
    · exact h

theorem fileOps_accounted {create} (hc : FreshHandles create) (t : List Nat) (ops : List FileOp) : ∀ {evs p}, Accounted t evs p →
    Accounted t (eventsMade (fileOps create ops p).1 ++ evs) (fileOps create ops p).2 := by
  induction ops with
  | nil => intro evs p h; simpa [fileOps, eventsMade] using h
  | cons op r ih =>
    intro evs p h
    have h1 := ih (fileOp_accounted hc h op)
    simp only [fileOps]
    have : eventsMade ((fileOp create op p).1 :: (fileOps create r (fileOp create op p).2).1) ++ evs =
        eventsMade (fileOps create r (fileOp create op p).2).1 ++ ((eventOf (fileOp create op p).1).toList ++ evs) := by
      simp only [eventsMade, List.filterMap_cons]
      cases eventOf (fileOp create op p).1 <;> simp
    rw [this]
    exact h1

/-- **C92 (exact)**: on every system, for every program, the handles a process has open are those it had at first, those of the files that
are open, and one for every event created: no request, finished or not, ever gives its event back. -/
theorem C92_exact {create} (hc : FreshHandles create) (t : List Nat) (ht : t.Nodup) (ops : List FileOp) :
    (fileOps create ops ⟨t, []⟩).2.table.Perm
      (openFiles (fileOps create ops ⟨t, []⟩).2.files ++ (eventsMade (fileOps create ops ⟨t, []⟩).1 ++ t)) := by
  have := (fileOps_accounted hc t ops (evs := []) (p := ⟨t, []⟩) ⟨List.Perm.refl _, ht⟩).table
  simpa using this

/-- A program that has closed all its files. -/
def AllClosed (p : Process) : Prop := ∀ f ∈ p.files, f.handle = -1

theorem openFiles_allClosed {p : Process} (h : AllClosed p) : openFiles p.files = [] := by
  simp only [openFiles, List.filterMap_eq_nil_iff]
  intro f hf
  rw [if_pos (h f hf)]

theorem sync_no_events {create} (ops : List FileOp) (hs : ∀ op ∈ ops, op ≠ .open true) : ∀ {p : Process}, (∀ f ∈ p.files, f.async = false) →
    eventsMade (fileOps create ops p).1 = [] := by
  induction ops with
  | nil => intro p _; rfl
  | cons op r ih =>
    intro p hp
    have key : eventOf (fileOp create op p).1 = none ∧ ∀ f ∈ (fileOp create op p).2.files, f.async = false := by
      cases op with
      | «open» as =>
        have has : as = false := by
          cases as with
          | false => rfl
          | true => exact absurd rfl (hs _ List.mem_cons_self)
        subst has
        simp only [fileOp]
        cases create p.table with
        | none => exact ⟨rfl, hp⟩
        | some x =>
          refine ⟨rfl, fun f hf => ?_⟩
          simp only [List.mem_append, List.mem_singleton] at hf
          rcases hf with hf | rfl
          · exact hp f hf
          · rfl
      | ioctl i =>
        simp only [fileOp]
        split
        · rename_i x hi
          exact absurd (hp _ (List.mem_of_getElem? hi)) (by simp)
        · exact ⟨rfl, hp⟩
        · exact ⟨rfl, hp⟩
      | close i =>
        simp only [fileOp]
        split
        · rename_i as hd hi
          split
          · exact ⟨rfl, hp⟩
          · split
            · refine ⟨rfl, fun f hf => ?_⟩
              rcases List.mem_or_eq_of_mem_set hf with hf | rfl
              · exact hp f hf
              · exact (hp ⟨as, hd⟩ (List.mem_of_getElem? hi) : as = false)
            · exact ⟨rfl, hp⟩
        · exact ⟨rfl, hp⟩
    have h1 := ih (fun o ho => hs o (List.mem_cons_of_mem _ ho)) key.2
    simp only [eventsMade, List.reverse_eq_nil_iff] at h1 ⊢
    simp only [fileOps, List.filterMap_cons, key.1, h1]

/-- **C92 (partial)**: a program that uses synchronous files only, in whatever order it opens, uses and closes them, some of them several
times, and has closed all of them at the end, has exactly the handles open it had at first. Missing: asynchronous files
(`C92_false`). -/
theorem C92_partial {create} (hc : FreshHandles create) (t : List Nat) (ht : t.Nodup) (ops : List FileOp) (hs : ∀ op ∈ ops, op ≠ .open true)
    (hcl : AllClosed (fileOps create ops ⟨t, []⟩).2) : (fileOps create ops ⟨t, []⟩).2.table.Perm t := by
  have h := C92_exact hc t ht ops
  rw [openFiles_allClosed hcl, sync_no_events ops hs (by simp)] at h
  exact h

/-- **C92 is false** for asynchronous files: whoever has closed all files has given everything back if and only if no event was
created, and every request creates one while there are handles left. -/
theorem C92_false {create} (hc : FreshHandles create) (t : List Nat) (ht : t.Nodup) (ops : List FileOp)
    (hcl : AllClosed (fileOps create ops ⟨t, []⟩).2) :
    (fileOps create ops ⟨t, []⟩).2.table.length = t.length + (eventsMade (fileOps create ops ⟨t, []⟩).1).length ∧
    ((fileOps create ops ⟨t, []⟩).2.table.Perm t ↔ eventsMade (fileOps create ops ⟨t, []⟩).1 = []) := by
  have h := C92_exact hc t ht ops
  rw [openFiles_allClosed hcl] at h
  have hl := h.length_eq
  simp only [List.nil_append, List.length_append] at hl h
  refine ⟨by omega, fun hp => ?_, fun he => ?_⟩
  · have := hp.length_eq
    exact List.eq_nil_of_length_eq_zero (by omega)
  · rw [he] at h; exact h

/-- One device used as `executers.windows` uses it, asynchronously: opened, asked once, closed. `k` devices were used before. -/
def useOnce (k : Nat) : List FileOp := [.open true, .ioctl k, .close k]

def useMany (n : Nat) : List FileOp := (List.range n).flatMap useOnce

theorem fileOps_append (create) (x y : List FileOp) (p : Process) :
    fileOps create (x ++ y) p = ((fileOps create x p).1 ++ (fileOps create y (fileOps create x p).2).1, (fileOps create y (fileOps create x p).2).2) := by
  induction x generalizing p with
  | nil => rfl
  | cons op r ih => simp only [List.cons_append, fileOps, ih]

theorem useOnce_files (n : Nat) (h : Int) : (List.replicate n (⟨true, -1⟩ : FileObj) ++ [⟨true, h⟩])[n]? = some ⟨true, h⟩ := by
  simp

theorem useOnce_set (n : Nat) (h : Int) :
    (List.replicate n (⟨true, -1⟩ : FileObj) ++ [(⟨true, h⟩ : FileObj)]).set n (⟨true, -1⟩ : FileObj) = List.replicate (n + 1) (⟨true, -1⟩ : FileObj) := by
  rw [List.set_append_right _ _ (by simp)]
  simp [List.replicate_succ']

/-- One use, when the process has one handle left for the device: with another one left the event is a real one, and stays open; with no
other left it is null. -/
theorem useOnce_step {limit create} (hl : Limited limit create) (n : Nat) (T : List Nat) (hT : T.length < limit) :
    (T.length + 2 ≤ limit → ∃ e, e ≠ 0 ∧ fileOps create (useOnce n) ⟨T, List.replicate n ⟨true, -1⟩⟩ =
      ([.opened, .created e, .closed], ⟨e :: T, List.replicate (n + 1) ⟨true, -1⟩⟩)) ∧
    (limit < T.length + 2 → fileOps create (useOnce n) ⟨T, List.replicate n ⟨true, -1⟩⟩ =
      ([.opened, .created 0, .closed], ⟨T, List.replicate (n + 1) ⟨true, -1⟩⟩)) := by
  obtain ⟨h, hh⟩ := hl.gives T hT
  have hne : ¬ ((h : Int) = -1) := by omega
  refine ⟨fun h2 => ?_, fun h2 => ?_⟩
  · obtain ⟨e, he⟩ := hl.gives (h :: T) (by simp; omega)
    obtain ⟨h0, hm⟩ := hl.fresh _ _ he
    have hne' : e ≠ h := fun hx => hm (by simp [hx])
    refine ⟨e, h0, ?_⟩
    simp only [useOnce, fileOps, fileOp, hh, useOnce_files, he, if_neg hne, Int.toNat_natCast]
    rw [if_pos (by simp), List.erase_cons_tail (by simpa using hne'), List.erase_cons_head]
    simp only [useOnce_set]
  · have he := hl.refuses (h :: T) (by simp; omega)
    simp only [useOnce, fileOps, fileOp, hh, useOnce_files, he, if_neg hne, Int.toNat_natCast]
    rw [if_pos (by simp), List.erase_cons_head]
    simp only [useOnce_set]

/-- **C92 fails for good**: on a system that lets a process have `limit` handles, a program that uses one device after the other, and closes
each of them, keeps a handle for every one of them until only one is left; from then on every event is the null handle
(`kernel32.CreateEventW` fails, unnoticed), which cannot be waited for. -/
theorem C92_exhausted {limit create} (hl : Limited limit create) (t : List Nat) (ht : t.length < limit) (n : Nat) :
    AllClosed (fileOps create (useMany n) ⟨t, []⟩).2 ∧
    (fileOps create (useMany n) ⟨t, []⟩).2.table.length = t.length + min n (limit - t.length - 1) ∧
    (limit - t.length - 1 ≤ n → (fileOps create (useMany n ++ [.open true, .ioctl n]) ⟨t, []⟩).1.getLast? = some (.created 0)) := by
  have key : ∀ n, (fileOps create (useMany n) ⟨t, []⟩).2.files = List.replicate n ⟨true, -1⟩ ∧
      (fileOps create (useMany n) ⟨t, []⟩).2.table.length = t.length + min n (limit - t.length - 1) := by
    intro n
    induction n with
    | zero => exact ⟨rfl, by simp [useMany, fileOps]⟩
    | succ n ih =>
      have hrw : useMany (n + 1) = useMany n ++ useOnce n := by
        simp [useMany, List.range_succ, List.flatMap_append]
      rw [hrw, fileOps_append]
      generalize fileOps create (useMany n) ⟨t, []⟩ = q at ih
      obtain ⟨ds, T, fs⟩ := q
      obtain ⟨rfl, hlen⟩ := ih
      simp only at hlen
      obtain ⟨s1, s2⟩ := useOnce_step hl n T (by omega)
      by_cases hc : T.length + 2 ≤ limit
      · obtain ⟨e, -, he⟩ := s1 hc
        rw [he]
        clear s1 s2 he
        exact ⟨rfl, by simp only [List.length_cons]; omega⟩
      · rw [s2 (by omega)]
        clear s1 s2
        exact ⟨rfl, by simp only; omega⟩
  obtain ⟨k1, k2⟩ := key n
  refine ⟨?_, k2, fun hn => ?_⟩
  · intro f hf
    rw [k1] at hf
    rw [List.eq_of_mem_replicate hf]
  · rw [fileOps_append]
    generalize fileOps create (useMany n) ⟨t, []⟩ = q at k1 k2
    obtain ⟨ds, T, fs⟩ := q
    simp only at k1 k2
    subst k1
    obtain ⟨h, hh⟩ := hl.gives T (by omega)
    have he := hl.refuses (h :: T) (by simp; omega)
    simp only [fileOps, fileOp, hh, useOnce_files, he]
    simp

/-- A system with room for `limit` handles: always one above the largest in use. -/
def nextUp (limit : Nat) (t : List Nat) : Option Nat := if t.length < limit then some (t.foldr max 0 + 1) else none

theorem le_foldr_max (t : List Nat) : ∀ x ∈ t, x ≤ t.foldr max 0 := by
  induction t with
  | nil => simp
  | cons y r ih =>
    intro x hx
    simp only [List.foldr_cons]
    rcases List.mem_cons.1 hx with rfl | hx
    · omega
    · have := ih x hx; omega

/-- The hypotheses are met. -/
theorem nextUp_limited (limit : Nat) : Limited limit (nextUp limit) := by
  refine ⟨fun t h hx => ?_, fun t ht => ⟨_, if_pos ht⟩, fun t ht => if_neg (by omega)⟩
  unfold nextUp at hx
  split at hx
  · cases hx
    exact ⟨by omega, fun hm => by have := le_foldr_max t _ hm; omega⟩
  · cases hx

/-- Two asynchronous devices and a synchronous one, all closed, one of them twice: the two events stay. -/
example : fileOps (nextUp 100) [.open true, .open false, .ioctl 0, .ioctl 1, .close 0, .open true, .ioctl 2, .close 1, .close 0, .close 2] ⟨[1, 2], []⟩ =
    ([.opened, .opened, .created 5, .nothing, .closed, .opened, .created 7, .closed, .nothing, .closed],
     ⟨[7, 5, 1, 2], [⟨true, -1⟩, ⟨false, -1⟩, ⟨true, -1⟩]⟩) := by decide

end Verif.Platform.Win32
