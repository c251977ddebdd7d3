import Verif.Spec.PipelineFaults
import Verif.Platform.Win32Ahead
set_option linter.unusedSimpArgs false
set_option linter.unusedSectionVars false
/-!
# Commands sent ahead on Windows, when `DeviceIoControl` can fail
-/

namespace Verif.Platform.Win32
open Verif.Executer Verif.Spec
open Verif.Reactor (dict_get_set dict_get_erase dict_keys_erase)

namespace Ahead

variable {S δ : Type}

/-- A call of `DeviceIoControl` that fails: what it did to the device and what it left in memory. -/
structure Fault (δ : Type) where
  dev : δ → δ
  mem : Mem → Mem

/-- The port driver when it fails. `DeviceIoControl` returns false, `ioctl` raises `AsiWin32OSError` (win32.py:129-133), and `_os_send` (369-373) is left before
it appends the packet. -/
def failing (f : Fault δ) : PortDriver δ :=
  { ioctl := fun _ _ _ w => (.error .asiOs, ⟨f.mem w.mem, f.dev w.kernel⟩) }

/-- One thing the user does, and how the system fails at it, if it does. -/
abbrev LOp (δ : Type) := Pipeline.Op × Option (Fault δ)

/-- What the ideal knows of it. -/
def plain (op : LOp δ) : Pipeline.FOp δ := (op.1, op.2.map Fault.dev)

/-- One thing the user does, with the methods of the executer doing the work: `send` (__init__.py:99-110), `call` (77-91), `wait` (112-114). -/
def Live.fstep (b : Bool) (parse : Bytes → Py (Option S)) (dev : Device δ) (alloc : Nat → Alloc) (s : Live δ S) : LOp δ → Live δ S
  | (op, none) => Live.step b parse dev alloc s op
  | (.wait, some _) => Live.step b parse dev alloc s .wait
  | (.send c, some f) =>
    let r := Executer.send (prepare (W b) (fun _ => alloc s.next) c) (osSend (W b) (failing f)) (some (some s.next)) s.ex s.world
    match r.out with
    | .ok () => ⟨r.st, r.os, s.next + 1, s.log ++ [.accepted s.next]⟩
    | .error .nameError => ⟨r.st, r.os, s.next, s.log ++ [.refused]⟩
    | .error e => ⟨r.st, r.os, s.next + 1, s.log ++ [.raised e]⟩
  | (.call c, some f) =>
    let r := Executer.call (prepare (W b) (fun _ => alloc s.next) c) (osSend (W b) (failing f)) (osReceive (W b) parse) s.ex s.world
    match r.out with
    | .error (.py .nameError) => ⟨r.st, r.os, s.next, s.log ++ r.fired.flatMap seen ++ [.refused]⟩
    | .error (.py e) => ⟨r.st, r.os, s.next + 1, s.log ++ r.fired.flatMap seen ++ [.raised e]⟩
    | o => ⟨r.st, r.os, s.next + 1, s.log ++ r.fired.flatMap seen ++ [.returned s.next o]⟩

def Live.frunFrom (b : Bool) (parse : Bytes → Py (Option S)) (dev : Device δ) (alloc : Nat → Alloc) (s : Live δ S) (ops : List (LOp δ)) :
    Live δ S := ops.foldl (Live.fstep b parse dev alloc) s

def Live.frun (b : Bool) (parse : Bytes → Py (Option S)) (dev : Device δ) (alloc : Nat → Alloc) (limit : Nat) (m : Mem) (k : δ)
    (ops : List (LOp δ)) : Live δ S := Live.frunFrom b parse dev alloc (Live.init limit m k) ops

/-- A failing call writes to no memory but that of the command it was given. -/
def Within (b : Bool) (al : Alloc) (c : Req) (f : Fault δ) : Prop := ∀ m x, ¬ Inside b al c x → f.mem m x = m x

/-- The memory of a command never overlaps that of a command outstanding when it is given to the system, and the system keeps to it when it fails. -/
def FFresh (b : Bool) (parse : Bytes → Py (Option S)) (dev : Device δ) (alloc : Nat → Alloc) (limit : Nat)
    (s : Pipeline.State δ (Told S) (Result S)) : List (LOp δ) → Prop
  | [] => True
  | op :: ops =>
    (∀ c, Pipeline.given op.1 = some c → (∀ e ∈ Pipeline.keep limit s, Apart b alloc e.t e.cmd s.next c) ∧
      ∀ f, op.2 = some f → Within b (alloc s.next) c f) ∧
    FFresh b parse dev alloc limit (Pipeline.fstep dev limit (hear parse) (winOutcome parse) s (plain op)) ops

section
variable {b : Bool} {parse : Bytes → Py (Option S)} {dev : Device δ} {alloc : Nat → Alloc} {limit : Nat}

theorem dict_erase_set {α : Type} (d : Dict α) (k : Nat) (v : α) : Dict.erase (Dict.set d k v) k = Dict.erase d k := by
  induction d with
  | nil => simp [Dict.set, Dict.erase]
  | cons p r ih =>
    obtain ⟨k0, v0⟩ := p
    by_cases h : k0 = k
    · simp [Dict.set, Dict.erase, h]
    · simp [Dict.set, Dict.erase, h, ih]

theorem dict_erase_absent {α : Type} (d : Dict α) (k : Nat) (h : Dict.get d k = none) : Dict.erase d k = d := by
  induction d with
  | nil => rfl
  | cons p r ih =>
    obtain ⟨k0, v0⟩ := p
    by_cases h0 : k0 = k
    · simp [Dict.get, h0] at h
    · simp only [Dict.get, h0, if_false] at h
      simp [Dict.erase, h0, ih h]

/-- A command fails: it is not remembered, but its number is used up, and the command that held its place is forgotten. -/
theorem fail_rel {next : Nat} {items : List Item} {ex : St Spt (Option Nat)} {w : WinWorld δ}
    (hr : Rel b parse alloc limit some next items ex w) (hroom : items.length < limit) {c : Req} (hcdb : c.cdb.length ≤ 16)
    (hsize : dataSize c < 2 ^ 32) (hsep : Separate (bits b) (winRegions b (alloc next) c))
    (hap : ∀ x ∈ items.filter (fun x => decide (x.e.t + limit ≠ next)), Apart b alloc x.e.t x.e.cmd next c) (f : Fault δ)
    (hf : Within b (alloc next) c f) (k : Option Nat) :
    ∃ ex' w', Executer.send (prepare (W b) (fun _ => alloc next) c) (osSend (W b) (failing f)) (some k) ex w = ⟨.error .asiOs, ex', w'⟩ ∧
      w'.world.kernel = f.dev w.world.kernel ∧
      Rel b parse alloc limit some (next + 1) (items.filter (fun x => decide (x.e.t + limit ≠ next))) ex' w' := by
  have hl : 0 < limit := by omega
  obtain ⟨-, hx⟩ := win_apart hsep
  obtain ⟨h, hc, hb⟩ := create_built b (alloc next) (next % limit) c hcdb hsize hx
  have hsend : osSend (W b) (failing f) h w =
      (.error .asiOs, ⟨⟨f.mem (h.install w.world.mem), f.dev w.world.kernel⟩, w.incoming⟩) := rfl
  have hkept : ∀ x ∈ items.filter (fun x => decide (x.e.t + limit ≠ next)), x ∈ items ∧ x.e.t + limit ≠ next := by
    intro x hx; simpa using hx
  have hne : ∀ x ∈ items, x.e.t + limit ≠ next → x.e.t % limit ≠ next % limit := by
    intro x hx hn he
    obtain ⟨h1, h2⟩ := hr.young x hx
    have hd : (next - x.e.t) % limit = 0 := Nat.sub_mod_eq_zero_of_mod_eq he.symm
    have : next - x.e.t < limit := by omega
    rw [Nat.mod_eq_of_lt this] at hd
    omega
  refine ⟨{ ex with index := (next + 1) % limit, pending := Dict.erase ex.pending (next % limit) },
    ⟨⟨f.mem (h.install w.world.mem), f.dev w.world.kernel⟩, w.incoming⟩, ?_, rfl, ?_⟩
  · unfold Executer.send nextPacketIndex
    rw [if_neg (by rw [hr.count, hr.maxq]; omega)]
    simp only [prepare, hr.index, hr.maxq, hc, hsend, Nat.mod_add_mod, dict_erase_set]
  · have hmem : ∀ x ∈ items.filter (fun x => decide (x.e.t + limit ≠ next)), ∀ y, Inside b (alloc x.e.t) x.e.cmd y →
        f.mem (h.install w.world.mem) y = w.world.mem y := by
      intro x hx y hy
      have hno := apart_outside b (hap x hx) y hy
      rw [hf _ y hno, install_outside hb _ hno]
    refine ⟨hr.maxq, rfl, hr.sorted.filter _, ?_, ?_, ?_, ?_, ?_, fun x hx => hr.built x (hkept x hx).1, ?_, fun x hx => hr.parsed x (hkept x hx).1⟩
    · intro x hx
      obtain ⟨h1, h2⟩ := hkept x hx
      have := hr.young x h1
      omega
    · obtain ⟨junk, hj⟩ := hr.incoming
      rcases oldest items hr.sorted hr.young with ⟨h1, -⟩ | ⟨l, z, h1, -, h3, -⟩
      · rw [h1]; exact ⟨junk, by simp [hj]⟩
      · rw [h3]; exact ⟨z.h :: junk, by simp [hj, h1]⟩
    · show (Dict.keys (Dict.erase _ _)).Nodup
      rw [dict_keys_erase _ _ hr.nodup]
      exact hr.nodup.erase _
    · show (Dict.erase _ _).length = _
      rcases oldest items hr.sorted hr.young with ⟨h1, h2⟩ | ⟨l, z, h1, h2, h3, h4⟩
      · rw [h1, dict_erase_absent, hr.count]
        cases hg : Dict.get ex.pending (next % limit) with
        | none => rfl
        | some v =>
          obtain ⟨x, hx, he, -⟩ := (hr.pending _ _).1 hg
          exact absurd he (hne x hx (h2 x hx))
      · rw [h3]
        have hg : Dict.get ex.pending (next % limit) = some (z.h, some (some z.e.t)) :=
          (hr.pending _ _).2 ⟨z, by rw [h1]; simp, by rw [← h2, Nat.add_mod_right], rfl⟩
        have := Dict.erase_length_of_get hg
        have hc := hr.count
        rw [h1] at hc
        simp only [List.length_append, List.length_cons, List.length_nil] at hc
        omega
    · intro i v
      show Dict.get (Dict.erase _ _) i = some v ↔ _
      rw [dict_get_erase _ _ _ hr.nodup]
      by_cases hi : next % limit = i
      · rw [if_pos hi]
        constructor
        · intro hv; cases hv
        · rintro ⟨x, hx, he, -⟩
          obtain ⟨h1, h2⟩ := hkept x hx
          exact absurd (he.trans hi.symm) (hne x h1 h2)
      · rw [if_neg hi, hr.pending]
        constructor
        · rintro ⟨x, hx, he, hv⟩
          refine ⟨x, List.mem_filter.2 ⟨hx, ?_⟩, he, hv⟩
          simp only [decide_eq_true_eq]
          intro hn
          exact hi (by rw [← he, ← hn, Nat.add_mod_right])
        · rintro ⟨x, hx, he, hv⟩
          exact ⟨x, (hkept x hx).1, he, hv⟩
    · intro x hx
      show clsOut (classify (W b) parse x.h (f.mem (h.install w.world.mem))) = _
      rw [classify_congr (hr.built x (hkept x hx).1) parse (hmem x hx)]
      exact hr.said x (hkept x hx).1

theorem fail_full {cb : Nat → Option Nat} {next : Nat} {items : List Item} {ex : St Spt (Option Nat)} {w : WinWorld δ}
    (hr : Rel b parse alloc limit cb next items ex w) (hfull : limit ≤ items.length) (c : Req) (al : Nat → Alloc) (f : Fault δ) (k : Option Nat) :
    Executer.send (prepare (W b) al c) (osSend (W b) (failing f)) (some k) ex w = ⟨.error .nameError, ex, w⟩ := by
  unfold Executer.send nextPacketIndex
  rw [if_pos (by rw [hr.count, hr.maxq]; omega)]

theorem finv_step {cmds : Req → Prop} (hfit : Fits b alloc cmds) (hp : Parses parse dev) {s : Live δ S}
    {i : Pipeline.State δ (Told S) (Result S)} (h : Inv b parse alloc limit s i) (op : LOp δ) (hop : Pipeline.Gives cmds op.1)
    (hfr : FFresh b parse dev alloc limit i [op]) :
    Inv b parse alloc limit (Live.fstep b parse dev alloc s op)
      (Pipeline.fstep dev limit (hear parse) (winOutcome parse) i (plain op)) := by
  obtain ⟨op, f⟩ := op
  have hplain : Pipeline.Fresh (Apart b alloc) dev limit (hear parse) (winOutcome parse) i [op] := by
    refine ⟨?_, trivial⟩
    cases op with
    | send c => exact (hfr.1 c rfl).1
    | call c => exact (hfr.1 c rfl).1
    | wait => trivial
  cases f with
  | none => exact inv_step hfit hp h op hop hplain
  | some f =>
    cases op with
    | wait => exact inv_step hfit hp h .wait hop hplain
    | send c =>
      obtain ⟨hn, hlog, hdev, items, hit, hrel⟩ := h
      have hlen : i.out.length = items.length := by rw [← hit, List.length_map]
      by_cases hfull : limit ≤ items.length
      · have hs := fail_full hrel hfull c (fun _ => alloc i.next) f (some i.next)
        simp only [Live.fstep, plain, Option.map_some, Pipeline.fstep, Pipeline.failed, hn, hs, hlen, if_pos hfull]
        exact ⟨rfl, by rw [hlog], hdev, items, hit, hrel⟩
      · obtain ⟨h1, h2⟩ := hfr.1 c rfl
        obtain ⟨ex', w', h3, h4, h5⟩ := fail_rel hrel (by omega) (hfit.cdb c hop) (hfit.size c hop) (hfit.one c hop i.next)
          (fun x hx => h1 x.e (by rw [← keep_items hit]; exact List.mem_map_of_mem hx)) f (h2 f rfl) (some i.next)
        simp only [Live.fstep, plain, Option.map_some, Pipeline.fstep, Pipeline.failed, hn, h3, hlen, if_neg hfull]
        rw [hdev] at h4
        exact ⟨rfl, by rw [hlog], h4, _, keep_items hit, h5⟩
    | call c =>
      obtain ⟨hn, hlog, hdev, items, hit, hrel⟩ := h
      have hlen : i.out.length = items.length := by rw [← hit, List.length_map]
      by_cases hfull : limit ≤ items.length
      · have hs := fail_full hrel hfull c (fun _ => alloc i.next) f none
        have hc : Executer.call (prepare (W b) (fun _ => alloc i.next) c) (osSend (W b) (failing f)) (osReceive (W b) parse) s.ex s.world =
            ⟨.error (.py .nameError), [], s.ex, s.world⟩ := by
          unfold Executer.call
          simp only [hs]
        simp only [Live.fstep, plain, Option.map_some, Pipeline.fstep, Pipeline.failed, hn, hc, hlen, if_pos hfull]
        exact ⟨rfl, by simp [hlog], hdev, items, hit, hrel⟩
      · obtain ⟨h1, h2⟩ := hfr.1 c rfl
        obtain ⟨ex', w', h3, h4, h5⟩ := fail_rel hrel (by omega) (hfit.cdb c hop) (hfit.size c hop) (hfit.one c hop i.next)
          (fun x hx => h1 x.e (by rw [← keep_items hit]; exact List.mem_map_of_mem hx)) f (h2 f rfl) none
        have hc : Executer.call (prepare (W b) (fun _ => alloc i.next) c) (osSend (W b) (failing f)) (osReceive (W b) parse) s.ex s.world =
            ⟨.error (.py .asiOs), [], ex', w'⟩ := by
          unfold Executer.call
          simp only [h3]
        simp only [Live.fstep, plain, Option.map_some, Pipeline.fstep, Pipeline.failed, hn, hc, hlen, if_neg hfull]
        rw [hdev] at h4
        exact ⟨rfl, by simp [hlog], h4, _, keep_items hit, h5⟩

theorem finv_run {cmds : Req → Prop} (hfit : Fits b alloc cmds) (hp : Parses parse dev) (ops : List (LOp δ))
    (hops : ∀ op ∈ ops, Pipeline.Gives cmds op.1) (s : Live δ S) (i : Pipeline.State δ (Told S) (Result S)) (h : Inv b parse alloc limit s i)
    (hfr : FFresh b parse dev alloc limit i ops) :
    Inv b parse alloc limit (Live.frunFrom b parse dev alloc s ops)
      (Pipeline.frunFrom dev limit (hear parse) (winOutcome parse) i (ops.map plain)) := by
  induction ops generalizing s i with
  | nil => exact h
  | cons op ops ih =>
    exact ih (fun o ho => hops o (List.mem_cons_of_mem _ ho)) _ _
      (finv_step hfit hp h op (hops op List.mem_cons_self) ⟨hfr.1, trivial⟩) hfr.2

end

end Ahead
end Verif.Platform.Win32
