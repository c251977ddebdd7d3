import Verif.Props.Executer
import Verif.Props.Coroutine
import Verif.Props.Os

/-! Concrete cases that meet the hypotheses of theorems about the executer, the coroutines and the operating system files. Nothing here
is a claim: each example applies a theorem of `Verif/Props` to one non-trivial case, to show that the theorem is not empty. -/

namespace Verif.Executer

/-- `C04_partial`: one command is pending under number 1, the system call for the second one fails. -/
example : (send (fun n => .ok n) (fun _ w => (.error .ioError, w + 1)) (some 5) ⟨[(1, (9, some 4))], 2, 7⟩ 0).st.pending =
    [(1, (9, some 4))] :=
  (C04_partial (fun n => .ok n) (fun _ w => (.error .ioError, w + 1)) (some 5) ⟨[(1, (9, some 4))], 2, 7⟩ 0 .ioError
    (by simp [Dict.keys]) rfl).1

end Verif.Executer

namespace Verif.Coroutine

/-- Generators 1 and 2 pass exceptions on and count that they did, generator 0 handles them by yielding what it counted. -/
def countingDemo : Machine Nat Nat Nat String Unit where
  none := 0
  resume g i s :=
    match g, i with
    | 3, _ => (s, .raises "boom")
    | 0, .throw _ => (s, .yields (.plain s) 4)
    | 4, _ => (s, .ret)
    | g, .throw e => (s + g, .raises e)
    | _, _ => (s, .ret)
  await _ s := (s, .ok (.send 0))

/-- `C10_innermost`: generator 3 raises below generators 1 and 2, which pass the exception on to generator 0. -/
example : ∃ n, SyncLoop countingDemo ⟨[3, 2, 1, 0], .send 0, none, 0⟩ (.returned (some (.plain 3)) 3) n :=
  (C10_innermost countingDemo "boom" (fun g s => s + g) 3 (.send 0) 0 0 none [2, 1] 0 [] _ rfl (by
    intro x hx s
    simp only [List.mem_cons, List.not_mem_nil, or_false] at hx
    rcases hx with rfl | rfl <;> rfl)).1
    ⟨_, .step rfl (.step rfl (.done _ _ _))⟩

end Verif.Coroutine

namespace Verif.Contexts

/-- `C23_executer`: on AIX opening gives descriptor 7. -/
example : (withExecuter (ε := Unit) .aix ⟨.aix, .ok 7, .ok ()⟩ (fun x => ([x], .ok ()))).1 =
    [.opened 7, .inside ⟨.aix, 7, 1, some 30⟩, .closed 7] :=
  (C23_executer ⟨.aix, .ok 7, .ok ()⟩ 7 rfl rfl).2.2.2.2 rfl

/-- `C23_not_opened`: the device does not exist. -/
example : withExecuter .linux_sg ⟨.linux, .error .asiOs, .ok ()⟩ (fun _ => ([1], (.ok 2 : Except String Nat))) =
    ([], .error (.lib .asiOs)) :=
  C23_not_opened _ _ _ _ rfl

/-- `C23_leak`: the executer refuses the arguments it is given. -/
example : managed (fun _ => .error .typeError) ⟨.windows, .ok 7, .ok ()⟩ (fun _ => ([1], (.ok 2 : Except String Nat))) =
    ([.opened 7], .error (.lib .typeError)) :=
  C23_leak _ _ _ 7 _ rfl rfl

/-- `C23_win32_close_twice`: an open handle. -/
example : ((Win32File.close ⟨44⟩ true).2.1.close false).2.2 = false :=
  (congrArg (fun x => x.2.2) (C23_win32_close_twice ⟨44⟩ false (by decide)).2)

end Verif.Contexts

namespace Verif.Unix

/-- A descriptor that is never readable; the clock advances by 25 with every round. -/
def silent : Env := { start := 100, ready := fun _ => false, clock := fun k => 100 + 25 * k, osRead := fun _ => .ok [] }

theorem silent_reads : Reads silent 60 (.error .ioError) 3 := ⟨4, rfl⟩

/-- `C24_timeout_partial` and `C24_waits`: with a timeout of 60 the fourth round gives up. -/
example : 60 < silent.clock 3 - silent.start := by
  rcases C24_timeout_partial silent 60 _ 3 silent_reads with h | h
  · exact absurd h.1 (by decide)
  · exact h.2.1

example : silent.clock 2 - silent.start ≤ 60 := C24_waits silent 60 _ 3 silent_reads 2 (by decide)

/-- `C24_ends`, `C24_deterministic`. -/
example : ∃ r n, Reads silent 60 r n := C24_ends silent 60 (by intro k; simp only [silent]; omega)

example (r : Py Bytes) (n : Nat) (h : Reads silent 60 r n) : n = 3 := (C24_deterministic silent 60 _ _ _ _ h silent_reads).2

end Verif.Unix
