import Verif.ExecuterGen
import Verif.Spec.Coroutine
/-! # Running the generators of the executer, as direct-style programs -/
set_option linter.unusedSimpArgs false
set_option linter.unusedSectionVars false

namespace Verif.ExecuterGen

open Verif.Executer Verif.Coroutine

variable {C Q K D E R Gp T ω : Type} [DecidableEq K]

/-- The platform's generators compute the given functions. -/
structure Implements (m : Mode) (P : Plat Gp Q K D E R T ω) (osSend : Q → ω → Py Unit × ω)
    (recv : St Q (Option K) → ω → Py (Outcome D E × Nat) × ω) : Prop where
  send : ∀ s q w r, ∃ r' fin, Eval m (P.machine s) (P.sendGen q) (.send .none) w r (osSend q w).2 r' fin ∧
    match (osSend q w).1 with
    | .ok () => ∃ v, fin = .val v
    | .error e => fin = .raised (.py e)
  recv : ∀ s w r, ∃ r' fin, Eval m (P.machine s) P.recvGen (.send .none) w r (recv s w).2 r' fin ∧
    match (recv s w).1 with
    | .ok (o, j) => fin = .val (.resp o j)
    | .error e => fin = .raised (.py e)

theorem os_resume {P : Plat Gp Q K D E R T ω} (prepare : C → Nat → Py Q) {s : St Q (Option K)} {g i w w' o}
    (h : (P.machine s).resume g i w = (w', o)) (fd : List (Option K × CbArgs D E)) (bx : Option K → List (CbArgs D E)) :
    (machine P prepare).resume (.os g) i ⟨s, w, fd, bx⟩ = (⟨s, w', fd, bx⟩, liftOut o) := by
  simp only [Plat.machine] at h
  simp only [machine, resume, h]

theorem os_await {P : Plat Gp Q K D E R T ω} (prepare : C → Nat → Py Q) {s : St Q (Option K)} {t w w' o}
    (h : (P.machine s).await t w = (w', o)) (fd : List (Option K × CbArgs D E)) (bx : Option K → List (CbArgs D E)) :
    (machine P prepare).await t ⟨s, w, fd, bx⟩ = (⟨s, w', fd, bx⟩, o) := by
  simp only [Plat.machine] at h
  simp only [machine, h]

/-- A run of the platform's generators is a run of the whole machine. -/
theorem lift_eval {P : Plat Gp Q K D E R T ω} {prepare : C → Nat → Py Q} {s : St Q (Option K)} {m : Mode} {g i w r w' r' f}
    (h : Eval m (P.machine s) g i w r w' r' f) (fd : List (Option K × CbArgs D E)) (bx : Option K → List (CbArgs D E)) :
    ∀ r0, ∃ r1, Eval m (machine P prepare) (.os g) i ⟨s, w, fd, bx⟩ r0 ⟨s, w', fd, bx⟩ r1 f := by
  induction h with
  | ret h => exact fun r0 => ⟨_, .ret (os_resume prepare h fd bx)⟩
  | raises h => exact fun r0 => ⟨_, .raises (os_resume prepare h fd bx)⟩
  | plain h _ ih =>
    intro r0
    obtain ⟨r1, h1⟩ := ih _
    exact ⟨r1, .plain (os_resume prepare h fd bx) h1⟩
  | exc h _ ih =>
    intro r0
    obtain ⟨r1, h1⟩ := ih _
    exact ⟨r1, .exc (os_resume prepare h fd bx) h1⟩
  | @call g i s1 s2 r child g' s3 r2 fc i' s' r' f h _ ha _ ih1 ih2 =>
    intro r0
    obtain ⟨r1, h1⟩ := ih1 (some (.gen (.os child)))
    obtain ⟨r2, h2⟩ := ih2 r1
    refine ⟨r2, .call (child := .os child) (os_resume prepare h fd bx) h1 ?_ h2⟩
    rw [← ha]; cases fc <;> cases m <;> rfl
  | io h ha _ ih =>
    intro r0
    obtain ⟨r1, h1⟩ := ih _
    exact ⟨r1, .io (os_resume prepare h fd bx) (os_await prepare ha fd bx) h1⟩
  | ioErrIdeal hm h ha _ ih =>
    intro r0
    obtain ⟨r1, h1⟩ := ih _
    exact ⟨r1, .ioErrIdeal hm (os_resume prepare h fd bx) (os_await prepare ha fd bx) h1⟩
  | ioErrActual hm h ha =>
    intro r0
    exact ⟨_, .ioErrActual hm (os_resume prepare h fd bx) (os_await prepare ha fd bx)⟩

section
variable {m : Mode} {P : Plat Gp Q K D E R T ω} {osSend : Q → ω → Py Unit × ω}
  {recv : St Q (Option K) → ω → Py (Outcome D E × Nat) × ω} (hP : Implements m P osSend recv) (prepare : C → Nat → Py Q)

theorem Dict.get_set_self {α} (d : Dict α) (k : Nat) (v : α) : Dict.get (Dict.set d k v) k = some v := by
  induction d with
  | nil => simp [Dict.set, Dict.get]
  | cons p r ih =>
    obtain ⟨k', v'⟩ := p
    by_cases h : k' = k <;> simp [Dict.set, Dict.get, h, ih]

theorem get_mem {α} {d : Dict α} {k : Nat} {v : α} (h : Dict.get d k = some v) : (k, v) ∈ d := by
  induction d with
  | nil => simp [Dict.get] at h
  | cons p r ih =>
    obtain ⟨k', v'⟩ := p
    by_cases hk : k' = k
    · simp only [Dict.get, hk, if_true, Option.some.injEq] at h
      simp [hk, h]
    · simp only [Dict.get, hk, if_false] at h
      exact List.mem_cons_of_mem _ (ih h)

theorem erase_mem {α} {d : Dict α} {k : Nat} {p : Nat × α} (h : p ∈ Dict.erase d k) : p ∈ d := by
  induction d with
  | nil => simp [Dict.erase] at h
  | cons q r ih =>
    obtain ⟨k', v'⟩ := q
    by_cases hk : k' = k
    · simp only [Dict.erase, hk, if_true] at h
      exact List.mem_cons_of_mem _ h
    · simp only [Dict.erase, hk, if_false, List.mem_cons] at h
      rcases h with h | h
      · exact List.mem_cons.2 (.inl h)
      · exact List.mem_cons_of_mem _ (ih h)

include hP in
/-- `send` as a generator is `Executer.send`. -/
theorem send_eval (c : C) (cb : Option (Option K)) (w : W Q K D E ω) (v : Val D E R) (r) :
    let x := Executer.send (prepare c) osSend cb w.st w.os
    ∃ r' fin, Eval m (machine P prepare) (.send c cb) (.send v) w r { w with st := x.st, os := x.os } r' fin ∧
      match x.out with
      | .ok () => ∃ v, fin = .val v
      | .error e => fin = .raised (.py e) := by
  intro x
  obtain ⟨s, os, fd, bx⟩ := w
  cases hn : nextPacketIndex s with
  | error e =>
    have hx : x = ⟨.error e, s, os⟩ := by simp only [x, Executer.send, hn]
    rw [hx]
    exact ⟨_, _, .raises (by simp only [machine, resume, resumeSend, hn]), rfl⟩
  | ok p =>
    obtain ⟨i, s1⟩ := p
    cases hp : prepare c i with
    | error e =>
      have hx : x = ⟨.error e, s1, os⟩ := by simp only [x, Executer.send, hn, hp]
      rw [hx]
      exact ⟨_, _, .raises (by simp only [machine, resume, resumeSend, hn, hp]), rfl⟩
    | ok q =>
      obtain ⟨rp, finp, he, hf⟩ := hP.send { s1 with pending := Dict.set s1.pending i (q, cb) } q os none
      obtain ⟨r1, h1⟩ := lift_eval (prepare := prepare) he fd bx (some (.gen (.os (P.sendGen q))))
      rcases ho : osSend q os with ⟨o, os'⟩
      rw [ho] at hf h1
      cases o with
      | error e =>
        simp only at hf
        subst hf
        have hx : x = ⟨.error e, { s1 with pending := Dict.erase (Dict.set s1.pending i (q, cb)) i }, os'⟩ := by
          simp only [x, Executer.send, hn, hp, ho]
        rw [hx]
        refine ⟨_, _, .call (by simp only [machine, resume, resumeSend, hn, hp]; rfl) h1 (i' := .throw (.py e)) rfl (.raises ?_), rfl⟩
        simp only [machine, resume, resumeSendExcept, Dict.get_set_self]
      | ok u =>
        simp only at hf
        obtain ⟨v, rfl⟩ := hf
        have hx : x = ⟨.ok (), { s1 with pending := Dict.set s1.pending i (q, cb) }, os'⟩ := by
          simp only [x, Executer.send, hn, hp, ho]
        rw [hx]
        exact ⟨_, _, .call (by simp only [machine, resume, resumeSend, hn, hp]; rfl) h1 (i' := .send v) rfl (.ret rfl), v, rfl⟩

/-- Where the callbacks of `_process_pending_response` go. -/
def record (fired : Option (Option K × CbArgs D E)) (w : W Q K D E ω) : W Q K D E ω :=
  match fired with
  | none => w
  | some (k, a) => { w with box := setBox w.box k (w.box k ++ [a]), fired := match k with | none => w.fired | some k => w.fired ++ [(some k, a)] }

include hP in
theorem processGot_eval (w : W Q K D E ω) (r) :
    let x := Executer.process recv w.st w.os
    ∃ r' fin, Eval m (machine P prepare) .processEmpty (.send (.bool false)) w r (record x.fired { w with st := x.st, os := x.os }) r' fin ∧
      match x.out with
      | .ok _ => fin = .val (.bool true)
      | .error e => fin = .raised (.py e) := by
  intro x
  obtain ⟨s, os, fd, bx⟩ := w
  obtain ⟨rp, finp, he, hf⟩ := hP.recv s os none
  obtain ⟨r1, h1⟩ := lift_eval (prepare := prepare) he fd bx (some (.gen (.os P.recvGen)))
  rcases ho : recv s os with ⟨o, os'⟩
  rw [ho] at hf h1
  cases o with
  | error e =>
    simp only at hf
    subst hf
    have hx : x = ⟨.error e, none, s, os'⟩ := by simp only [x, Executer.process, ho]
    rw [hx]
    exact ⟨_, _, .call rfl h1 (i' := .throw (.py e)) rfl (.raises rfl), rfl⟩
  | ok p =>
    obtain ⟨o, j⟩ := p
    simp only at hf
    subst hf
    cases hg : Dict.get s.pending j with
    | none =>
      have hx : x = ⟨.error .asiInternal, none, s, os'⟩ := by simp only [x, Executer.process, ho, hg]
      rw [hx]
      exact ⟨_, _, .call rfl h1 (i' := .send (.resp o j)) rfl (.raises (by simp only [machine, resume, resumeProcessGot, hg]; rfl)), rfl⟩
    | some qc =>
      obtain ⟨q, cb⟩ := qc
      cases cb with
      | none =>
        have hx : x = ⟨.error .typeError, none, { s with pending := Dict.erase s.pending j }, os'⟩ := by
          simp only [x, Executer.process, ho, hg]
        rw [hx]
        exact ⟨_, _, .call rfl h1 (i' := .send (.resp o j)) rfl (.raises (by simp only [machine, resume, resumeProcessGot, hg]; rfl)), rfl⟩
      | some k =>
        have hx : x = ⟨.ok true, some (k, cbArgs o), { s with pending := Dict.erase s.pending j }, os'⟩ := by
          simp only [x, Executer.process, ho, hg]
        rw [hx]
        cases k with
        | none =>
          exact ⟨_, _, .call rfl h1 (i' := .send (.resp o j)) rfl
            (.plain (g' := .processEnd) (by simp only [machine, resume, resumeProcessGot, hg]; rfl) (.ret rfl)), rfl⟩
        | some k =>
          exact ⟨_, _, .call rfl h1 (i' := .send (.resp o j)) rfl
            (.plain (g' := .processEnd) (by simp only [machine, resume, resumeProcessGot, hg]; rfl) (.ret rfl)), rfl⟩

include hP in
/-- `_process_pending_response` as a generator is `Executer.process`. -/
theorem process_eval (w : W Q K D E ω) (v : Val D E R) (r) :
    let x := Executer.process recv w.st w.os
    ∃ r' fin, Eval m (machine P prepare) .process (.send v) w r (record x.fired { w with st := x.st, os := x.os }) r' fin ∧
      match x.out with
      | .ok _ => fin = .val (.bool true)
      | .error e => fin = .raised (.py e) := by
  intro x
  by_cases he : isQueueEmpty w.st = true
  · obtain ⟨r', fin, h, hf⟩ := processGot_eval hP prepare w (some (.plain (.bool false)))
    exact ⟨r', fin, .plain (g' := .processEmpty) (by simp only [machine, resume, he, if_true]) h, hf⟩
  · obtain ⟨r', fin, h, hf⟩ := processGot_eval hP prepare w r
    have hstep : ∀ v, (machine P prepare).resume .process (.send v) w = (machine P prepare).resume .processEmpty (.send (.bool false)) w := by
      intro v
      simp only [machine, resume, he, if_false, Bool.false_eq_true]
    refine ⟨r', fin, ?_, hf⟩
    cases h with
    | ret h => simp [machine, resume] at h
    | raises h => simp [machine, resume] at h
    | plain h => simp [machine, resume] at h
    | exc h => simp [machine, resume] at h
    | call h a b c => exact .call (by rw [hstep]; exact h) a b c
    | io h => simp [machine, resume] at h
    | ioErrIdeal hm h => simp [machine, resume] at h
    | ioErrActual hm h => simp [machine, resume] at h

/-- How a call's outcome shows to a driver: the value it yielded last, or what it raised. -/
def callFin : Except (Exn E) (Option D) → Fin (Val D E R) (Exn E)
  | .ok d => .val (.data d)
  | .error e => .raised e

include hP in
theorem callLoop_eval (n : Nat) : ∀ (w : W Q K D E ω) (v : Val D E R) (r), w.st.pending.length ≤ n → w.box none = [] →
    let x := Executer.callLoop recv w.st w.os
    ∃ bx r', Eval m (machine P prepare) .callLoop (.send v) w r
      { st := x.st, os := x.os, fired := w.fired ++ x.fired, box := bx } r' (callFin x.out) ∧
      ∀ d, x.out = .ok d → r' = some (.plain (.data d)) := by
  induction n with
  | zero =>
    intro w v r hn hb x
    obtain ⟨s, os, fd, bx0⟩ := w
    simp only at hb
    obtain ⟨r1, fin, h1, hf⟩ := process_eval hP prepare ⟨s, os, fd, bx0⟩ .none (some (.gen .process))
    cases ho : (Executer.process recv s os).out with
    | ok b =>
      have := process_ok_length ho
      simp only at hn
      omega
    | error e =>
      simp only at hf h1
      rw [ho] at hf
      simp only at hf
      subst hf
      have hfd : (Executer.process recv s os).fired = none := by
        revert ho
        unfold Executer.process
        split
        · simp
        · split
          · simp
          · dsimp only; split <;> simp
      have hx : x = ⟨.error (.py e), [], (Executer.process recv s os).st, (Executer.process recv s os).os⟩ := by
        simp only [x]
        rw [Executer.callLoop]
        split
        · rename_i e' he'; rw [ho] at he'; cases he'; simp [hfd]
        · rename_i b hb; rw [ho] at hb; cases hb
      rw [hx]
      rw [hfd] at h1
      refine ⟨bx0, _, .call (g' := .callLoop) (by simp only [machine, resume, resumeCallLoop, hb]) h1 (i' := .throw (.py e)) rfl (.raises ?_), by simp⟩
      simp [machine, resume, record]
  | succ n ih =>
    intro w v r hn hb x
    obtain ⟨s, os, fd, bx0⟩ := w
    simp only at hb
    obtain ⟨r1, fin, h1, hf⟩ := process_eval hP prepare ⟨s, os, fd, bx0⟩ .none (some (.gen .process))
    cases ho : (Executer.process recv s os).out with
    | error e =>
      simp only at hf h1
      rw [ho] at hf
      simp only at hf
      subst hf
      have hfd : (Executer.process recv s os).fired = none := by
        revert ho
        unfold Executer.process
        split
        · simp
        · split
          · simp
          · dsimp only; split <;> simp
      have hx : x = ⟨.error (.py e), [], (Executer.process recv s os).st, (Executer.process recv s os).os⟩ := by
        simp only [x]
        rw [Executer.callLoop]
        split
        · rename_i e' he'; rw [ho] at he'; cases he'; simp [hfd]
        · rename_i b hb; rw [ho] at hb; cases hb
      rw [hx]
      rw [hfd] at h1
      refine ⟨bx0, _, .call (g' := .callLoop) (by simp only [machine, resume, resumeCallLoop, hb]) h1 (i' := .throw (.py e)) rfl (.raises ?_), by simp⟩
      simp [machine, resume, record]
    | ok b =>
      have hlen := process_ok_length ho
      simp only at hf h1 hn
      rw [ho] at hf
      simp only at hf
      subst hf
      rcases hfd : (Executer.process recv s os).fired with _ | ⟨k, a⟩
      · -- nothing fired: impossible after a successful `process`
        exfalso
        revert ho hfd
        unfold Executer.process
        split
        · simp
        · split
          · simp
          · dsimp only; split <;> simp
      · rw [hfd] at h1
        cases k with
        | none =>
          have hx : x = ⟨match a.exc with | some e => .error (.dev e) | none => .ok a.data, [],
              (Executer.process recv s os).st, (Executer.process recv s os).os⟩ := by
            simp only [x]
            rw [Executer.callLoop]
            split
            · rename_i e' he'; rw [ho] at he'; cases he'
            · rw [hfd]; simp only; cases a.exc <;> rfl
          rw [hx]
          cases hae : a.exc with
          | some e =>
            refine ⟨setBox bx0 none [a], _, .call (g' := .callLoop) (by simp only [machine, resume, resumeCallLoop, hb]) h1 (i' := .send (.bool true)) rfl (.raises ?_), by simp⟩
            simp [machine, resume, record, resumeCallLoop, hae, setBox, hb]
          | none =>
            refine ⟨setBox bx0 none [a], _, .call (g' := .callLoop) (by simp only [machine, resume, resumeCallLoop, hb]) h1 (i' := .send (.bool true)) rfl
              (.plain (v := .data a.data) (g' := .callEnd)
                (s1 := ⟨(Executer.process recv s os).st, (Executer.process recv s os).os, fd, setBox bx0 none [a]⟩) ?_ (.ret ?_)), ?_⟩
            · simp [machine, resume, record, resumeCallLoop, hae, setBox, hb]
            · simp [machine, resume]
            · intro d hd; cases hd; rfl
        | some k =>
          have hx : x = ⟨(Executer.callLoop recv (Executer.process recv s os).st (Executer.process recv s os).os).out,
              (some k, a) :: (Executer.callLoop recv (Executer.process recv s os).st (Executer.process recv s os).os).fired,
              (Executer.callLoop recv (Executer.process recv s os).st (Executer.process recv s os).os).st,
              (Executer.callLoop recv (Executer.process recv s os).st (Executer.process recv s os).os).os⟩ := by
            simp only [x]
            rw [Executer.callLoop]
            split
            · rename_i e' he'; rw [ho] at he'; cases he'
            · rw [hfd]; rfl
          obtain ⟨bx, r', h2, hr⟩ := ih ⟨(Executer.process recv s os).st, (Executer.process recv s os).os, fd ++ [(some k, a)],
            setBox bx0 (some k) (bx0 (some k) ++ [a])⟩ (.bool true) r1 (by simp only; omega) (by simp [setBox, hb])
          rw [hx]
          refine ⟨bx, r', .call (g' := .callLoop) (by simp only [machine, resume, resumeCallLoop, hb]) h1 (i' := .send (.bool true)) rfl ?_, hr⟩
          simp only [record]
          simp only [List.append_assoc, List.singleton_append] at h2 ⊢
          exact h2

include hP in
/-- `call` as a generator is `Executer.call`. -/
theorem call_eval (c : C) (w : W Q K D E ω) (v : Val D E R) (r) :
    let x := Executer.call (prepare c) osSend recv w.st w.os
    ∃ bx r', Eval m (machine P prepare) (.call c) (.send v) w r
      { st := x.st, os := x.os, fired := w.fired ++ x.fired, box := bx } r' (callFin x.out) ∧
      ∀ d, x.out = .ok d → r' = some (.plain (.data d)) := by
  intro x
  obtain ⟨s, os, fd, bx⟩ := w
  obtain ⟨r1, fin, h1, hf⟩ := send_eval hP prepare c (some none) ⟨s, os, fd, setBox bx none []⟩ .none (some (.gen (.send c (some none))))
  cases ho : (Executer.send (prepare c) osSend (some none) s os).out with
  | error e =>
    simp only at hf h1
    rw [ho] at hf
    simp only at hf
    subst hf
    have hx : x = ⟨.error (.py e), [], (Executer.send (prepare c) osSend (some none) s os).st,
        (Executer.send (prepare c) osSend (some none) s os).os⟩ := by
      simp only [x, Executer.call, ho]
    rw [hx]
    exact ⟨setBox bx none [], _, .call rfl h1 (i' := .throw (.py e)) rfl (.raises (by simp [machine, resume])), by simp⟩
  | ok u =>
    simp only at hf h1
    rw [ho] at hf
    simp only at hf
    obtain ⟨v', rfl⟩ := hf
    obtain ⟨bx', r', h2, hr⟩ := callLoop_eval hP prepare _ ⟨(Executer.send (prepare c) osSend (some none) s os).st,
        (Executer.send (prepare c) osSend (some none) s os).os, fd, setBox bx none []⟩ v' r1 (Nat.le_refl _) (by simp [setBox])
    have hx : x = Executer.callLoop recv (Executer.send (prepare c) osSend (some none) s os).st
        (Executer.send (prepare c) osSend (some none) s os).os := by
      simp only [x, Executer.call, ho]
    rw [hx]
    exact ⟨bx', r', .call rfl h1 (i' := .send v') rfl h2, hr⟩

include hP in
/-- `wait` as a generator is `Executer.wait`, if none of the pending commands belongs to a running `call`. -/
theorem wait_eval (n : Nat) : ∀ (w : W Q K D E ω) (v : Val D E R) (r), w.st.pending.length ≤ n →
    (∀ p ∈ w.st.pending, p.2.2 ≠ some none) →
    let x := Executer.wait recv w.st w.os
    ∃ bx r' fin, Eval m (machine P prepare) .wait (.send v) w r
      { st := x.st, os := x.os, fired := w.fired ++ x.fired, box := bx } r' fin ∧
      match x.out with
      | .ok () => ∃ v, fin = .val v
      | .error e => fin = .raised (.py e) := by
  induction n with
  | zero =>
    intro w v r hn _ x
    have he : isQueueEmpty w.st = true := by simp [isQueueEmpty]; exact List.length_eq_zero_iff.1 (by omega)
    have hx : x = ⟨.ok (), [], w.st, w.os⟩ := by simp only [x]; rw [Executer.wait, if_pos he]
    rw [hx]
    exact ⟨w.box, _, _, .ret (by simp [machine, resume, he]), v, rfl⟩
  | succ n ih =>
    intro w v r hn hm x
    obtain ⟨s, os, fd, bx⟩ := w
    by_cases he : isQueueEmpty s = true
    · have hx : x = ⟨.ok (), [], s, os⟩ := by simp only [x]; rw [Executer.wait, if_pos he]
      rw [hx]
      exact ⟨bx, _, _, .ret (by simp [machine, resume, he]), v, rfl⟩
    · obtain ⟨r1, fin, h1, hf⟩ := process_eval hP prepare ⟨s, os, fd, bx⟩ .none (some (.gen .process))
      cases ho : (Executer.process recv s os).out with
      | error e =>
        simp only at hf h1
        rw [ho] at hf
        simp only at hf
        subst hf
        have hfd : (Executer.process recv s os).fired = none := by
          revert ho
          unfold Executer.process
          split
          · simp
          · split
            · simp
            · dsimp only; split <;> simp
        have hx : x = ⟨.error e, [], (Executer.process recv s os).st, (Executer.process recv s os).os⟩ := by
          simp only [x]
          rw [Executer.wait, if_neg he]
          split
          · rename_i e' he'; rw [ho] at he'; cases he'; simp [hfd]
          · rename_i b hb; rw [ho] at hb; cases hb
        rw [hx]
        rw [hfd] at h1
        refine ⟨bx, _, _, .call (g' := .wait) (by simp only [machine, resume, he, if_false, Bool.false_eq_true]) h1 (i' := .throw (.py e)) rfl (.raises ?_), rfl⟩
        simp [machine, resume, record]
      | ok b =>
        have hlen := process_ok_length ho
        simp only at hf h1 hn hm
        rw [ho] at hf
        simp only at hf
        subst hf
        obtain ⟨k, a, hfd, hst⟩ : ∃ k a, (Executer.process recv s os).fired = some (some k, a) ∧
            ∀ p ∈ (Executer.process recv s os).st.pending, p ∈ s.pending := by
          revert ho
          unfold Executer.process
          split
          · simp
          · split
            · simp
            · rename_i hg
              dsimp only
              split
              · simp
              · rename_i k
                intro _
                cases k with
                | none => exact absurd rfl (hm _ (get_mem hg))
                | some k => exact ⟨k, _, rfl, fun p hp => erase_mem hp⟩
        rw [hfd] at h1
        have hx : x = ⟨(Executer.wait recv (Executer.process recv s os).st (Executer.process recv s os).os).out,
            (some k, a) :: (Executer.wait recv (Executer.process recv s os).st (Executer.process recv s os).os).fired,
            (Executer.wait recv (Executer.process recv s os).st (Executer.process recv s os).os).st,
            (Executer.wait recv (Executer.process recv s os).st (Executer.process recv s os).os).os⟩ := by
          simp only [x]
          rw [Executer.wait, if_neg he]
          split
          · rename_i e' he'; rw [ho] at he'; cases he'
          · simp [hfd]
        obtain ⟨bx', r', fin, h2, hr⟩ := ih ⟨(Executer.process recv s os).st, (Executer.process recv s os).os, fd ++ [(some k, a)],
          setBox bx (some k) (bx (some k) ++ [a])⟩ (.bool true) r1 (by simp only; omega) (fun p hp => hm p (hst p hp))
        rw [hx]
        refine ⟨bx', r', fin, .call (g' := .wait) (by simp only [machine, resume, he, if_false, Bool.false_eq_true]) h1 (i' := .send (.bool true)) rfl ?_, hr⟩
        simp only [record]
        simp only [List.append_assoc, List.singleton_append] at h2 ⊢
        exact h2

end

end Verif.ExecuterGen
