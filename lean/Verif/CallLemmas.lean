import Verif.Executer
/-! # `call` on an idle executer: one send, one receive -/
namespace Verif.Executer
variable {Q K D E ω : Type}

/-- The executer once the only command was sent. -/
def oneFlight (s : St Q (Option K)) (q : Q) : St Q (Option K) :=
  { pending := [(s.index, (q, some none))], index := (s.index + 1) % s.maxq, maxq := s.maxq }

theorem callLoop_one (recv : St Q (Option K) → ω → Py (Outcome D E × Nat) × ω) (i : Nat) (q : Q) (n mq : Nat) (w : ω) :
    let s : St Q (Option K) := { pending := [(i, (q, some none))], index := n, maxq := mq }
    callLoop recv s w =
      match recv s w with
      | (.error e, w') => ⟨.error (.py e), [], s, w'⟩
      | (.ok (o, j), w') =>
        if i = j then
          ⟨match o with | .data d => .ok (some d) | .exc e => .error (.dev e), [], { s with pending := [] }, w'⟩
        else ⟨.error (.py .asiInternal), [], s, w'⟩ := by
  intro s
  have hp : process recv s w =
      match recv s w with
      | (.error e, w') => ⟨.error e, none, s, w'⟩
      | (.ok (o, j), w') =>
        if i = j then ⟨.ok true, some (none, cbArgs o), { s with pending := [] }, w'⟩
        else ⟨.error .asiInternal, none, s, w'⟩ := by
    unfold process
    rcases recv s w with ⟨r, w'⟩
    cases r with
    | error e => rfl
    | ok p =>
      obtain ⟨o, j⟩ := p
      by_cases h : i = j
      · simp [s, Dict.get, Dict.erase, h]
      · simp [s, Dict.get, h]
  rcases hr : recv s w with ⟨r, w'⟩
  rw [hr] at hp
  rw [callLoop]
  cases r with
  | error e =>
    simp only at hp
    split
    · rename_i e' he
      rw [hp] at he ⊢
      cases he; rfl
    · rename_i b hb
      rw [hp] at hb; cases hb
  | ok p =>
    obtain ⟨o, j⟩ := p
    by_cases h : i = j
    · simp only [h, if_true] at hp ⊢
      split
      · rename_i e' he
        rw [hp] at he; cases he
      · rw [hp]
        cases o <;> rfl
    · simp only [h, if_false] at hp ⊢
      split
      · rename_i e' he
        rw [hp] at he ⊢
        cases he; rfl
      · rename_i b hb
        rw [hp] at hb; cases hb

/-- `call` on an idle executer. -/
theorem call_idle (prepare : Nat → Py Q) (osSend : Q → ω → Py Unit × ω)
    (recv : St Q (Option K) → ω → Py (Outcome D E × Nat) × ω) (s : St Q (Option K)) (w : ω)
    (hs : s.pending = []) (hq : 0 < s.maxq) (q : Q) (hprep : prepare s.index = .ok q) :
    call prepare osSend recv s w =
      match osSend q w with
      | (.error e, w1) => ⟨.error (.py e), [], { s with index := (s.index + 1) % s.maxq }, w1⟩
      | (.ok (), w1) =>
        match recv (oneFlight s q) w1 with
        | (.error e, w2) => ⟨.error (.py e), [], oneFlight s q, w2⟩
        | (.ok (o, j), w2) =>
          if s.index = j then
            ⟨match o with | .data d => .ok (some d) | .exc e => .error (.dev e), [],
              { s with index := (s.index + 1) % s.maxq }, w2⟩
          else ⟨.error (.py .asiInternal), [], oneFlight s q, w2⟩ := by
  obtain ⟨pend, idx, mq⟩ := s
  simp only at hs hq hprep
  subst hs
  have hlt : ¬ (([] : Dict (Q × Option (Option K))).length ≥ mq) := by simp; omega
  unfold call send nextPacketIndex
  simp only [hlt, if_false, hprep]
  rcases osSend q w with ⟨r, w1⟩
  cases r with
  | error e => simp [Dict.set, Dict.erase]
  | ok u =>
    simp only [Dict.set]
    rw [callLoop_one recv idx q ((idx + 1) % mq) mq w1]
    rfl

end Verif.Executer
