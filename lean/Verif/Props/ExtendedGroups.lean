import Verif.Props.Cut
/-!
# C62, C81: REPORT TARGET PORT GROUPS with the extended header

C39 says that the descriptors are looked for one byte too early. Here the consequences for callers, for all targets and all allocation lengths: on Windows the
command raises whenever the response fits, elsewhere it raises or shows groups that are not the target's.
-/
set_option linter.unusedSimpArgs false
set_option linter.unusedSectionVars false

namespace Verif.Parse

theorem fields_error (sg : Bool) (fs : List UField) (b : Bytes) (ho : ∀ f ∈ fs, Ref.Ok f.ref) (e : PyErr) (h : unpackFields sg fs b = .error e) :
    e = .truncated := by
  by_cases hl : b.length < fieldsEnd fs
  · rw [unpackFields_truncated sg fs b ho hl] at h; cases h; rfl
  · rw [unpackFields_eq sg fs b ho (by omega)] at h; cases h

theorem many_error {α : Type} (elem : Bytes → Py (α × Nat)) (he : ∀ b e, elem b = .error e → e = .truncated) (n : Nat) :
    ∀ b e, unpackN elem n b = .error e → e = .truncated := by
  induction n with
  | zero => intro b e h; cases h
  | succ n ih =>
    intro b e h
    simp only [unpackN, bind, Except.bind] at h
    split at h
    · rename_i e' h'; cases h; exact he _ _ h'
    · split at h
      · rename_i e' h'; cases h; exact ih _ _ h'
      · cases h

theorem all_error {α : Type} (elem : Bytes → Py (α × Nat)) (he : ∀ b e, elem b = .error e → e = .truncated) (m : Nat) :
    ∀ b e, b.length ≤ m → unpackAll elem b = .error e → e = .truncated := by
  induction m with
  | zero =>
    intro b e hm h
    rw [unpackAll, if_pos (List.length_eq_zero_iff.1 (by omega))] at h
    cases h
  | succ m ih =>
    intro b e hm h
    rw [unpackAll] at h
    split at h
    · cases h
    · split at h
      · rename_i e' h'; cases h; exact he _ _ h'
      · split at h
        · cases h
        · rename_i hk
          split at h
          · rename_i e' h'
            cases h
            refine ih _ _ ?_ h'
            rw [List.length_drop]
            omega
          · cases h

theorem group_error (sg : Bool) (b : Bytes) (e : PyErr) (h : targetPortGroup sg b = .error e) : e = .truncated := by
  simp only [targetPortGroup, bind, Except.bind] at h
  split at h
  · rename_i e' h'
    cases h
    exact fields_error sg _ b (by simp [targetPortGroupFields, UField.ref, Ref.Ok]) _ h'
  · split at h
    · rename_i e' h'
      cases h
      refine many_error _ (fun b e h => ?_) _ _ _ h'
      simp only [targetPort, bind, Except.bind] at h
      split at h
      · rename_i e' h'
        cases h
        exact fields_error sg _ b (by simp [targetPortFields, UField.ref, Ref.Ok]) _ h'
      · cases h
    · cases h

theorem extended_error (sg : Bool) (b : Bytes) (e : PyErr) (h : rtpg sg 1 b = .error e) : e = .truncated := by
  rw [rtpg, if_neg (by decide), if_pos rfl] at h
  simp only [rtpgExtended, bind, Except.bind] at h
  split at h
  · rename_i e' h'
    cases h
    exact fields_error sg _ b (by simp [UField.ref, Ref.Ok]) _ h'
  · split at h
    · rename_i e' h'
      cases h
      exact all_error _ (group_error sg) _ _ _ (Nat.le_refl _) h'
    · cases h

theorem quads (gs : List TargetPortGroup) : (gs.map fun g => 8 + 4 * g.ports.length).sum % 4 = 0 := by
  induction gs with
  | nil => rfl
  | cons g gs ih => simp only [List.map_cons, List.sum_cons]; omega

theorem groups_quads (groups : List Bytes) (hg : ∀ d ∈ groups, Spec.IsTargetPortGroup d) : groups.flatten.length % 4 = 0 := by
  rw [← groups_length groups hg]
  exact quads _

/-- **C39**: a complete response with the extended header and nothing behind it is never decoded. -/
theorem C39_extended_raises (sg : Bool) (time : UInt8) (groups : List Bytes) (rest : Bytes) (hr : rest.length < 3) (hg : ∀ d ∈ groups, Spec.IsTargetPortGroup d)
    (hl : groups.flatten.length + 4 < 2 ^ 31) : rtpg sg 1 (Spec.rtpgExtended time groups ++ rest) = .error .truncated := by
  cases h : rtpg sg 1 (Spec.rtpgExtended time groups ++ rest) with
  | error e => rw [extended_error sg _ e h]
  | ok r =>
    exfalso
    have hnum : Spec.num (Spec.rtpgExtended time groups ++ rest) 0 4 = 4 + groups.flatten.length := by
      unfold Spec.rtpgExtended
      rw [List.append_assoc, List.append_assoc, num_be 4 _ _ (by simp only [Nat.reducePow] at hl ⊢; omega)]
    have hval := fieldVal_num sg (Spec.rtpgExtended time groups ++ rest) "data_length" 0 4 (by decide) (by intro _; rw [hnum]; simp only [Nat.reducePow] at hl ⊢; omega)
    rw [rtpg, if_neg (by decide), if_pos rfl] at h
    unfold rtpgExtended at h
    rw [unpackFields_eq sg _ _ (by simp [UField.ref, Ref.Ok]) (by simp [fieldsEnd, UField.ref, Ref.stop, Spec.rtpgExtended]; omega)] at h
    simp only [List.map_cons, List.map_nil, UField.name] at h
    rw [hval, hnum] at h
    simp only [bind, Except.bind, get, List.lookup, BEq.rfl, Option.getD_some] at h
    split at h
    · cases h
    · rename_i v hv
      have h1 := groups_consume sg _ _ _ (Nat.le_refl _) hv
      have h2 := quads v
      have h3 := groups_quads groups hg
      rw [← h1] at h2
      unfold sliceFrom slice at h2
      rw [show ((7 : Nat) : Int) + ((4 + groups.flatten.length : Nat) : Int) = ((7 + (4 + groups.flatten.length) : Nat) : Int) by simp, Int.toNat_natCast] at h2
      simp only [List.length_drop, List.length_take, List.length_append, Spec.rtpgExtended, be_length, List.length_cons, List.length_nil] at h2
      omega

/-- The header of what is decoded, whatever follows it. -/
theorem extended_header (sg : Bool) (n : Nat) (more : Bytes) (hn : n < 2 ^ 31) (r : TargetPortGroups) (h : rtpg sg 1 (be 4 n ++ 16 :: more) = .ok r) :
    r.attrs = [("data_length", (n : Int)), ("format_type", 1)] := by
  have hnum : Spec.num (be 4 n ++ 16 :: more) 0 4 = n := num_be 4 _ _ (by simp only [Nat.reducePow] at hn ⊢; omega)
  have hval := fieldVal_num sg (be 4 n ++ 16 :: more) "data_length" 0 4 (by decide) (by intro _; rw [hnum]; exact hn)
  have hft : fieldVal sg (be 4 n ++ 16 :: more) (.i "format_type" (.bits 4 4 7)) = 1 := by
    have hb : Spec.byteAt (be 4 n ++ 16 :: more) 4 = 16 := by
      unfold Spec.byteAt
      rw [List.getD_eq_getElem?_getD, List.getElem?_append_right (by simp)]
      simp
    simp only [fieldVal, refNum, Spec.bitsAt, intValue, hb]
    decide
  rw [rtpg, if_neg (by decide), if_pos rfl] at h
  unfold rtpgExtended at h
  rw [unpackFields_eq sg _ _ (by simp [UField.ref, Ref.Ok]) (by simp [fieldsEnd, UField.ref, Ref.stop]; omega)] at h
  simp only [List.map_cons, List.map_nil, UField.name] at h
  rw [hval, hnum, hft] at h
  simp only [bind, Except.bind] at h
  split at h
  · cases h
  · cases h; rfl

/-- Cut anywhere. -/
theorem extended_cut (sg : Bool) (time : UInt8) (groups : List Bytes) (n : Nat) (rest : Bytes) (hn : n ≤ (Spec.rtpgExtended time groups).length) (h0 : n < 5 → rest = [])
    (hl : groups.flatten.length + 4 < 2 ^ 31) (r : TargetPortGroups) (h : rtpg sg 1 ((Spec.rtpgExtended time groups).take n ++ rest) = .ok r) :
    r.attrs = [("data_length", ((groups.flatten.length + 4 : Nat) : Int)), ("format_type", 1)] := by
  by_cases h5 : n < 5
  · rw [h0 h5, List.append_nil, rtpg, if_neg (by decide), if_pos rfl] at h
    unfold rtpgExtended at h
    rw [unpackFields_truncated sg _ _ (by simp [UField.ref, Ref.Ok]) (by simp [fieldsEnd, UField.ref, Ref.stop]; omega)] at h
    cases h
  · have : (Spec.rtpgExtended time groups).take n = be 4 (4 + groups.flatten.length) ++ 16 :: (([time, 0, 0] : Bytes) ++ groups.flatten).take (n - 5) := by
      unfold Spec.rtpgExtended
      rw [List.append_assoc, List.take_append, List.take_of_length_le (by rw [be_length]; omega), be_length,
        show n - 4 = (n - 5) + 1 by omega]
      rfl
    rw [this, List.append_assoc, List.cons_append, Nat.add_comm] at h
    exact extended_header sg _ _ hl r h

end Verif.Parse

namespace Verif.Commands

open Verif.Executer Verif.Coroutine Verif.ExecuterGen Verif.Platform Verif.Spec Verif.Spec.Disk Verif.Spec.Cdb Verif.Sense Verif.Spec.Target

/-- What the caller of REPORT TARGET PORT GROUPS with the extended header is told when `n` bytes are asked for: an exception, or the header of the response with groups that,
if the whole response arrived, are not the target's. -/
def Misread (groups : List Bytes) (n : Nat) : Told → Prop
  | .incomplete => True
  | .learns p => ∃ r : Parse.TargetPortGroups, (∀ x, p x ↔ x = .groups r) ∧
      r.attrs = [("data_length", ((groups.flatten.length + 4 : Nat) : Int)), ("format_type", 1)] ∧ (8 + groups.flatten.length ≤ n → r.groups ≠ groups.map groupOf)
  | .refused => False

section

variable {tail : Nat → Bytes → Bytes → Prop} {out : Req → Answer → Except (Exn (DevErr Sense)) (Option (Option Bytes))} (L : Lib) (B : Parse.BufLib)
  (other : Bytes → Py (List (String × Int))) (t : Target) (time : UInt8) (groups : List Bytes) (n : Nat)

theorem extended_length : (Spec.rtpgExtended time groups).length = 8 + groups.flatten.length := by
  simp only [Spec.rtpgExtended, List.length_append, be_length, List.length_cons, List.length_nil]

theorem misread (hP : Passes tail out) (hone : ∀ d r r', tail n d r → tail n d r' → r = r') (hn : 0 < n ∧ n < 2 ^ 32)
    (ht : t.groups 1 = some (Spec.rtpgExtended time groups)) (hg : ∀ d ∈ groups, IsTargetPortGroup d) (hl : groups.flatten.length + 4 < 2 ^ 31) :
    ∃ p, Misread groups n p ∧ Reports t out L B other (.rtpg 1 n) p := by
  have hne : (Spec.rtpgExtended time groups).take n ≠ [] := by
    intro h
    have := congrArg List.length h
    rw [List.length_take, extended_length] at this
    simp at this
    omega
  obtain ⟨rest, hr, htl, -⟩ := hP.read [] n ((Spec.rtpgExtended time groups).take n) hne (by rw [List.length_take]; omega)
  simp only [Int.toNat_natCast] at hr htl
  have hi : InRange (Cmd.rtpg 1 n).cdb := ⟨by simp [Fits], ⟨by omega, by omega⟩⟩
  have hq := Cdb.C36_rtpg L 1 n (.inr rfl) ⟨by omega, by omega⟩
  have hm : report t (meaning (Cmd.rtpg 1 n).cdb) = some (Spec.rtpgExtended time groups, n) := by simp [Cmd.cdb, meaning, report, ht]
  cases hd : Parse.rtpg B.sg 1 ((Spec.rtpgExtended time groups).take n ++ rest) with
  | error e =>
    refine ⟨.incomplete, trivial, reports_read L B other hP _ _ _ _ n _ hi hq hm rfl hne fun rest' _ h2 => ⟨_, rfl, ?_⟩⟩
    rw [hone _ _ _ h2 htl]
    simp only [Cmd.decode, withData, hd, Parse.extended_error _ _ _ hd]
    rfl
  | ok r =>
    refine ⟨.learns (· = .groups r), ⟨r, fun _ => Iff.rfl, ?_, fun h8 => ?_⟩,
      reports_read L B other hP _ _ _ _ n _ hi hq hm rfl hne fun rest' _ h2 => ⟨_, rfl, ?_⟩⟩
    · by_cases hle : n ≤ (Spec.rtpgExtended time groups).length
      · refine Parse.extended_cut B.sg time groups n rest hle (fun _ => List.length_eq_zero_iff.1 ?_) hl r hd
        rw [List.length_take] at hr
        omega
      · rw [List.take_of_length_le (by omega)] at hd
        exact Parse.C39_extended_partial B.sg time groups rest hl r hd
    · rw [List.take_of_length_le (by rw [extended_length]; exact h8)] at hd
      exact Parse.C39_extended_false B.sg time groups rest hg hl r hd
    · rw [hone _ _ _ h2 htl]
      simp only [Cmd.decode, withData, hd]
      exact ⟨_, rfl, rfl⟩

theorem raises (hP : Passes Exactly out) (hn : 8 + groups.flatten.length ≤ n ∧ n < 2 ^ 32)
    (ht : t.groups 1 = some (Spec.rtpgExtended time groups)) (hg : ∀ d ∈ groups, IsTargetPortGroup d) (hl : groups.flatten.length + 4 < 2 ^ 31) :
    Reports t out L B other (.rtpg 1 n) .incomplete := by
  refine reports_read L B other hP _ _ _ _ n _ ⟨by simp [Fits], ⟨by omega, by omega⟩⟩ (Cdb.C36_rtpg L 1 n (.inr rfl) ⟨by omega, by omega⟩)
    (by simp [Cmd.cdb, meaning, report, ht]; rfl) (List.take_of_length_le (by rw [extended_length]; exact hn.1))
    (by intro h; have := congrArg List.length h; rw [extended_length] at this; simp at this) fun rest _ h2 => ⟨_, rfl, ?_⟩
  rw [show rest = [] from h2]
  simp only [Cmd.decode, withData, Parse.C39_extended_raises B.sg time groups [] (by decide) hg hl]
  rfl

end

variable {K T : Type} [DecidableEq K] (L : Lib) (B : Parse.BufLib) (other : Bytes → Py (List (String × Int)))

/-- **C62 is false** for the extended header **on Linux**, whatever the target, the groups and the allocation length: the command raises, or returns the header with groups
that are not those of the target. (The header is right; with a shorter allocation length too: this is C81 for the extended header.) -/
theorem C62_extended_linux_false (l : Bool) (alloc : Nat → Alloc) (tmo : Int) (htmo : 0 ≤ tmo ∧ tmo < 2 ^ 32) (t : Target) (time : UInt8) (groups : List Bytes) (n : Nat) (hn : 0 < n ∧ n < 2 ^ 32)
    (ht : t.groups 1 = some (Spec.rtpgExtended time groups)) (hg : ∀ d ∈ groups, IsTargetPortGroup d) (hl : groups.flatten.length + 4 < 2 ^ 31)
    (hok : Carried L (LinuxOk alloc) [.rtpg 1 n]) (w : W Handle K (Option Bytes) (DevErr Sense) (World (Target × Option Bytes))) (hw : LinuxIdle w.st w.os t) :
    ∃ p w' r, Misread groups n p ∧ RunAll (machine (T := T) (Linux.sgBlocking (lp64 l) getSense (Linux.sgDevice l target)).plat (Linux.prepare (lp64 l) alloc tmo))
        [(Cmd.rtpg 1 n).command L B other] w [r] w' ∧ Sees r p ∧ LinuxIdle w'.st w'.os t := by
  obtain ⟨p, hp, hr⟩ := misread L B other t time groups n outcome_passes (fun d r r' h h' => by rw [show r = _ from h, show r' = _ from h']) hn ht hg hl
  obtain ⟨w', h1, h2⟩ := C51_linux (K := K) (T := T) l getSense target alloc tmo htmo (fun m q h => target_parses m q (by intro h0; rw [h0] at h; simp at h)) ([Cmd.rtpg 1 n].map (·.command L B other))
    (carried_map B other hok) w t hw
  obtain ⟨q, hq, hm, hs⟩ := hr
  simp only [List.map_cons, List.map_nil, askAll, hq, hm] at h1 h2
  exact ⟨p, w', _, hp, h1, hs, h2⟩

/-- **C62 is false** for the extended header **on Solaris**, whatever the target, the groups and the allocation length: the command raises, or returns the header with groups
that are not those of the target. (The header is right; with a shorter allocation length too: this is C81 for the extended header.) -/
theorem C62_extended_solaris_false (l : Bool) (alloc : Nat → Alloc) (tmo : Int) (htmo : 0 ≤ tmo ∧ tmo < 2 ^ 15) (t : Target) (time : UInt8) (groups : List Bytes) (n : Nat) (hn : 0 < n ∧ n < 2 ^ 32)
    (ht : t.groups 1 = some (Spec.rtpgExtended time groups)) (hg : ∀ d ∈ groups, IsTargetPortGroup d) (hl : groups.flatten.length + 4 < 2 ^ 31)
    (hok : Carried L (SolarisOk alloc) [.rtpg 1 n]) (w : W Handle K (Option Bytes) (DevErr Sense) (Solaris.SolWorld Target)) (hw : SolarisIdle w.st w.os t) :
    ∃ p w' r, Misread groups n p ∧ RunAll (machine (T := T) (Solaris.solBlocking (lp64 l) getSense (Solaris.uscsiDevice l target)).plat (Solaris.prepare (lp64 l) alloc tmo))
        [(Cmd.rtpg 1 n).command L B other] w [r] w' ∧ Sees r p ∧ SolarisIdle w'.st w'.os t := by
  obtain ⟨p, hp, hr⟩ := misread L B other t time groups n outcome_passes (fun d r r' h h' => by rw [show r = _ from h, show r' = _ from h']) hn ht hg hl
  obtain ⟨w', h1, h2⟩ := C51_solaris (K := K) (T := T) l getSense target alloc tmo htmo (fun m q h => target_parses m q (by intro h0; rw [h0] at h; simp at h)) ([Cmd.rtpg 1 n].map (·.command L B other))
    (carried_map B other hok) w t hw
  obtain ⟨q, hq, hm, hs⟩ := hr
  simp only [List.map_cons, List.map_nil, askAll, hq, hm] at h1 h2
  exact ⟨p, w', _, hp, h1, hs, h2⟩

/-- **C62 is false** for the extended header **on AIX**, whatever the target, the groups and the allocation length: the command raises, or returns the header with groups
that are not those of the target. (The header is right; with a shorter allocation length too: this is C81 for the extended header.) -/
theorem C62_extended_aix_false (b : Aix.Binding) (alloc : Nat → Alloc) (tmo : Int) (htmo : 0 ≤ tmo ∧ tmo < 2 ^ 32) (t : Target) (time : UInt8) (groups : List Bytes) (n : Nat) (hn : 0 < n ∧ n < 2 ^ 32)
    (ht : t.groups 1 = some (Spec.rtpgExtended time groups)) (hg : ∀ d ∈ groups, IsTargetPortGroup d) (hl : groups.flatten.length + 4 < 2 ^ 31)
    (hok : Carried L (AixOk b alloc) [.rtpg 1 n]) (w : W Handle K (Option Bytes) (DevErr Sense) (Aix.AixWorld Target)) (hw : AixIdle w.st w.os t) :
    ∃ p w' r, Misread groups n p ∧ RunAll (machine (T := T) (Aix.aixBlocking (lp64 false) getSense b (Aix.scDevice target)).plat (Aix.prepare (lp64 false) alloc tmo))
        [(Cmd.rtpg 1 n).command L B other] w [r] w' ∧ Sees r p ∧ AixIdle w'.st w'.os t := by
  obtain ⟨p, hp, hr⟩ := misread L B other t time groups n outcome_passes (fun d r r' h h' => by rw [show r = _ from h, show r' = _ from h']) hn ht hg hl
  obtain ⟨w', h1, h2⟩ := C51_aix (K := K) (T := T) getSense b target alloc tmo htmo (fun m q h => target_parses m q (by intro h0; rw [h0] at h; simp at h)) ([Cmd.rtpg 1 n].map (·.command L B other))
    (carried_map B other hok) w t hw
  obtain ⟨q, hq, hm, hs⟩ := hr
  simp only [List.map_cons, List.map_nil, askAll, hq, hm] at h1 h2
  exact ⟨p, w', _, hp, h1, hs, h2⟩

/-- **C62 is false** for the extended header **on Windows**: whatever the target and its groups, if the response fits the allocation length, the command raises. -/
theorem C62_extended_windows_false (b : Bool) (alloc : Nat → Alloc) (t : Target) (time : UInt8) (groups : List Bytes) (n : Nat) (hn : 8 + groups.flatten.length ≤ n ∧ n < 2 ^ 32)
    (ht : t.groups 1 = some (Spec.rtpgExtended time groups)) (hg : ∀ d ∈ groups, IsTargetPortGroup d) (hl : groups.flatten.length + 4 < 2 ^ 31)
    (hok : Carried L (WindowsOk b alloc) [.rtpg 1 n]) (w : W Win32.Spt K (Option Bytes) (DevErr Sense) (Win32.WinWorld Target)) (hw : WindowsIdle w.st w.os t) :
    ∃ w', RunAll (machine (T := T) (Win32.winPlat (Win32.W b) getSense (Win32.sptDevice b target)) (Win32.prepare (Win32.W b) alloc))
        [(Cmd.rtpg 1 n).command L B other] w [.error (.py .truncated)] w' ∧ WindowsIdle w'.st w'.os t := by
  obtain ⟨q, hq, hm, hs⟩ := raises L B other t time groups n winOutcome_passes hn ht hg hl
  obtain ⟨w', h1, h2⟩ := C51_windows (K := K) (T := T) b getSense target alloc (fun m q h => target_parses m q (by rw [h]; decide)) ([Cmd.rtpg 1 n].map (·.command L B other))
    (carried_map B other hok) w t hw
  simp only [List.map_cons, List.map_nil, askAll, hq, hm] at h1 h2
  rw [show _ = Except.error _ from hs] at h1
  exact ⟨w', h1, h2⟩

/-- **C81 for the extended header on Windows**, for responses that do not fit. -/
theorem C81_extended_windows_partial (b : Bool) (alloc : Nat → Alloc) (t : Target) (time : UInt8) (groups : List Bytes) (n : Nat) (hn : 0 < n ∧ n < 2 ^ 32)
    (ht : t.groups 1 = some (Spec.rtpgExtended time groups)) (hg : ∀ d ∈ groups, IsTargetPortGroup d) (hl : groups.flatten.length + 4 < 2 ^ 31)
    (hok : Carried L (WindowsOk b alloc) [.rtpg 1 n]) (w : W Win32.Spt K (Option Bytes) (DevErr Sense) (Win32.WinWorld Target)) (hw : WindowsIdle w.st w.os t) :
    ∃ p w' r, Misread groups n p ∧ RunAll (machine (T := T) (Win32.winPlat (Win32.W b) getSense (Win32.sptDevice b target)) (Win32.prepare (Win32.W b) alloc))
        [(Cmd.rtpg 1 n).command L B other] w [r] w' ∧ Sees r p ∧ WindowsIdle w'.st w'.os t := by
  obtain ⟨p, hp, hr⟩ := misread L B other t time groups n winOutcome_passes (fun d r r' h h' => by rw [show r = _ from h, show r' = _ from h']) hn ht hg hl
  obtain ⟨w', h1, h2⟩ := C51_windows (K := K) (T := T) b getSense target alloc (fun m q h => target_parses m q (by rw [h]; decide)) ([Cmd.rtpg 1 n].map (·.command L B other))
    (carried_map B other hok) w t hw
  obtain ⟨q, hq, hm, hs⟩ := hr
  simp only [List.map_cons, List.map_nil, askAll, hq, hm] at h1 h2
  exact ⟨p, w', _, hp, h1, hs, h2⟩

/-- The hypotheses are met: a target with one group of one port. -/
example : ∃ (groups : List Bytes), groups ≠ [] ∧ (∀ d ∈ groups, IsTargetPortGroup d) ∧ groups.flatten.length + 4 < 2 ^ 31 ∧
    ∀ L : Lib, Carried L (WindowsOk true fun _ => { block := 4096, sense := 8192, cmd := 12288, data := 16384 }) [.rtpg 1 (64 : Nat)] := by
  refine ⟨[[0x00, 0x8F, 0, 1, 0, 0, 0, 1, 0, 0, 0, 1]], by decide, by decide, by decide, fun L c hc q hq => ?_⟩
  rw [List.mem_singleton.1 hc] at hq
  cases (Cdb.C36_rtpg L 1 (64 : Nat) (.inr rfl) ⟨by omega, by omega⟩).symm.trans hq
  refine ⟨by simp [Req.cdb, Spec.Cdb.reportTargetPortGroups, cdb12], by simp [dataSize], fun _ => ⟨?_, ?_⟩⟩ <;> simp [Win32.winRegions, Win32.bits, dataSize, Req.cdb, Spec.Cdb.reportTargetPortGroups, cdb12]

end Verif.Commands
