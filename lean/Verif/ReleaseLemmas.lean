import Verif.Release
import Verif.Props.WindowsAsync
/-! # Lemmas about giving up coroutines -/
set_option linter.unusedSimpArgs false
set_option linter.unusedSectionVars false

namespace Verif.Release
open Verif.Executer Verif.ExecuterGen Verif.Coroutine Verif.Platform Verif.Platform.Win32 Verif.Spec Verif.WindowsAsync
open Verif.AsyncInv (Inv coOf Ghost Phase up active_of_flying active_of_landed active_of_picked)
open Verif.ReactorShared (Co Step Steps Raises)

variable {S R δ : Type}
variable {b : Bool} {parse : Bytes → Py (Option S)} {dev : Device δ} {alloc : Nat → Alloc} {cmd : Nat → Command Req (Option Bytes) R}
  {cmds : List Nat} {i0 mq : Nat} {k0 : δ} {st : AsyncInv.RSt S R δ} {g : Ghost S R}

theorem close_execute (c : Nat) (exit : Exn (DevErr S)) (w : World' S δ) :
    close (prog (R := R) b parse dev alloc c) exit [.execute (cmd c)] w = w := rfl

theorem close_waiting (c : Nat) (exit : Exn (DevErr S)) (h : Spt) (i : Nat) (w : World' S δ) :
    close (prog (R := R) b parse dev alloc c) exit (AsyncRun.waiting h i (cmd c)) w =
      match Dict.get w.st.pending i with
      | none => w
      | some _ => { w with st := { w.st with pending := Dict.erase w.st.pending i } } := by
  simp only [close, AsyncRun.waiting, List.foldl_cons, List.foldl_nil, machine, ExecuterGen.resume, asyncPlat, asyncResume, resumeSendExcept]
  split <;> simp [*]

/-- Requests with different packets have their blocks at different addresses. -/
theorem addr_ne (hs : AsyncInv.Setup b alloc cmd cmds mq) (I : Inv b parse dev alloc cmd cmds i0 mq k0 st g) {c d : Nat} (hc : c ∈ cmds)
    (hd : d ∈ cmds) (ac : (g.ph c).active) (ad : (g.ph d).active) (hne : c ≠ d) : (g.h c).blockAddr ≠ (g.h d).blockAddr := by
  intro he
  rw [(I.built' hs hc ac).blockAddr, (I.built' hs hd ad).blockAddr] at he
  refine hs.apart c hc d hd _ _ (I.built c hc ac).1 (I.built d hd ad).1 _ _ (I.pk_lt hc ac) (I.pk_lt hd ad) (I.pk_ne hc hd ac ad hne)
    (alloc (g.pk c)).block ⟨.inl ⟨Nat.le_refl _, ?_⟩, .inl ⟨?_, ?_⟩⟩
  · omega
  · omega
  · omega

/-- While the coroutines are given up: what is pending belongs to a coroutine still there, or not to a request in flight. -/
structure Rel (b : Bool) (cmd : Nat → Command Req (Option Bytes) R) (cmds : List Nat) (g : Ghost S R) (F : List (Nat × Nat))
    (l : Dict (Co (AsyncInv.Fr R) (Val (Option Bytes) (DevErr S) R) (Exn (DevErr S)) Nat)) (w : World' S δ) : Prop where
  nodup : (Dict.keys l).Nodup
  co : ∀ d co, Dict.get l d = some co → d ∈ cmds ∧ coOf b cmd g d = some co
  pNodup : (Dict.keys w.st.pending).Nodup
  pend : ∀ i x, Dict.get w.st.pending i = some x →
    (∃ d co, d ∈ cmds ∧ (g.ph d).active ∧ g.pk d = i ∧ Dict.get l d = some co) ∨ ∀ p ∈ F, x.1.blockAddr ≠ p.2
  incoming : w.os.incoming = []
  fly : ∀ p ∈ w.os.world.kernel.flying, p ∈ F

theorem Rel.close {F l} {w : World' S δ} (r : Rel b cmd cmds g F l w)
    {c co} (hg : Dict.get l c = some co) (exit) :
    Rel b cmd cmds g F (Dict.erase l c) (close (prog (R := R) b parse dev alloc c) exit co.stack w) ∧
      (Release.close (prog (R := R) b parse dev alloc c) exit co.stack w).os = w.os := by
  obtain ⟨hc, hco⟩ := r.co c co hg
  have hn : (Dict.keys (Dict.erase l c)).Nodup := by
    rw [Reactor.dict_keys_erase _ _ r.nodup]; exact r.nodup.erase _
  have hget : ∀ d, d ≠ c → Dict.get (Dict.erase l c) d = Dict.get l d := by
    intro d hd
    rw [Reactor.dict_get_erase _ _ _ r.nodup, if_neg (Ne.symm hd)]
  have hco' : ∀ d co, Dict.get (Dict.erase l c) d = some co → d ∈ cmds ∧ coOf b cmd g d = some co := by
    intro d co h
    rw [Reactor.dict_get_erase _ _ _ r.nodup] at h
    split at h
    · cases h
    · exact r.co d co h
  have hwait : ∀ {a t}, (g.ph c).active → co = ⟨AsyncRun.waiting (g.h c) (g.pk c) (cmd c), a, some (.tok t)⟩ →
      Rel b cmd cmds g F (Dict.erase l c) (Release.close (prog (R := R) b parse dev alloc c) exit co.stack w) ∧
        (Release.close (prog (R := R) b parse dev alloc c) exit co.stack w).os = w.os := by
    rintro a t ac rfl
    rw [close_waiting]
    cases hp : Dict.get w.st.pending (g.pk c) with
    | none =>
      refine ⟨⟨hn, hco', r.pNodup, ?_, r.incoming, r.fly⟩, rfl⟩
      intro i x hi
      rcases r.pend i x hi with ⟨d, co, hd, ad, hpk, hl⟩ | h
      · refine .inl ⟨d, co, hd, ad, hpk, ?_⟩
        rw [hget]
        · exact hl
        · rintro rfl
          rw [hpk, hi] at hp; cases hp
      · exact .inr h
    | some y =>
      refine ⟨⟨hn, hco', ?_, ?_, r.incoming, r.fly⟩, rfl⟩
      · simp only
        rw [Reactor.dict_keys_erase _ _ r.pNodup]; exact r.pNodup.erase _
      · intro i x hi
        simp only at hi
        rw [Reactor.dict_get_erase _ _ _ r.pNodup] at hi
        split at hi
        · cases hi
        · rename_i hne
          rcases r.pend i x hi with ⟨d, co, hd, ad, hpk, hl⟩ | h
          · refine .inl ⟨d, co, hd, ad, hpk, ?_⟩
            rw [hget]
            · exact hl
            · rintro rfl
              exact hne hpk
          · exact .inr h
  cases hph : g.ph c with
  | over => simp only [coOf, hph, reduceCtorEq] at hco
  | ready =>
    simp only [coOf, hph, Option.some.injEq] at hco
    subst hco
    simp only [close_execute]
    refine ⟨⟨hn, hco', r.pNodup, ?_, r.incoming, r.fly⟩, trivial⟩
    intro i x hi
    rcases r.pend i x hi with ⟨d, co, hd, ad, hpk, hl⟩ | h
    · refine .inl ⟨d, co, hd, ad, hpk, ?_⟩
      rw [hget]
      · exact hl
      · rintro rfl
        rw [hph] at ad; cases ad
    · exact .inr h
  | flying =>
    simp only [coOf, hph, Option.some.injEq] at hco
    exact hwait (by rw [hph]; rfl) hco.symm
  | landed =>
    simp only [coOf, hph, Option.some.injEq] at hco
    exact hwait (by rw [hph]; rfl) hco.symm
  | picked =>
    simp only [coOf, hph, Option.some.injEq] at hco
    exact hwait (by rw [hph]; rfl) hco.symm

theorem Rel.system {F l} {w w' : World' S δ} (r : Rel b cmd cmds g F l w) (h : (ioKernel (K := Nat) b dev).advance w w') :
    Rel b cmd cmds g F l w' := by
  obtain ⟨p, hp, rfl⟩ := h
  refine ⟨r.nodup, r.co, r.pNodup, r.pend, r.incoming, ?_⟩
  intro q hq
  simp only [Spec.land] at hq
  exact r.fly q (List.mem_of_mem_erase hq)

theorem Rel.released {F l l'} {w w' : World' S δ} {exit} (r : Rel b cmd cmds g F l w)
    (h : Released (prog (R := R) b parse dev alloc) (ioKernel b dev) exit l w l' w') : Rel b cmd cmds g F l' w' := by
  induction h with
  | refl => exact r
  | system _ ha ih => exact ih.system ha
  | closed _ hg ih => exact (ih.close hg _).1

/-- When every coroutine is gone, nothing refers to the block of a request in flight. -/
theorem Rel.none {F} {w : World' S δ} (r : Rel b cmd cmds g F [] w) : ∀ p ∈ w.os.world.kernel.flying,
    ¬ Referenced (R := R) [] w p.2 := by
  rintro p hp (⟨i, h, cb, hg, ha⟩ | ⟨h, hh, -⟩ | ⟨c, co, f, h, hg, -⟩)
  · rcases r.pend i _ hg with ⟨d, co, -, -, -, hl⟩ | hne
    · cases hl
    · exact hne p (r.fly p hp) ha
  · rw [r.incoming] at hh; cases hh
  · cases hg

/-- Coroutines can be given up without the operating system doing anything. -/
theorem Rel.exists {F l} {w : World' S δ} (r : Rel b cmd cmds g F l w) (exit) :
    ∃ w', Released (prog (R := R) b parse dev alloc) (ioKernel b dev) exit l w [] w' ∧ w'.os = w.os := by
  have key : ∀ n l1 w1, l1.length = n → Rel b cmd cmds g F l1 w1 → w1.os = w.os →
      Released (prog (R := R) b parse dev alloc) (ioKernel b dev) exit l w l1 w1 →
      ∃ w', Released (prog (R := R) b parse dev alloc) (ioKernel b dev) exit l w [] w' ∧ w'.os = w.os := by
    intro n
    induction n with
    | zero =>
      intro l1 w1 hl _ ho hr
      obtain rfl := List.length_eq_zero_iff.1 hl
      exact ⟨w1, hr, ho⟩
    | succ n ih =>
      intro l1 w1 hl r1 ho hr
      cases l1 with
      | nil => cases hl
      | cons p l1 =>
        have hg : Dict.get (p :: l1) p.1 = some p.2 := by simp [Dict.get]
        have he : Dict.erase (p :: l1) p.1 = l1 := by simp [Dict.erase]
        obtain ⟨r2, ho2⟩ := r1.close (parse := parse) (dev := dev) (alloc := alloc) hg exit
        have hr2 := Released.closed hr hg
        rw [he] at r2 hr2
        exact ih l1 _ (by simpa using hl) r2 (ho2.trans ho) hr2
  exact key _ l w rfl r rfl (.refl _ _)

/-- The state in which `wait_for` raises. -/
theorem Rel.raises (hs : AsyncInv.Setup b alloc cmd cmds mq) (I : Inv b parse dev alloc cmd cmds i0 mq k0 st g) {e s}
    (h : Raises (prog (R := R) b parse dev alloc) (ioKernel b dev) st e s) :
    Rel b cmd cmds g st.world.os.world.kernel.flying (left st) s ∧ s.os = st.world.os := by
  have hactive : ∀ i x, Dict.get st.world.st.pending i = some x →
      ∃ d co, d ∈ cmds ∧ (g.ph d).active ∧ g.pk d = i ∧ Dict.get st.coroutines d = some co := by
    intro i x hi
    obtain ⟨d, hd, ad, hpk⟩ := I.pend' i x hi
    have hco := I.co d hd
    cases hph : g.ph d with
    | ready => rw [hph] at ad; cases ad
    | over => rw [hph] at ad; cases ad
    | flying => simp only [coOf, hph] at hco; exact ⟨d, _, hd, by rw [hph]; rfl, hpk, hco⟩
    | landed => simp only [coOf, hph] at hco; exact ⟨d, _, hd, by rw [hph]; rfl, hpk, hco⟩
    | picked => simp only [coOf, hph] at hco; exact ⟨d, _, hd, by rw [hph]; rfl, hpk, hco⟩
  have herase : ∀ c d, d ≠ c → Dict.get (Dict.erase st.coroutines c) d = Dict.get st.coroutines d := by
    intro c d hd
    rw [Reactor.dict_get_erase _ _ _ I.coNodup, if_neg (Ne.symm hd)]
  have hnodup : ∀ c, (Dict.keys (Dict.erase st.coroutines c)).Nodup := by
    intro c
    rw [Reactor.dict_keys_erase _ _ I.coNodup]; exact I.coNodup.erase _
  have hco' : ∀ c d co, Dict.get (Dict.erase st.coroutines c) d = some co → d ∈ cmds ∧ coOf b cmd g d = some co := by
    intro c d co h
    rw [Reactor.dict_get_erase _ _ _ I.coNodup] at h
    split at h
    · cases h
    · exact I.mem h
  cases h with
  | token ht hco hres hsig haw =>
    obtain ⟨hph, rfl, rfl⟩ := I.signalled ht hco hres hsig
    have hc := (I.mem hco).1
    have haw' := I.await hc hph
    rw [haw'] at haw
    cases haw
  | wait ht hne hwr =>
    refine ⟨⟨?_, ?_, I.pNodup, ?_, I.incoming, fun p hp => hp⟩, rfl⟩
    · simp only [left, ht]; exact I.coNodup
    · simp only [left, ht]; exact fun d co h => I.mem h
    · simp only [left, ht]; exact fun i x hi => .inl (hactive i x hi)
  | command ht hco hl =>
    rename_i c cs co
    simp only [left, ht]
    obtain ⟨hc, ⟨hph, hd, hn⟩ | ⟨hph, rfl, hn⟩⟩ := I.next ht
    · have hc' := (I.mem hco).2
      simp only [coOf, hph, Option.some.injEq] at hc'
      subst hc'
      simp only [Co.cfg] at hl
      have hpend : ∀ i x, Dict.get st.world.st.pending i = some x →
          (∃ d co, d ∈ cmds ∧ (g.ph d).active ∧ g.pk d = i ∧ Dict.get (Dict.erase st.coroutines c) d = some co) ∨
            ∀ p ∈ st.world.os.world.kernel.flying, x.1.blockAddr ≠ p.2 := by
        intro i x hi
        obtain ⟨d, co, hd, ad, hpk, hg⟩ := hactive i x hi
        refine .inl ⟨d, co, hd, ad, hpk, ?_⟩
        rw [herase]
        · exact hg
        · rintro rfl
          rw [hph] at ad; cases ad
      cases hq : (cmd c).request with
      | error x =>
        have := Reactor.asyncLoop_det hl (AsyncRun.unbuildable hq st.world); cases this
        exact ⟨⟨hnodup c, hco' c, I.pNodup, hpend, I.incoming, fun p hp => hp⟩, rfl⟩
      | ok q =>
        by_cases hlt : g.n < mq
        · obtain ⟨h, w, hrun, -⟩ := I.start hs hd hq hlt
          have := Reactor.asyncLoop_det hl hrun; cases this
        · obtain ⟨w', hrun, hos, hst⟩ := AsyncRun.start_full (a := Win32.W b) (parse := parse) (io := ioDevice b dev) (alloc := alloc) (own := some c) hq st.world
            (by rw [I.maxq, I.pFull (by rw [hd]; simp)]; omega)
          have := Reactor.asyncLoop_det hl hrun; cases this
          exact ⟨⟨hnodup c, hco' c, by rw [hst]; exact I.pNodup, by rw [hst]; exact hpend, by rw [hos]; exact I.incoming,
            by rw [hos]; exact fun p hp => hp⟩, hos⟩
    · have hc' := (I.mem hco).2
      simp only [coOf, hph, Option.some.injEq] at hc'
      subst hc'
      simp only [Co.cfg] at hl
      have ac := active_of_picked hph
      have hpend : ∀ i x, Dict.get st.world.st.pending i = some x →
          (∃ d co, d ∈ cmds ∧ (g.ph d).active ∧ g.pk d = i ∧ Dict.get (Dict.erase st.coroutines c) d = some co) ∨
            ∀ p ∈ st.world.os.world.kernel.flying, x.1.blockAddr ≠ p.2 := by
        intro i x hi
        obtain ⟨d, co, hd, ad, hpk, hg⟩ := hactive i x hi
        by_cases hdc : d = c
        · subst hdc
          right
          intro p hp
          obtain ⟨f, hf, hff, rfl⟩ := I.fly' p hp
          rw [← hpk, I.pend d hd ad] at hi
          cases hi
          exact addr_ne hs I hd hf ad (active_of_flying hff) (by rintro rfl; rw [hph] at hff; cases hff)
        · exact .inl ⟨d, co, hd, ad, hpk, by rw [herase c d hdc]; exact hg⟩
      cases hans : g.ans c with
      | error x =>
        obtain ⟨w', hrun, hos, hst⟩ := AsyncRun.finish_raised (io := ioDevice b dev) (alloc := alloc) (cmd := cmd c) (v := .num (blockSize b)) (r := some (.tok (g.ev c)))
          st.world I.incoming (I.box c hc ac) (I.built' hs hc ac).id (I.pend c hc ac) ((I.said c hc (.inr hph)).trans hans)
        have := Reactor.asyncLoop_det hl hrun; cases this
        refine ⟨⟨hnodup c, hco' c, ?_, ?_, by rw [hos]; exact I.incoming, by rw [hos]; exact fun p hp => hp⟩, hos⟩
        · rcases hst with h | h
          · rw [h]; exact I.pNodup
          · rw [h, Reactor.dict_keys_erase _ _ I.pNodup]; exact I.pNodup.erase _
        · rcases hst with h | h
          · rw [h]; exact hpend
          · rw [h]
            intro i x hi
            rw [Reactor.dict_get_erase _ _ _ I.pNodup] at hi
            split at hi
            · cases hi
            · exact hpend i x hi
      | ok v =>
        obtain ⟨r', rfl⟩ := AsyncInv.decoded_ok ((I.said c hc (.inr hph)).trans hans)
        obtain ⟨w', hrun, -⟩ := I.finish hs hc hph hans
        have := Reactor.asyncLoop_det hl hrun; cases this

end Verif.Release
