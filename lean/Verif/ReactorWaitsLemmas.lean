import Verif.ReactorWaits
import Verif.Props.Reactor
/-!
# Lemmas about `Verif.ReactorWaits`
-/
set_option linter.unusedSimpArgs false

namespace Verif.ReactorWaits
open Verif.Coroutine Verif.Reactor
open Verif.Executer (Dict)

variable {G σ V E T : Type} {M : Machine G σ V E T} {event : T → Nat} {gen : Nat → G} {world : Nat → σ} {cmds : List Nat}

/-- From a runnable configuration to a later one, some I/Os in between. -/
inductive Comes (M : Machine G σ V E T) : Cfg G σ V E T → Cfg G σ V E T → Prop
  | refl (cfg) : Comes M cfg cfg
  | io {cfg0 cfg t cfg' s' i} : Comes M cfg0 cfg → AsyncLoop M cfg (.blocked t cfg') → M.await t cfg'.st = (s', .ok i) →
      Comes M cfg0 { cfg' with args := i, st := s' }

/-- A coroutine is at some time suspended with token `t`. -/
def Waits (M : Machine G σ V E T) (cfg : Cfg G σ V E T) (t : T) : Prop :=
  ∃ a b, Comes M cfg a ∧ AsyncLoop M a (.blocked t b)

/-- The coroutines of the commands in `todo` are runnable, all others suspended with a token; all come from where they were started. -/
structure Kept (M : Machine G σ V E T) (gen : Nat → G) (world : Nat → σ) (cmds todo : List Nat) (d : Dict (Cfg G σ V E T)) : Prop where
  nodup : (Dict.keys d).Nodup
  mem : ∀ c cfg, Dict.get d c = some cfg → c ∈ cmds
  run : ∀ c cfg, Dict.get d c = some cfg → c ∈ todo → Comes M (start M (gen c) (world c)) cfg
  stop : ∀ c cfg, Dict.get d c = some cfg → c ∉ todo →
    ∃ a t, Comes M (start M (gen c) (world c)) a ∧ AsyncLoop M a (.blocked t cfg)

theorem Kept.forLoop {cs : List Nat} {st st' : St G σ V E T} (h : ForLoop M cs st st')
    (hcs : cs.Nodup) (hk : Kept M gen world cmds cs st.coroutines) : Kept M gen world cmds [] st'.coroutines := by
  induction h with
  | nil st => exact hk
  | @done c cs st st' cfg r s hg hl _ ih =>
    rw [List.nodup_cons] at hcs
    have he : ∀ x, Dict.get (Dict.erase st.coroutines c) x = if c = x then none else Dict.get st.coroutines x := by
      intro x; exact dict_get_erase _ _ _ hk.nodup
    refine ih hcs.2 ⟨?_, ?_, ?_, ?_⟩
    · show (Dict.keys (Dict.erase st.coroutines c)).Nodup
      rw [dict_keys_erase _ _ hk.nodup]; exact hk.nodup.sublist List.erase_sublist
    · intro x cfg hx
      simp only [he] at hx
      split at hx
      · cases hx
      · exact hk.mem x cfg hx
    · intro x cfg hx hxc
      simp only [he] at hx
      split at hx
      · cases hx
      · exact hk.run x cfg hx (List.mem_cons_of_mem _ hxc)
    · intro x cfg hx hxc
      simp only [he] at hx
      split at hx
      · cases hx
      · next hne => exact hk.stop x cfg hx (by simp only [List.mem_cons, not_or]; exact ⟨fun e => hne e.symm, hxc⟩)
  | @blocked c cs st st' cfg t cfg' hg hl _ ih =>
    rw [List.nodup_cons] at hcs
    have he : ∀ x, Dict.get (Dict.set st.coroutines c cfg') x = if c = x then some cfg' else Dict.get st.coroutines x := by
      intro x; exact dict_get_set _ _ _ _
    refine ih hcs.2 ⟨dict_nodup_set _ _ _ hk.nodup, ?_, ?_, ?_⟩
    · intro x cf hx
      simp only [he] at hx
      split at hx
      · next e => subst e; exact hk.mem _ _ hg
      · exact hk.mem x cf hx
    · intro x cf hx hxc
      simp only [he] at hx
      split at hx
      · next e => subst e; exact absurd hxc hcs.1
      · exact hk.run x cf hx (List.mem_cons_of_mem _ hxc)
    · intro x cf hx hxc
      simp only [he] at hx
      split at hx
      · next e =>
        subst e
        cases hx
        exact ⟨cfg, t, hk.run _ _ hg (List.mem_cons_self ..), hl⟩
      · next hne => exact hk.stop x cf hx (by simp only [List.mem_cons, not_or]; exact ⟨fun e => hne e.symm, hxc⟩)

theorem Kept.initial (gen : Nat → G) (world : Nat → σ) (cmds : List Nat) (_hn : cmds.Nodup) :
    Kept M gen world cmds cmds (Reactor.initial M gen world cmds).coroutines := by
  have key : ∀ (l : List Nat) (d : Dict (Cfg G σ V E T)), (∀ c ∈ l, c ∈ cmds) → (Dict.keys d).Nodup →
      (∀ c cfg, Dict.get d c = some cfg → c ∈ cmds ∧ cfg = start M (gen c) (world c)) →
      (Dict.keys (l.foldl (fun d c => Dict.set d c (start M (gen c) (world c))) d)).Nodup ∧
      ∀ c cfg, Dict.get (l.foldl (fun d c => Dict.set d c (start M (gen c) (world c))) d) c = some cfg →
        c ∈ cmds ∧ cfg = start M (gen c) (world c) := by
    intro l
    induction l with
    | nil => intro d _ hd h; exact ⟨hd, h⟩
    | cons x l ih =>
      intro d hl hd h
      refine ih _ (fun c hc => hl c (List.mem_cons_of_mem _ hc)) (dict_nodup_set _ _ _ hd) ?_
      intro c cfg hc
      rw [dict_get_set] at hc
      split at hc
      · next e => subst e; cases hc; exact ⟨hl _ (List.mem_cons_self ..), rfl⟩
      · exact h c cfg hc
  obtain ⟨h1, h2⟩ := key cmds [] (fun _ h => h) (by simp [Dict.keys]) (by intro c cfg h; simp [Dict.get] at h)
  refine ⟨h1, fun c cfg h => (h2 c cfg h).1, fun c cfg h _ => ?_, fun c cfg h hc => absurd (h2 c cfg h).1 hc⟩
  rw [(h2 c cfg h).2]; exact .refl _

/-- Every suspended coroutine has a token with an event of its own. -/
structure Tokens (event : T → Nat) (d : Dict (Cfg G σ V E T)) (es : List Nat) : Prop where
  are : d.map (fun p => eventOf event p.2) = es.map some
  nodup : es.Nodup

theorem eventDict_eq (d : Dict (Cfg G σ V E T)) : ∀ (ev : Dict Nat) (es : List Nat), d.map (fun p => eventOf event p.2) = es.map some →
    (Dict.keys ev ++ es).Nodup → eventDict event ev d = some (ev ++ es.zip (Dict.keys d)) := by
  induction d with
  | nil =>
    intro ev es h _
    have : es = [] := by simpa using h.symm
    subst this
    simp [eventDict]
  | cons p d ih =>
    obtain ⟨c, cfg⟩ := p
    intro ev es h hn
    cases es with
    | nil => simp at h
    | cons e es =>
      simp only [List.map_cons, List.cons.injEq] at h
      have hnot : e ∉ Dict.keys ev := by
        intro hm
        rw [List.nodup_append] at hn
        exact hn.2.2 e hm e (List.mem_cons_self ..) rfl
      simp only [eventDict, h.1]
      rw [Dict.set_fresh _ _ _ hnot, ih _ es h.2]
      · simp [Dict.keys]
      · simpa [Dict.keys] using hn

theorem Tokens.dict {d : Dict (Cfg G σ V E T)} {es} (h : Tokens event d es) : eventDict event [] d = some (es.zip (Dict.keys d)) := by
  rw [eventDict_eq d [] es h.are (by simpa [Dict.keys] using h.nodup)]; rfl

theorem Tokens.length {d : Dict (Cfg G σ V E T)} {es} (h : Tokens event d es) : es.length = d.length := by
  have := congrArg List.length h.are
  simpa using this.symm

theorem Tokens.keys {d : Dict (Cfg G σ V E T)} {es} (h : Tokens event d es) : Dict.keys (es.zip (Dict.keys d)) = es := by
  simp only [Dict.keys]
  apply List.map_fst_zip
  simp [h.length]

theorem Tokens.handles {d : Dict (Cfg G σ V E T)} {es} (h : Tokens event d es) : handles event d = es := by
  simp only [ReactorWaits.handles, h.dict, Option.map_some, Option.getD_some, h.keys]

/-- The commands' tokens never have an event in common. -/
def Apart (M : Machine G σ V E T) (event : T → Nat) (gen : Nat → G) (world : Nat → σ) (cmds : List Nat) : Prop :=
  ∀ c ∈ cmds, ∀ d ∈ cmds, c ≠ d → ∀ t u, Waits M (start M (gen c) (world c)) t → Waits M (start M (gen d) (world d)) u → event t ≠ event u

theorem dict_get_of_mem_pair {α : Type} {d : Dict α} {c : Nat} {v : α} (hn : (Dict.keys d).Nodup) (h : (c, v) ∈ d) : Dict.get d c = some v := by
  obtain ⟨k, hk, he⟩ := List.getElem_of_mem h
  exact (Dict.get_erase_of_getElem _ hn k c v (by rw [List.getElem?_eq_getElem hk, he])).1

theorem Kept.tokens {d : Dict (Cfg G σ V E T)}
    (h : Kept M gen world cmds [] d) (ha : Apart M event gen world cmds) : ∃ es, Tokens event d es := by
  -- the event of every entry
  have hone : ∀ p ∈ d, ∃ t, Waits M (start M (gen p.1) (world p.1)) t ∧ eventOf event p.2 = some (event t) ∧ p.1 ∈ cmds := by
    intro p hp
    have hg := dict_get_of_mem_pair (c := p.1) (v := p.2) h.nodup hp
    obtain ⟨a, t, h1, h2⟩ := h.stop _ _ hg (by simp)
    refine ⟨t, ⟨a, _, h1, h2⟩, ?_, h.mem _ _ hg⟩
    simp [eventOf, asyncLoop_blocked h2]
  have key : ∀ l : Dict (Cfg G σ V E T), (∀ p ∈ l, p ∈ d) → (Dict.keys l).Nodup →
      ∃ es : List Nat, l.map (fun p => eventOf event p.2) = es.map some ∧ es.Nodup := by
    intro l
    induction l with
    | nil => intro _ _; exact ⟨[], rfl, .nil⟩
    | cons p l ih =>
      intro hl hn
      simp only [Dict.keys, List.map_cons, List.nodup_cons] at hn
      obtain ⟨es, h1, h2⟩ := ih (fun q hq => hl q (List.mem_cons_of_mem _ hq)) hn.2
      obtain ⟨t, hw, he, hc⟩ := hone p (hl p (List.mem_cons_self ..))
      refine ⟨event t :: es, by simp [he, h1], ?_⟩
      rw [List.nodup_cons]
      refine ⟨fun hm => ?_, h2⟩
      have hm' : some (event t) ∈ l.map (fun p => eventOf event p.2) := by rw [h1]; exact List.mem_map_of_mem hm
      obtain ⟨q, hq, hqe⟩ := List.mem_map.1 hm'
      obtain ⟨u, hw', he', hc'⟩ := hone q (hl q (List.mem_cons_of_mem _ hq))
      rw [he'] at hqe
      have hne : p.1 ≠ q.1 := fun e => hn.1 (e ▸ List.mem_map_of_mem hq)
      exact ha _ hc _ hc' hne t u hw hw' (Option.some.inj hqe).symm
  obtain ⟨es, h1, h2⟩ := key d (fun _ h => h) h.nodup
  exact ⟨es, h1, h2⟩

theorem zip_keys_get {es ks : List Nat} (hn : es.Nodup) : ∀ {k e c : Nat}, es[k]? = some e → ks[k]? = some c →
    Dict.get (es.zip ks) e = some c := by
  induction es generalizing ks with
  | nil => intro k e c h; simp at h
  | cons x es ih =>
    intro k e c he hc
    rw [List.nodup_cons] at hn
    cases ks with
    | nil => simp at hc
    | cons y ks =>
      cases k with
      | zero =>
        simp only [List.getElem?_cons_zero, Option.some.injEq] at he hc
        simp [Dict.get, he, hc]
      | succ k =>
        simp only [List.getElem?_cons_succ] at he hc
        have hne : x ≠ e := by
          rintro rfl
          exact hn.1 (List.mem_of_getElem? he)
        simp only [List.zip_cons_cons, Dict.get, hne, if_false]
        exact ih hn.2 he hc

/-- The whole of `_wait_for_events`, the events being different: the number is an index, and the coroutine it stands for goes on. -/
theorem Tokens.wait {d : Dict (Cfg G σ V E T)} {es} (h : Tokens event d es) (hk : (Dict.keys d).Nodup) (hd : es.length ≤ 128) {k e : Nat}
    (he : es[k]? = some e) :
    ∃ c cfg t, d[k]? = some (c, cfg) ∧ cfg.result = some (.tok t) ∧ event t = e ∧ waitForEvents M event d k =
      match M.await t cfg.st with
      | (s', .ok i) => .picked c (Dict.set d c { cfg with args := i, st := s' })
      | (_, .error e) => .raised e := by
  have hlt : k < es.length := by
    by_cases hlt : k < es.length
    · exact hlt
    · rw [List.getElem?_eq_none (by omega)] at he; cases he
  have hkd : k < d.length := by rw [← h.length]; exact hlt
  have hq : d[k]? = some d[k] := List.getElem?_eq_getElem hkd
  generalize d[k] = p at hq
  obtain ⟨c, cfg⟩ := p
  have hev : eventOf event cfg = some e := by
    have := congrArg (fun l => l[k]?) h.are
    simp only [List.getElem?_map, hq, he, Option.map_some] at this
    exact Option.some.inj this
  obtain ⟨t, ht, hte⟩ : ∃ t, cfg.result = some (.tok t) ∧ event t = e := by
    simp only [eventOf] at hev
    split at hev
    · next t ht => exact ⟨t, ht, Option.some.inj hev⟩
    · cases hev
  refine ⟨c, cfg, t, hq, ht, hte, ?_⟩
  have hck : (Dict.keys d)[k]? = some c := by simp [Dict.keys, List.getElem?_map, hq]
  have hchk : checkWait k = some k := by
    have h1 : ¬ ((k : Int) < 0 ∨ 128 ≤ (k : Int)) := by omega
    simp [checkWait, h1]
  simp only [waitForEvents, h.dict, hchk, h.keys, he, zip_keys_get h.nodup he hck, complete,
    (Dict.get_erase_of_getElem _ hk k c cfg hq).1, ht]
  rcases M.await t cfg.st with ⟨_, _ | _⟩ <;> rfl

/-- A list without repetitions whose members are all in another one is not longer. -/
theorem nodup_length_le : ∀ {l l' : List Nat}, l.Nodup → (∀ x ∈ l, x ∈ l') → l.length ≤ l'.length
  | [], _, _, _ => Nat.zero_le _
  | x :: l, l', hn, h => by
    rw [List.nodup_cons] at hn
    have hx := h x (List.mem_cons_self ..)
    have hrec : l.length ≤ (l'.erase x).length := nodup_length_le hn.2 (fun y hy => by
      have hne : y ≠ x := fun e => hn.1 (e ▸ hy)
      exact (List.mem_erase_of_ne hne).2 (h y (List.mem_cons_of_mem _ hy)))
    rw [List.length_erase_of_mem hx] at hrec
    have : 0 < l'.length := List.length_pos_of_mem hx
    simp only [List.length_cons]
    omega

/-- What the `for` loop leaves of a command that comes to a token. -/
theorem forLoop_blocked {cs : List Nat} {st st' : St G σ V E T} (h : ForLoop M cs st st') (hcs : cs.Nodup)
    (hk : (Dict.keys st.coroutines).Nodup) :
    (∀ c cfg, c ∉ cs → Dict.get st.coroutines c = some cfg → Dict.get st'.coroutines c = some cfg) ∧
    ∀ c cfg t cfg', c ∈ cs → Dict.get st.coroutines c = some cfg → AsyncLoop M cfg (.blocked t cfg') →
      Dict.get st'.coroutines c = some cfg' := by
  induction h with
  | nil st => exact ⟨fun _ _ _ h => h, fun _ _ _ _ h => absurd h (by simp)⟩
  | @done c cs st st' cfg r s hg hl _ ih =>
    rw [List.nodup_cons] at hcs
    obtain ⟨h1, h2⟩ := ih hcs.2 (by
      show (Dict.keys (Dict.erase st.coroutines c)).Nodup
      rw [dict_keys_erase _ _ hk]; exact hk.sublist List.erase_sublist)
    refine ⟨?_, ?_⟩
    · intro x cf hx hxg
      simp only [List.mem_cons, not_or] at hx
      refine h1 x cf hx.2 ?_
      have hne : ¬ c = x := fun e => hx.1 e.symm
      simp only [dict_get_erase _ _ _ hk, hne, if_false]; exact hxg
    · intro x cf t cf' hx hxg hb
      rcases List.mem_cons.1 hx with rfl | hx
      · rw [hg] at hxg; cases hxg
        have := asyncLoop_det hl hb; cases this
      · refine h2 x cf t cf' hx ?_ hb
        have hne : ¬ c = x := fun e => hcs.1 (e ▸ hx)
        simp only [dict_get_erase _ _ _ hk, hne, if_false]; exact hxg
  | @blocked c cs st st' cfg t0 cfg0 hg hl _ ih =>
    rw [List.nodup_cons] at hcs
    obtain ⟨h1, h2⟩ := ih hcs.2 (dict_nodup_set _ _ _ hk)
    refine ⟨?_, ?_⟩
    · intro x cf hx hxg
      simp only [List.mem_cons, not_or] at hx
      refine h1 x cf hx.2 ?_
      have hne : ¬ c = x := fun e => hx.1 e.symm
      simp only [dict_get_set, hne, if_false]; exact hxg
    · intro x cf t cf' hx hxg hb
      rcases List.mem_cons.1 hx with rfl | hx
      · rw [hg] at hxg; cases hxg
        have := asyncLoop_det hl hb; cases this
        exact h1 _ _ hcs.1 (by simp [dict_get_set])
      · refine h2 x cf t cf' hx ?_ hb
        have hne : ¬ c = x := fun e => hcs.1 (e ▸ hx)
        simp only [dict_get_set, hne, if_false]; exact hxg

theorem initial_get {c : Nat} (hn : cmds.Nodup) (hc : c ∈ cmds) :
    Dict.get (Reactor.initial M gen world cmds).coroutines c = some (start M (gen c) (world c)) := by
  have key : ∀ (l : List Nat) (d : Dict (Cfg G σ V E T)), l.Nodup → 
      Dict.get (l.foldl (fun d c => Dict.set d c (start M (gen c) (world c))) d) c =
        if c ∈ l then some (start M (gen c) (world c)) else Dict.get d c := by
    intro l
    induction l with
    | nil => intro d _; simp
    | cons x l ih =>
      intro d hl
      rw [List.nodup_cons] at hl
      rw [List.foldl_cons, ih _ hl.2, dict_get_set]
      by_cases hx : x = c
      · subst hx; simp
      · have : ¬ c = x := fun e => hx e.symm
        simp [hx, this]
  rw [Reactor.initial, key cmds [] hn, if_pos hc]

/-- The `for` loop comes to an end if every coroutine comes to a token. -/
theorem forLoop_exists : ∀ (cs : List Nat) (st : St G σ V E T), cs.Nodup →
    (∀ c ∈ cs, ∃ cfg t cfg', Dict.get st.coroutines c = some cfg ∧ AsyncLoop M cfg (.blocked t cfg')) → ∃ st', ForLoop M cs st st'
  | [], st, _, _ => ⟨st, .nil st⟩
  | c :: cs, st, hn, h => by
    rw [List.nodup_cons] at hn
    obtain ⟨cfg, t, cfg', hg, hl⟩ := h c (List.mem_cons_self ..)
    obtain ⟨st', hf⟩ := forLoop_exists cs ⟨Dict.set st.coroutines c cfg', st.results⟩ hn.2 (fun x hx => by
      obtain ⟨a, u, a', h1, h2⟩ := h x (List.mem_cons_of_mem _ hx)
      have hne : ¬ c = x := fun e => hn.1 (e ▸ hx)
      exact ⟨a, u, a', by simp only [dict_get_set, hne, if_false]; exact h1, h2⟩)
    exact ⟨st', .blocked hg hl hf⟩

/-- More than 64 of the commands come to a token: the first wait raises. -/
theorem many_raise (hn : cmds.Nodup) (ha : Apart M event gen world cmds) {some : List Nat} (hs : some.Nodup) (hsub : ∀ c ∈ some, c ∈ cmds)
    (hmany : 64 < some.length) (hblk : ∀ c ∈ some, ∃ t cfg, AsyncLoop M (start M (gen c) (world c)) (.blocked t cfg)) :
    (∀ n rs, ¬ WaitFor M event gen world cmds n rs) ∧
    ∀ n st, Run M event gen world cmds n st → n = 0 ∧
      (∀ ready r, Spec.WaitAny ready (handles event st.coroutines) r → waitForEvents M event st.coroutines r = .osError) ∧
      ∀ c ∈ some, ∃ t cfg, AsyncLoop M (start M (gen c) (world c)) (.blocked t cfg) ∧ Dict.get st.coroutines c = .some cfg := by
  have hfirst : ∀ st, ForLoop M cmds (Reactor.initial M gen world cmds) st →
      (∀ c ∈ some, ∃ t cfg, AsyncLoop M (start M (gen c) (world c)) (.blocked t cfg) ∧ Dict.get st.coroutines c = .some cfg) ∧
      ∀ ready r, Spec.WaitAny ready (handles event st.coroutines) r → waitForEvents M event st.coroutines r = .osError := by
    intro st hf
    have hk0 := Kept.initial (M := M) gen world cmds hn
    have hk := hk0.forLoop hf hn
    have hb : ∀ c ∈ some, ∃ t cfg, AsyncLoop M (start M (gen c) (world c)) (.blocked t cfg) ∧ Dict.get st.coroutines c = .some cfg := by
      intro c hc
      obtain ⟨t, cfg', hbl⟩ := hblk c hc
      exact ⟨t, cfg', hbl, (forLoop_blocked hf hn hk0.nodup).2 c _ t cfg' (hsub c hc) (initial_get hn (hsub c hc)) hbl⟩
    refine ⟨hb, ?_⟩
    intro ready r hw
    obtain ⟨es, ht⟩ := hk.tokens ha
    have hlen : 64 < es.length := by
      rw [ht.length]
      have := nodup_length_le hs (l' := Dict.keys st.coroutines) (fun c hc => by
        obtain ⟨t, cfg, -, hg⟩ := hb c hc
        by_cases hh : c ∈ Dict.keys st.coroutines
        · exact hh
        · rw [(Dict.get_none_iff _ _).2 hh] at hg; cases hg)
      simp only [Dict.keys, List.length_map] at this
      omega
    rw [ht.handles] at hw
    cases hw with
    | object _ hle => simp only [Spec.maximumWaitObjects] at hle; omega
    | timeout _ hle => simp only [Spec.maximumWaitObjects] at hle; omega
    | failed => simp [waitForEvents, ht.dict, checkWait]
  have hrun : ∀ n st, Run M event gen world cmds n st → n = 0 ∧ ForLoop M cmds (Reactor.initial M gen world cmds) st := by
    intro n st hst
    induction hst with
    | first hf => exact ⟨rfl, hf⟩
    | next _ _ hw hp _ ih =>
      rw [(hfirst _ ih.2).2 _ _ hw] at hp
      cases hp
  refine ⟨?_, ?_⟩
  · rintro n rs ⟨st, hst, hz, -⟩
    obtain ⟨c, hc⟩ := List.exists_mem_of_length_pos (l := some) (by omega)
    obtain ⟨t, cfg, -, hg⟩ := (hfirst st (hrun n st hst).2).1 c hc
    rw [hz] at hg
    simp [Dict.get] at hg
  · intro n st hst
    obtain ⟨h1, h2⟩ := hrun n st hst
    exact ⟨h1, (hfirst st h2).2, (hfirst st h2).1⟩

end Verif.ReactorWaits
