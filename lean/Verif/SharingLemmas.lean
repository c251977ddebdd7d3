import Verif.Spec.Own

/-!
# Lemmas about programs with several command objects
-/

namespace Verif.Sharing

open Verif.Options Verif.Spec.Own

set_option linter.unusedSimpArgs false

/-- The values of an object as seen through its references. -/
def World.view (w : World) (i : Nat) : Option One := w.vars[i]?.map fun x => ⟨x.obj, w.control x⟩

theorem home_lt (c : Cls) : home c < 2 := by cases c <;> decide

theorem fixed_resets (c : Cls) : fixed c = c.resets := by cases c <;> rfl

theorem isBuffer_positional (c : Cls) : isBuffer c = c.positional := by cases c <;> rfl

/-- No two objects refer to the same control object, except for the defaults. -/
structure Sep (w : World) : Prop where
  pos : 2 ≤ w.controls.length
  lt : ∀ (i : Nat) (x : Var) (a : Nat), w.vars[i]? = some x → x.control = some a → a < w.controls.length
  sep : ∀ (i j : Nat) (x y : Var) (a : Nat), i ≠ j → w.vars[i]? = some x → w.vars[j]? = some y → x.control = some a → y.control = some a → a < 2

theorem Sep.start : Sep World.start := ⟨by decide, by simp [World.start], by simp [World.start]⟩

theorem getElem?_snoc {α : Type} (l : List α) (x : α) (i : Nat) :
    (l ++ [x])[i]? = if i = l.length then some x else l[i]? := by
  by_cases h : i = l.length
  · subst h; simp
  · rw [if_neg h]
    by_cases h' : i < l.length
    · rw [List.getElem?_append_left h']
    · rw [List.getElem?_eq_none (by simp; omega), List.getElem?_eq_none (by omega)]

theorem getD_snoc {α : Type} (l : List α) (x d : α) (a : Nat) (h : a < l.length) : (l ++ [x]).getD a d = l.getD a d := by
  simp [List.getD_eq_getElem?_getD, List.getElem?_append_left h]

theorem getD_last {α : Type} (l : List α) (x d : α) : (l ++ [x]).getD l.length d = x := by
  simp [List.getD_eq_getElem?_getD]

theorem getD_modify {α : Type} (l : List α) (f : α → α) (a b : Nat) (d : α) (h : b < l.length) :
    (l.modify a f).getD b d = if a = b then f (l.getD b d) else l.getD b d := by
  simp only [List.getD_eq_getElem?_getD, List.getElem?_modify]
  by_cases e : a = b <;> simp [e, List.getElem?_eq_getElem h]

theorem getElem?_modify' {α : Type} (l : List α) (f : α → α) (a b : Nat) :
    (l.modify a f)[b]? = if a = b then (l[b]?).map f else l[b]? := by
  rw [List.getElem?_modify]; by_cases e : a = b <;> simp [e]

/-- The place of the control object a command uses. -/
def ref (x : Var) : Nat := if x.obj.cls.resets then home x.obj.cls else x.control.getD (home x.obj.cls)

theorem control_ref (w : World) (x : Var) : w.control x = w.controls.getD (ref x) ⟨0, 0⟩ := rfl

/-- The control object a command uses exists. -/
theorem Sep.ref_lt {w : World} (h : Sep w) {i : Nat} {x : Var} (hx : w.vars[i]? = some x) :
    ref x < w.controls.length := by
  have h2 := Nat.lt_of_lt_of_le (home_lt x.obj.cls) h.pos
  simp only [ref]
  split
  · exact h2
  · cases hc : x.control with
    | none => exact h2
    | some a => exact h.lt i x a hx hc

/-- Nothing in `Sep` breaks when an object is added with a default, or with a new control object. -/
theorem Sep.add {w : World} (h : Sep w) (o : Obj) (l : List Ctl) (c : Option Nat)
    (hc : c = none ∨ (∃ b, b < 2 ∧ c = some b) ∨ (c = some w.controls.length ∧ l ≠ [])) : Sep ⟨w.controls ++ l, w.vars ++ [⟨o, c⟩]⟩ := by
  have hl : w.controls.length ≤ (w.controls ++ l).length := by simp
  refine ⟨Nat.le_trans h.pos hl, ?_, ?_⟩
  · intro i x a hx ha
    simp only [getElem?_snoc] at hx
    split at hx
    · cases hx
      simp only at ha
      rcases hc with e | ⟨b, hb, e⟩ | ⟨e, hn⟩
      · simp [e] at ha
      · rw [e] at ha; cases ha; exact Nat.lt_of_lt_of_le (Nat.lt_of_lt_of_le hb h.pos) hl
      · rw [e] at ha; cases ha
        have := List.length_pos_iff.mpr hn
        simp; omega
    · exact Nat.lt_of_lt_of_le (h.lt i x a hx ha) hl
  · intro i j x y a hij hx hy ha hb
    simp only [getElem?_snoc] at hx hy
    split at hx <;> split at hy
    · omega
    · cases hx
      rcases hc with e | ⟨b, hb', e⟩ | ⟨e, -⟩
      · simp [e] at ha
      · rw [e] at ha; cases ha; exact hb'
      · rw [e] at ha; cases ha
        exact absurd (h.lt j y _ hy hb) (Nat.lt_irrefl _)
    · cases hy
      rcases hc with e | ⟨b, hb', e⟩ | ⟨e, -⟩
      · simp [e] at hb
      · rw [e] at hb; cases hb; exact hb'
      · rw [e] at hb; cases hb
        exact absurd (h.lt i x _ hx ha) (Nat.lt_irrefl _)
    · exact h.sep i j x y a hij hx hy ha hb

/-- Changing the members of a control object moves no reference. -/
theorem Sep.modify {w : World} (h : Sep w) (a : Nat) (f : Ctl → Ctl) : Sep { w with controls := w.controls.modify a f } := by
  refine ⟨by simpa using h.pos, ?_, h.sep⟩
  intro i x b hx hb
  simpa using h.lt i x b hx hb

/-- Changing an object without touching its reference. -/
theorem Sep.obj {w : World} (h : Sep w) (i : Nat) (f : Obj → Obj) :
    Sep { w with vars := w.vars.modify i fun x => { x with obj := f x.obj } } := by
  have key : ∀ (j : Nat) (y : Var), (w.vars.modify i fun x => { x with obj := f x.obj })[j]? = some y →
      ∃ x : Var, w.vars[j]? = some x ∧ x.control = y.control := by
    intro j y hy
    rw [getElem?_modify'] at hy
    split at hy
    · cases hx : w.vars[j]? with
      | none => rw [hx] at hy; cases hy
      | some x => rw [hx] at hy; cases hy; exact ⟨x, rfl, rfl⟩
    · exact ⟨y, hy, rfl⟩
  refine ⟨h.pos, ?_, ?_⟩
  · intro j y a hy ha
    obtain ⟨x, hx, e⟩ := key j y hy
    exact h.lt j x a hx (e ▸ ha)
  · intro j k y z a hjk hy hz ha hb
    obtain ⟨x, hx, e⟩ := key j y hy
    obtain ⟨x', hx', e'⟩ := key k z hz
    exact h.sep j k x x' a hjk hx hx' (e ▸ ha) (e' ▸ hb)

/-- Letting an object refer to a new control object, or to a default. -/
theorem Sep.point {w : World} (h : Sep w) (i : Nat) (l : List Ctl) (c : Var → Nat)
    (hc : ∀ x, c x < 2 ∨ (c x = w.controls.length ∧ l ≠ [])) :
    Sep ⟨w.controls ++ l, w.vars.modify i fun x => { x with control := some (c x) }⟩ := by
  have key : ∀ (j : Nat) (y : Var), (w.vars.modify i fun x => { x with control := some (c x) })[j]? = some y →
      (j = i ∧ ∃ x, y.control = some (c x)) ∨ (j ≠ i ∧ w.vars[j]? = some y) := by
    intro j y hy
    rw [getElem?_modify'] at hy
    split at hy
    · rename_i e
      cases hx : w.vars[j]? with
      | none => rw [hx] at hy; cases hy
      | some x => rw [hx] at hy; cases hy; exact .inl ⟨e.symm, x, rfl⟩
    · rename_i e; exact .inr ⟨fun e' => e e'.symm, hy⟩
  have hp := h.pos
  have hlen : (w.controls ++ l).length = w.controls.length + l.length := List.length_append
  refine ⟨by show 2 ≤ (w.controls ++ l).length; omega, ?_, ?_⟩
  · intro j y a hy ha
    rcases key j y hy with ⟨-, x, e⟩ | ⟨-, hx⟩
    · rw [e] at ha; cases ha
      rcases hc x with h' | ⟨h', hn⟩
      · show c x < (w.controls ++ l).length; omega
      · have := List.length_pos_iff.mpr hn
        show c x < (w.controls ++ l).length; omega
    · have := h.lt j y a hx ha
      show a < (w.controls ++ l).length; omega
  · intro j k y z a hjk hy hz ha hb
    rcases key j y hy with ⟨e1, x, e⟩ | ⟨-, hx⟩ <;> rcases key k z hz with ⟨e2, x', e'⟩ | ⟨-, hx'⟩
    · omega
    · rw [e] at ha; cases ha
      rcases hc x with h' | ⟨h', -⟩
      · exact h'
      · have := h.lt k z _ hx' hb; omega
    · rw [e'] at hb; cases hb
      rcases hc x' with h' | ⟨h', -⟩
      · exact h'
      · have := h.lt j y _ hx ha; omega
    · exact h.sep j k y z a hjk hx hx' ha hb

/-- What an `execute` leaves behind. -/
inductive Left (d : Default) (w : World) (i : Nat) : World → Prop
  | same : Left d w i w
  | default (hd : d = .shared) (x : Var) (hx : w.vars[i]? = some x) (hr : x.obj.cls.resets = true) :
      Left d w i { w with vars := w.vars.modify i fun x => { x with control := some (home x.obj.cls) } }
  | copy (hd : d = .copied) (x : Var) (hx : w.vars[i]? = some x) (hr : x.obj.cls.resets = true) (c : Ctl) :
      Left d w i ⟨w.controls ++ [c], w.vars.modify i fun x => { x with control := some w.controls.length }⟩

theorem execute_left (d : Default) (L : Lib) (w : World) (i : Nat) : Left d w i (step d L w (.execute i)).1 := by
  simp only [step]
  cases hx : w.vars[i]? with
  | none => exact .same
  | some x =>
    simp only
    split
    · rename_i hr
      cases d with
      | shared => exact .default rfl x hx hr
      | copied => exact .copy rfl x hx hr _
      | late => exact .same
    · exact .same

theorem execute_out (d : Default) (L : Lib) (w : World) (i : Nat) :
    (step d L w (.execute i)).2 = [(i, match w.vars[i]? with
      | none => .error .nameError
      | some x => request L x.obj (w.control x))] := by
  simp only [step]
  cases hx : w.vars[i]? with
  | none => rfl
  | some x =>
    simp only
    split
    · cases d <;> rfl
    · rfl

/-- What a constructor leaves behind. -/
inductive Made (d : Default) (w : World) (o : Obj) : World → Prop
  | bare (hd : d = .late ∨ o.cls.resets = true) : Made d w o { w with vars := w.vars ++ [⟨o, none⟩] }
  | default (hd : d = .shared) (hr : o.cls.resets = false) : Made d w o { w with vars := w.vars ++ [⟨o, some (home o.cls)⟩] }
  | copy (hd : d = .copied) (hr : o.cls.resets = false) :
      Made d w o ⟨w.controls ++ [w.controls.getD (home o.cls) ⟨0, 0⟩], w.vars ++ [⟨o, some w.controls.length⟩]⟩

theorem new_made (d : Default) (L : Lib) (w : World) (c : Ctor) (o : Obj) (hc : c.make L = .ok o) :
    Made d w o (step d L w (.new c)).1 ∧ (step d L w (.new c)).2 = [] := by
  simp only [step, hc]
  split
  · rename_i hr; exact ⟨.bare (.inr hr), rfl⟩
  · rename_i hr
    cases d with
    | shared => exact ⟨.default rfl (by simpa using hr), rfl⟩
    | copied => exact ⟨.copy rfl (by simpa using hr), rfl⟩
    | late => exact ⟨.bare (.inl rfl), rfl⟩

theorem Sep.left {d : Default} {w w' : World} (h : Sep w) {i : Nat} (hl : Left d w i w') : Sep w' := by
  cases hl with
  | same => exact h
  | default hd x hx hr =>
    have := h.point i [] (fun x => home x.obj.cls) fun x => .inl (home_lt _)
    simpa using this
  | copy hd x hx hr c => exact h.point i [c] (fun _ => w.controls.length) fun _ => .inr ⟨rfl, by simp⟩

theorem Sep.made {d : Default} {w w' : World} (h : Sep w) {o : Obj} (hl : Made d w o w') : Sep w' := by
  cases hl with
  | bare => have := h.add o [] none (.inl rfl); simpa using this
  | default => have := h.add o [] (some (home o.cls)) (.inr (.inl ⟨_, home_lt _, rfl⟩)); simpa using this
  | copy => exact h.add o _ _ (.inr (.inr ⟨rfl, by simp⟩))

theorem Sep.step {w : World} (h : Sep w) (d : Default) (L : Lib) (s : Stmt) : Sep (step d L w s).1 := by
  cases s with
  | new c =>
    cases hc : c.make L with
    | error e => simp only [Sharing.step, hc]; exact h
    | ok o => exact h.made (new_made d L w c o hc).1
  | set i name v => exact h.obj i fun o => o.set name v
  | buffer i bs => exact h.obj i fun o => o.setBuffer bs
  | assign i n v => exact h.point i [⟨n, v⟩] (fun _ => w.controls.length) fun _ => .inr ⟨rfl, by simp⟩
  | poke i m v =>
    simp only [Sharing.step]
    cases w.vars[i]? with
    | none => exact h
    | some x =>
      simp only
      cases x.control with
      | none => exact h
      | some a => exact h.modify a _
  | execute i => exact h.left (execute_left d L w i)

/-! ## What each statement does to the objects as seen through their references -/

theorem view_made (w w' : World) (h : Sep w) (d : Default) (o : Obj) (hm : Made d w o w') (i : Nat) :
    w'.view i = if i = w.vars.length then some ⟨o, w.controls.getD (home o.cls) ⟨0, 0⟩⟩ else w.view i := by
  cases hm with
  | bare hd =>
    simp only [World.view, World.control, getElem?_snoc]
    split
    · simp
    · rfl
  | default hd hr =>
    simp only [World.view, World.control, getElem?_snoc]
    split
    · simp [hr]
    · rfl
  | copy hd hr =>
    simp only [World.view, World.control, getElem?_snoc]
    split
    · simp [hr]
    · cases hx : w.vars[i]? with
      | none => rfl
      | some x => simp only [Option.map_some]; congr 2; exact getD_snoc _ _ _ _ (h.ref_lt hx)

theorem view_obj (w : World) (f : Obj → Obj) (hf : ∀ o, (f o).cls = o.cls) (j i : Nat) :
    World.view { w with vars := w.vars.modify j fun x => { x with obj := f x.obj } } i =
      if j = i then (w.view i).map fun o => { o with obj := f o.obj } else w.view i := by
  simp only [World.view, getElem?_modify']
  split
  · cases w.vars[i]? with
    | none => rfl
    | some x => simp [World.control, hf]
  · rfl

theorem view_assign (w : World) (h : Sep w) (c : Ctl) (j i : Nat) :
    World.view ⟨w.controls ++ [c], w.vars.modify j fun x => { x with control := some w.controls.length }⟩ i =
      if j = i then (w.view i).map fun o => if fixed o.obj.cls then o else { o with control := c } else w.view i := by
  have same : ∀ x, w.vars[i]? = some x → (w.controls ++ [c]).getD (ref x) ⟨0, 0⟩ = w.controls.getD (ref x) ⟨0, 0⟩ :=
    fun x hx => getD_snoc _ _ _ _ (h.ref_lt hx)
  simp only [World.view, getElem?_modify', control_ref]
  split
  · cases hx : w.vars[i]? with
    | none => rfl
    | some x =>
      have hs := same x hx
      simp only [Option.map_some, fixed_resets]
      by_cases hr : x.obj.cls.resets = true
      · simp only [ref, hr, if_true] at hs ⊢; rw [hs]
      · simp [ref, hr]
  · cases hx : w.vars[i]? with
    | none => rfl
    | some x => simp only [Option.map_some, same x hx]

theorem view_left (w w' : World) (h : Sep w) (d : Default) (j : Nat) (hl : Left d w j w') (i : Nat) : w'.view i = w.view i := by
  cases hl with
  | same => rfl
  | default hd x hx hr =>
    simp only [World.view, getElem?_modify']
    split
    · rename_i e; subst e
      simp [hx, World.control, hr]
    · rfl
  | copy hd x hx hr c =>
    rw [view_assign w h c j i]
    split
    · rename_i e; subst e
      simp [World.view, hx, fixed_resets, hr]
    · rfl

/-- A control object that is no default belongs to one object. -/
theorem view_poke (w : World) (h : Sep w) (j i : Nat) (x : Var) (a : Nat) (hx : w.vars[j]? = some x) (ha : x.control = some a)
    (h0 : 2 ≤ a) (f : Ctl → Ctl) :
    World.view { w with controls := w.controls.modify a f } i =
      if j = i then (w.view i).map fun o => if fixed o.obj.cls then o else { o with control := f o.control } else w.view i := by
  simp only [World.view, control_ref]
  cases hy : w.vars[i]? with
  | none => split <;> rfl
  | some y =>
    have hh := home_lt y.obj.cls
    simp only [Option.map_some, getD_modify _ _ _ _ _ (h.ref_lt hy), fixed_resets]
    by_cases e : j = i
    · subst e
      rw [hx] at hy; cases hy
      by_cases hr : x.obj.cls.resets = true
      · have : ¬ a = home x.obj.cls := by omega
        simp [ref, hr, this]
      · simp [ref, hr, ha]
    · rw [if_neg e]
      have : a ≠ ref y := by
        intro e'
        simp only [ref] at e'
        split at e'
        · omega
        · cases hc : y.control with
          | none => rw [hc] at e'; simp only [Option.getD_none] at e'; omega
          | some b =>
            rw [hc] at e'
            simp only [Option.getD_some] at e'
            subst e'
            have := h.sep j i x y a e hx hy ha hc
            omega
      rw [if_neg this]

/-! ## Objects on their own -/

/-- The invariant behind isolation: references are separate, the defaults are untouched. -/
structure Clean (w : World) : Prop where
  sep : Sep w
  zero : ∀ k, k < 2 → w.controls.getD k ⟨0, 0⟩ = ⟨0, 0⟩

theorem Clean.append {w : World} (h : Clean w) (l : List Ctl) (k : Nat) (hk : k < 2) :
    (w.controls ++ l).getD k ⟨0, 0⟩ = ⟨0, 0⟩ := by
  have := Nat.lt_of_lt_of_le hk h.sep.pos
  have e : (w.controls ++ l).getD k ⟨0, 0⟩ = w.controls.getD k ⟨0, 0⟩ := by
    simp [List.getD_eq_getElem?_getD, List.getElem?_append_left this]
  rw [e]; exact h.zero k hk

theorem ofObject_append (i : Nat) (l m : List (Nat × Py Req)) : ofObject i (l ++ m) = ofObject i l ++ ofObject i m := by
  simp [ofObject]

/-- An object through which no default can be changed. -/
def Own (x : Var) : Prop := (∃ a, x.control = some a ∧ 2 ≤ a) ∨ (x.control = none ∧ x.obj.cls.resets = true)

/-- A statement is harmless when it changes no default control object in place. -/
def Safe (w : World) : Stmt → Prop
  | .poke i _ _ => ∀ x, w.vars[i]? = some x → Own x
  | _ => True

theorem Clean.step {w : World} (h : Clean w) (d : Default) (L : Lib) (s : Stmt) (hs : Safe w s) : Clean (step d L w s).1 := by
  refine ⟨h.sep.step d L s, ?_⟩
  cases s with
  | new c =>
    cases hc : c.make L with
    | error e => simp only [Sharing.step, hc]; exact h.zero
    | ok o =>
      have hm := (new_made d L w c o hc).1
      generalize (Sharing.step d L w (.new c)).1 = w' at hm
      cases hm with
      | bare => exact h.zero
      | default => exact h.zero
      | copy => exact h.append _
  | set i name v => exact h.zero
  | buffer i bs => exact h.zero
  | assign i n v => exact h.append _
  | poke i m v =>
    simp only [Sharing.step]
    cases hx : w.vars[i]? with
    | none => exact h.zero
    | some x =>
      rcases hs x hx with ⟨a, ha, h0⟩ | ⟨ha, -⟩
      · simp only [ha]
        intro k hk
        rw [getD_modify _ _ _ _ _ (Nat.lt_of_lt_of_le hk h.sep.pos), if_neg (by omega)]
        exact h.zero k hk
      · simp only [ha]; exact h.zero
  | execute i =>
    have hl := execute_left d L w i
    generalize (Sharing.step d L w (.execute i)).1 = w' at hl
    cases hl with
    | same => exact h.zero
    | default => exact h.zero
    | copy => exact h.append _

theorem left_length {d : Default} {w w' : World} {i : Nat} (h : Left d w i w') : w'.vars.length = w.vars.length := by
  cases h <;> simp

theorem made_length {d : Default} {w w' : World} {o : Obj} (h : Made d w o w') : w'.vars.length = w.vars.length + 1 := by
  cases h <;> simp

theorem life_step (L : Lib) (d : Default) (w : World) (h : Clean w) (s : Stmt) (hs : Safe w s) (r : List Stmt) (i : Nat)
    (ih : ofObject i (run d L (step d L w s).1 r) =
      life L i r (step d L w s).1.vars.length ((step d L w s).1.view i)) :
    ofObject i (run d L w (s :: r)) = life L i (s :: r) w.vars.length (w.view i) := by
  simp only [run, ofObject_append]
  rw [ih]
  cases s with
  | new c =>
    cases hc : c.make L with
    | error e => simp [Sharing.step, hc, life, ofObject]
    | ok o =>
      obtain ⟨hm, hn⟩ := new_made d L w c o hc
      rw [view_made w _ h.sep d o hm i, h.zero _ (home_lt _), made_length hm, hn]
      simp only [life, hc, ofObject, List.filterMap_nil, List.nil_append]
      by_cases e : i = w.vars.length
      · rw [if_pos e, if_pos e.symm]
      · rw [if_neg e, if_neg (fun e' => e e'.symm)]
  | set j name v =>
    simp only [Sharing.step, life, target, ofObject, List.filterMap_nil, List.nil_append, List.length_modify]
    rw [view_obj w (fun o => o.set name v) (fun _ => rfl) j i]
    simp only [Option.some.injEq]; rfl
  | buffer j bs =>
    simp only [Sharing.step, life, target, ofObject, List.filterMap_nil, List.nil_append, List.length_modify]
    rw [view_obj w (fun o => o.setBuffer bs) (fun _ => rfl) j i]
    simp only [Option.some.injEq]; rfl
  | assign j n v =>
    simp only [Sharing.step, life, target, ofObject, List.filterMap_nil, List.nil_append, List.length_modify]
    rw [view_assign w h.sep ⟨n, v⟩ j i]
    simp only [Option.some.injEq]; rfl
  | poke j m v =>
    simp only [Sharing.step, life, target, Option.some.injEq]
    cases hx : w.vars[j]? with
    | none =>
      have : ∀ f, (if j = i then (w.view i).map f else w.view i) = w.view i := by
        intro f
        split
        · rename_i e; subst e; simp [World.view, hx]
        · rfl
      rw [this]; rfl
    | some x =>
      rcases hs x hx with ⟨a, ha, h0⟩ | ⟨ha, hr⟩
      · simp only [ha]
        rw [view_poke w h.sep j i x a hx ha h0 (fun c => c.put m v)]; rfl
      · simp only [ha]
        have : (if j = i then (w.view i).map (fun o => o.apply (.poke j m v)) else w.view i) = w.view i := by
          split
          · rename_i e; subst e
            simp [World.view, hx, One.apply, fixed_resets, hr]
          · rfl
        rw [this]; rfl
  | execute j =>
    rw [left_length (execute_left d L w j), view_left w _ h.sep d j (execute_left d L w j) i, execute_out]
    simp only [life]
    by_cases e : j = i
    · subst e
      rw [if_pos rfl]
      cases hx : w.vars[j]? <;> simp [ofObject, World.view, hx]
    · rw [if_neg e]
      cases hx : w.vars[j]? <;> simp [ofObject, e]

/-! ## A library that copies: every object has a control object of its own -/

def AllOwn (w : World) : Prop := ∀ (i : Nat) (x : Var), w.vars[i]? = some x → Own x

theorem AllOwn.safe {w : World} (h : AllOwn w) (s : Stmt) : Safe w s := by
  cases s with
  | poke i m v => exact h i
  | _ => trivial

theorem modify_get {w : World} {i j : Nat} {f : Var → Var} {y : Var} (hy : (w.vars.modify i f)[j]? = some y) :
    ∃ x, w.vars[j]? = some x ∧ ((j = i ∧ y = f x) ∨ (j ≠ i ∧ y = x)) := by
  rw [getElem?_modify'] at hy
  split at hy
  · rename_i e
    cases hx : w.vars[j]? with
    | none => rw [hx] at hy; cases hy
    | some x => rw [hx] at hy; cases hy; exact ⟨x, rfl, .inl ⟨e.symm, rfl⟩⟩
  · rename_i e; exact ⟨y, hy, .inr ⟨fun e' => e e'.symm, rfl⟩⟩

theorem AllOwn.modify {w : World} (h : AllOwn w) (i : Nat) (f : Var → Var) (l : List Ctl)
    (hf : ∀ x, Own x → Own (f x)) : AllOwn ⟨l, w.vars.modify i f⟩ := by
  intro j y hy
  obtain ⟨x, hx, ⟨-, e⟩ | ⟨-, e⟩⟩ := modify_get hy
  · subst e; exact hf x (h j x hx)
  · subst e; exact h j _ hx

theorem AllOwn.step {w : World} (h : AllOwn w) (hp : 2 ≤ w.controls.length) (L : Lib) (s : Stmt) :
    AllOwn (step .copied L w s).1 := by
  cases s with
  | new c =>
    cases hc : c.make L with
    | error e => simp only [Sharing.step, hc]; exact h
    | ok o =>
      have hm := (new_made .copied L w c o hc).1
      generalize (Sharing.step .copied L w (.new c)).1 = w' at hm
      cases hm with
      | bare hd =>
        intro i x hx
        simp only [getElem?_snoc] at hx
        split at hx
        · cases hx; exact .inr ⟨rfl, hd.resolve_left (by decide)⟩
        · exact h i x hx
      | default hd => cases hd
      | copy hd hr =>
        intro i x hx
        simp only [getElem?_snoc] at hx
        split at hx
        · cases hx; exact .inl ⟨_, rfl, hp⟩
        · exact h i x hx
  | set i name v => exact h.modify i _ _ fun x hx => hx
  | buffer i bs => exact h.modify i _ _ fun x hx => hx
  | assign i n v => exact h.modify i _ _ fun x hx => .inl ⟨_, rfl, hp⟩
  | poke i m v =>
    simp only [Sharing.step]
    cases w.vars[i]? with
    | none => exact h
    | some x =>
      simp only
      cases x.control <;> exact h
  | execute i =>
    have hl := execute_left .copied L w i
    generalize (Sharing.step .copied L w (.execute i)).1 = w' at hl
    cases hl with
    | same => exact h
    | default hd => cases hd
    | copy => exact h.modify i _ _ fun x hx => .inl ⟨_, rfl, hp⟩

theorem run_copied (L : Lib) (i : Nat) (prog : List Stmt) (w : World) (h : Clean w) (ho : AllOwn w) :
    ofObject i (run .copied L w prog) = life L i prog w.vars.length (w.view i) := by
  induction prog generalizing w with
  | nil => rfl
  | cons s r ih =>
    exact life_step L .copied w h s (ho.safe s) r i (ih _ (h.step .copied L s (ho.safe s)) (ho.step h.sep.pos L s))

/-! ## Programs that assign before they change -/

/-- Which objects have a fixed control byte. -/
def kinds (w : World) : List Bool := w.vars.map fun x => x.obj.cls.resets

/-- Objects in the list exist and have control objects of their own. -/
def OwnIn (w : World) (l : List Nat) : Prop := ∀ i ∈ l, ∃ x, w.vars[i]? = some x ∧ Own x

theorem OwnIn.modify {w : World} {l : List Nat} (h : OwnIn w l) (i : Nat) (f : Var → Var) (cs : List Ctl)
    (hf : ∀ x, Own x → Own (f x)) : OwnIn ⟨cs, w.vars.modify i f⟩ l := by
  intro j hj
  obtain ⟨x, hx, ho⟩ := h j hj
  simp only [getElem?_modify', hx]
  split
  · exact ⟨f x, rfl, hf x ho⟩
  · exact ⟨x, rfl, ho⟩

theorem kinds_modify (w : World) (i : Nat) (f : Var → Var) (cs : List Ctl) (hf : ∀ x, (f x).obj.cls = x.obj.cls) :
    kinds ⟨cs, w.vars.modify i f⟩ = kinds w := by
  simp only [kinds]
  apply List.ext_getElem?
  intro j
  simp only [List.getElem?_map, getElem?_modify']
  split
  · cases w.vars[j]? with
    | none => rfl
    | some x => simp [hf]
  · rfl

theorem run_careful (d : Default) (L : Lib) (i : Nat) (prog : List Stmt) (w : World) (h : Clean w) (l : List Nat)
    (ho : OwnIn w l) (hc : Careful L prog (kinds w) l) :
    ofObject i (run d L w prog) = life L i prog w.vars.length (w.view i) := by
  have hp := h.sep.pos
  induction prog generalizing w l with
  | nil => rfl
  | cons s r ih =>
    have ih : ∀ (w : World), Clean w → ∀ l, OwnIn w l → Careful L r (kinds w) l →
        ofObject i (run d L w r) = life L i r w.vars.length (w.view i) := fun w h l ho hc => ih w h l ho hc h.sep.pos
    cases s with
    | new c =>
      refine life_step L d w h (.new c) trivial r i ?_
      have hcl := h.step d L (.new c) trivial
      simp only [Careful] at hc
      cases hm : c.make L with
      | error e =>
        simp only [hm] at hc
        have e1 : (step d L w (.new c)).1 = w := by simp only [Sharing.step, hm]
        rw [e1]; exact ih w h l ho hc
      | ok o =>
        simp only [hm] at hc
        have hmd := (new_made d L w c o hm).1
        generalize (step d L w (.new c)).1 = w' at hmd hcl
        have hv : ∃ y : Var, y.obj = o ∧ w'.vars = w.vars ++ [y] := by
          cases hmd
          · exact ⟨_, rfl, rfl⟩
          · exact ⟨_, rfl, rfl⟩
          · exact ⟨_, rfl, rfl⟩
        obtain ⟨y, ey, hv⟩ := hv
        refine ih _ hcl l ?_ ?_
        · intro k hk
          obtain ⟨x, hx, hox⟩ := ho k hk
          refine ⟨x, ?_, hox⟩
          rw [hv, getElem?_snoc, if_neg]
          · exact hx
          · intro e; subst e; simp at hx
        · have : kinds w' = kinds w ++ [fixed o.cls] := by simp [kinds, hv, ey, fixed_resets]
          rw [this]; exact hc
    | set j name v =>
      exact life_step L d w h (.set j name v) trivial r i (ih _ (h.step d L (.set j name v) trivial) l
        (ho.modify j _ _ fun x hx => hx) (by
          simp only [Sharing.step]; rw [kinds_modify w j (fun x => { x with obj := x.obj.set name v }) _ fun _ => rfl]; exact hc))
    | buffer j bs =>
      exact life_step L d w h (.buffer j bs) trivial r i (ih _ (h.step d L (.buffer j bs) trivial) l
        (ho.modify j _ _ fun x hx => hx) (by
          simp only [Sharing.step]; rw [kinds_modify w j (fun x => { x with obj := x.obj.setBuffer bs }) _ fun _ => rfl]; exact hc))
    | assign j n v =>
      refine life_step L d w h (.assign j n v) trivial r i (ih _ (h.step d L (.assign j n v) trivial)
        (if j < (kinds w).length then j :: l else l) ?_ ?_)
      · have hm : OwnIn (step d L w (.assign j n v)).1 l := ho.modify j _ _ fun x _ => .inl ⟨_, rfl, hp⟩
        split
        · rename_i hj
          intro k hk
          rcases List.mem_cons.mp hk with e | e
          · subst e
            have hj : k < w.vars.length := by simpa [kinds] using hj
            refine ⟨{ w.vars[k] with control := some w.controls.length }, ?_, .inl ⟨w.controls.length, rfl, hp⟩⟩
            simp [Sharing.step, getElem?_modify', List.getElem?_eq_getElem hj]
          · exact hm k e
        · exact hm
      · simp only [Sharing.step]
        rw [kinds_modify w j (fun x => { x with control := some w.controls.length }) _ fun _ => rfl]
        exact hc
    | poke j m v =>
      simp only [Careful] at hc
      have hs : Safe w (.poke j m v) := by
        intro x hx
        obtain ⟨x', hx', ho'⟩ := ho j hc.1
        rw [hx'] at hx; cases hx; exact ho'
      have e1 : (step d L w (.poke j m v)).1.vars = w.vars := by
        simp only [Sharing.step]
        cases w.vars[j]? with
        | none => rfl
        | some x => simp only; cases x.control <;> rfl
      refine life_step L d w h _ hs r i (ih _ (h.step d L (.poke j m v) hs) l ?_ (by simp only [kinds, e1]; exact hc.2))
      intro k hk
      rw [e1]
      exact ho k hk
    | execute j =>
      refine life_step L d w h (.execute j) trivial r i ?_
      have hcl := h.step d L (.execute j) trivial
      have hl := execute_left d L w j
      generalize (step d L w (.execute j)).1 = w' at hl hcl
      simp only [Careful] at hc
      refine ih _ hcl _ ?_ (by
        have : kinds w' = kinds w := by
          cases hl with
          | same => rfl
          | default => exact kinds_modify w j _ _ fun _ => rfl
          | copy => exact kinds_modify w j _ _ fun _ => rfl
        rw [this]; exact hc)
      have hsub : OwnIn w (if (kinds w)[j]? = some true then l.filter (· ≠ j) else l) := by
        intro k hk
        split at hk
        · exact ho k (List.mem_filter.mp hk).1
        · exact ho k hk
      cases hl with
      | same => exact hsub
      | default hd x hx hr =>
        have hk : (kinds w)[j]? = some true := by simp [kinds, hx, hr]
        rw [if_pos hk] at hsub ⊢
        intro k hk
        obtain ⟨y, hy, hoy⟩ := hsub k hk
        have hne : ¬ j = k := by
          have := (List.mem_filter.mp hk).2
          intro e; subst e; simp at this
        exact ⟨y, by simp only [getElem?_modify', if_neg hne, hy], hoy⟩
      | copy => exact hsub.modify j _ _ fun x _ => .inl ⟨_, rfl, hp⟩

/-! ## A library that shares the defaults -/

/-- Where the control object of a command comes from. -/
def from_ (x : Var) : From := match x.control with
  | none => .nowhere
  | some a => if a < 2 then .default else .own

def slot (x : Var) : Slot := ⟨x.obj.cls.positional, x.obj.cls.resets, from_ x⟩

/-- What is known of every world reached: the only default an object refers to is the one its class declares, and an object without a
reference has a fixed control byte. -/
structure Shared (w : World) (d : Defaults) : Prop where
  sep : Sep w
  struct : w.controls.getD 0 ⟨0, 0⟩ = d.struct
  buffer : w.controls.getD 1 ⟨0, 0⟩ = d.buffer
  home : ∀ (i : Nat) (x : Var) (a : Nat), w.vars[i]? = some x → x.control = some a → a < 2 → a = home x.obj.cls
  none : ∀ (i : Nat) (x : Var), w.vars[i]? = some x → x.control = none → x.obj.cls.resets = true

theorem Shared.of {w : World} {d : Defaults} (h : Shared w d) (c : Cls) :
    w.controls.getD (Sharing.home c) ⟨0, 0⟩ = d.of c.positional := by
  simp only [Sharing.home, Defaults.of]
  split
  · exact h.buffer
  · exact h.struct

/-- The values of an object of such a library. -/
def leakView (w : World) (i : Nat) : Option Leaky :=
  w.vars[i]?.map fun x => ⟨x.obj, match x.control with
    | some a => if a < 2 then none else some (w.controls.getD a ⟨0, 0⟩)
    | none => none⟩

theorem Shared.modify {w : World} {d : Defaults} (h : Shared w d) (j : Nat) (f : Obj → Obj) (hf : ∀ o, (f o).cls = o.cls) :
    Shared { w with vars := w.vars.modify j fun x => { x with obj := f x.obj } } d := by
  refine ⟨h.sep.obj j f, h.struct, h.buffer, ?_, ?_⟩
  · intro i y a hy ha h2
    obtain ⟨x, hx, ⟨-, e⟩ | ⟨-, e⟩⟩ := modify_get hy
    · subst e; simp only [hf]; exact h.home i x a hx ha h2
    · subst e; exact h.home i _ a hx ha h2
  · intro i y hy ha
    obtain ⟨x, hx, ⟨-, e⟩ | ⟨-, e⟩⟩ := modify_get hy
    · subst e; simp only [hf]; exact h.none i x hx ha
    · subst e; exact h.none i _ hx ha

theorem slots_modify (w : World) (j : Nat) (f : Var → Var) (g : Slot → Slot) (hf : ∀ x, w.vars[j]? = some x → slot (f x) = g (slot x)) :
    (w.vars.modify j f).map slot = (w.vars.map slot).modify j g := by
  apply List.ext_getElem?
  intro k
  simp only [List.getElem?_map, getElem?_modify']
  split
  · rename_i e; subst e
    cases hx : w.vars[j]? with
    | none => rfl
    | some x => simp [hf x hx]
  · rfl

theorem modify_id' {α : Type} (l : List α) (j : Nat) (g : α → α) (h : ∀ x, l[j]? = some x → g x = x) : l.modify j g = l := by
  apply List.ext_getElem?
  intro k
  rw [getElem?_modify']
  split
  · rename_i e; subst e
    cases hx : l[j]? with
    | none => rfl
    | some x => simp [h x hx]
  · rfl

theorem leakView_obj (w : World) (f : Obj → Obj) (j i : Nat) :
    leakView { w with vars := w.vars.modify j fun x => { x with obj := f x.obj } } i =
      if j = i then (leakView w i).map fun o => { o with obj := f o.obj } else leakView w i := by
  simp only [leakView, getElem?_modify']
  split
  · cases w.vars[i]? <;> rfl
  · rfl

theorem run_shared (L : Lib) (i : Nat) (prog : List Stmt) (w : World) (d : Defaults) (h : Shared w d) :
    ofObject i (run .shared L w prog) = leaky L i prog (w.vars.map slot) d (leakView w i) := by
  induction prog generalizing w d with
  | nil => rfl
  | cons s r ih =>
    simp only [run, ofObject_append]
    have hsep := h.sep.step .shared L s
    have hp := h.sep.pos
    cases s with
    | new c =>
      simp only [leaky]
      cases hc : c.make L with
      | error e => simp only [Sharing.step, hc, ofObject, List.filterMap_nil, List.nil_append]; exact ih w d h
      | ok o =>
        obtain ⟨hm, hn⟩ := new_made .shared L w c o hc
        rw [hn]
        generalize (step .shared L w (.new c)).1 = w' at hm hsep
        simp only [ofObject, List.filterMap_nil, List.nil_append]
        have hv : ∃ y : Var, y.obj = o ∧ w' = { w with vars := w.vars ++ [y] } ∧
            y.control = if o.cls.resets then none else some (Sharing.home o.cls) := by
          cases hm with
          | bare hd => exact ⟨_, rfl, rfl, by simp [hd.resolve_left (by decide)]⟩
          | default hd hr => exact ⟨_, rfl, rfl, by simp [hr]⟩
          | copy hd => cases hd
        obtain ⟨y, ey, hv, ec⟩ := hv
        subst hv
        have hsh : Shared { w with vars := w.vars ++ [y] } d := by
          refine ⟨hsep, h.struct, h.buffer, ?_, ?_⟩
          · intro k x a hx ha h2
            simp only [getElem?_snoc] at hx
            split at hx
            · cases hx
              rw [ec] at ha
              split at ha
              · cases ha
              · cases ha; rw [ey]
            · exact h.home k x a hx ha h2
          · intro k x hx ha
            simp only [getElem?_snoc] at hx
            split at hx
            · cases hx
              rw [ec] at ha
              split at ha
              · rename_i hr; rw [ey]; exact hr
              · cases ha
            · exact h.none k x hx ha
        have := ih _ d hsh
        simp only [ofObject] at this
        rw [this]
        have hs : slot y = ⟨isBuffer o.cls, fixed o.cls, if fixed o.cls then .nowhere else .default⟩ := by
          simp only [slot, ey, isBuffer_positional, fixed_resets, from_, ec]
          cases hr : o.cls.resets <;> simp [home_lt]
        simp only [List.map_append, List.map_cons, List.map_nil, hs, List.length_map]
        congr 1
        simp only [leakView, getElem?_snoc]
        by_cases e : i = w.vars.length
        · subst e
          simp only [if_true, Option.map_some, ey, ec]
          cases hr : o.cls.resets <;> simp [home_lt]
        · rw [if_neg e, if_neg (fun e' => e e'.symm)]
    | set j name v =>
      have := ih _ d (h.modify j (fun o => o.set name v) fun _ => rfl)
      simp only [leaky, Sharing.step, ofObject, List.filterMap_nil, List.nil_append] at this ⊢
      rw [this, leakView_obj w (fun o => o.set name v) j i,
        slots_modify w j (fun x => { x with obj := x.obj.set name v }) id fun _ _ => rfl, modify_id' _ _ id fun _ _ => rfl]
    | buffer j bs =>
      have := ih _ d (h.modify j (fun o => o.setBuffer bs) fun _ => rfl)
      simp only [leaky, Sharing.step, ofObject, List.filterMap_nil, List.nil_append] at this ⊢
      rw [this, leakView_obj w (fun o => o.setBuffer bs) j i,
        slots_modify w j (fun x => { x with obj := x.obj.setBuffer bs }) id fun _ _ => rfl, modify_id' _ _ id fun _ _ => rfl]
    | assign j n v =>
      have hsh : Shared (step .shared L w (.assign j n v)).1 d := by
        refine ⟨hsep, ?_, ?_, ?_, ?_⟩
        · simp only [Sharing.step]; rw [getD_snoc _ _ _ _ (by omega)]; exact h.struct
        · simp only [Sharing.step]; rw [getD_snoc _ _ _ _ (by omega)]; exact h.buffer
        · intro k y a hy ha h2
          obtain ⟨x, hx, ⟨-, e⟩ | ⟨-, e⟩⟩ := modify_get hy
          · subst e; cases ha; omega
          · subst e; exact h.home k _ a hx ha h2
        · intro k y hy ha
          obtain ⟨x, hx, ⟨-, e⟩ | ⟨-, e⟩⟩ := modify_get hy
          · subst e; cases ha
          · subst e; exact h.none k _ hx ha
      have := ih _ d hsh
      rw [this]
      simp only [leaky, Sharing.step, ofObject, List.filterMap_nil, List.nil_append]
      rw [slots_modify w j (fun x => { x with control := some w.controls.length }) (fun s => { s with control := .own })
        (fun x _ => by have : ¬ w.controls.length < 2 := by omega
                       simp [slot, from_, this])]
      congr 1
      simp only [leakView, getElem?_modify']
      have h2 : ¬ w.controls.length < 2 := by omega
      by_cases e : j = i
      · simp only [if_pos e]
        cases w.vars[i]? with
        | none => rfl
        | some x => simp [h2]
      · simp only [if_neg e]
        cases hx : w.vars[i]? with
        | none => rfl
        | some x =>
          simp only [Option.map_some]
          cases hc : x.control with
          | none => rfl
          | some a => simp only [getD_snoc _ _ _ _ (h.sep.lt i x a hx hc)]
    | poke j m v =>
      simp only [leaky, List.getElem?_map]
      cases hx : w.vars[j]? with
      | none =>
        have e0 : step .shared L w (.poke j m v) = (w, []) := by simp only [Sharing.step, hx]
        rw [e0]
        have e1 : (if j = i then (leakView w i).map fun o => ({ o with own := o.own.map (changed · m v) } : Leaky)
            else leakView w i) = leakView w i := by
          split
          · rename_i e; subst e; simp [leakView, hx]
          · rfl
        rw [e1]
        exact ih w d h
      | some x =>
        cases hc : x.control with
        | none =>
          have e0 : step .shared L w (.poke j m v) = (w, []) := by simp only [Sharing.step, hx, hc]
          rw [e0]
          have e1 : (if j = i then (leakView w i).map fun o => ({ o with own := o.own.map (changed · m v) } : Leaky)
              else leakView w i) = leakView w i := by
            split
            · rename_i e; subst e; simp [leakView, hx, hc]
            · rfl
          rw [e1]
          simp only [Option.map_some, slot, from_, hc]
          exact ih w d h
        | some a =>
          have hal := h.sep.lt j x a hx hc
          have e0 : step .shared L w (.poke j m v) =
              ({ w with controls := w.controls.modify a fun c => c.put m v }, []) := by
            simp only [Sharing.step, hx, hc]
          rw [e0] at hsep ⊢
          simp only [ofObject, List.filterMap_nil, List.nil_append, Option.map_some, slot, from_, hc]
          by_cases h2 : a < 2
          · have hh := h.home j x a hx hc h2
            have hsh : Shared { w with controls := w.controls.modify a fun c => c.put m v } (d.change x.obj.cls.positional m v) := by
              refine ⟨hsep, ?_, ?_, h.home, h.none⟩
              · simp only [Defaults.change]
                rw [getD_modify _ _ _ _ _ (by omega), h.struct]
                cases hpos : x.obj.cls.positional with
                | true => simp [hh, Sharing.home, hpos]
                | false => simp [hh, Sharing.home, hpos]; cases m <;> rfl
              · simp only [Defaults.change]
                rw [getD_modify _ _ _ _ _ (by omega), h.buffer]
                cases hpos : x.obj.cls.positional with
                | true => simp [hh, Sharing.home, hpos]; cases m <;> rfl
                | false => simp [hh, Sharing.home, hpos]
            have := ih _ _ hsh
            simp only [ofObject] at this
            rw [this]
            simp only [h2, if_true]
            congr 1
            have e2 : leakView { w with controls := w.controls.modify a fun c => c.put m v } i = leakView w i := by
              simp only [leakView]
              cases hy : w.vars[i]? with
              | none => rfl
              | some y =>
                simp only [Option.map_some]
                cases hb : y.control with
                | none => rfl
                | some b =>
                  simp only
                  by_cases hb2 : b < 2
                  · simp [hb2]
                  · simp only [hb2, if_false]
                    rw [getD_modify _ _ _ _ _ (h.sep.lt i y b hy hb), if_neg (by omega)]
            rw [e2]
            split
            · rename_i e; subst e; simp [leakView, hx, hc, h2]
            · rfl
          · have hsh : Shared { w with controls := w.controls.modify a fun c => c.put m v } d := by
              refine ⟨hsep, ?_, ?_, h.home, h.none⟩
              · rw [← h.struct, getD_modify _ _ _ _ _ (by omega), if_neg (by omega)]
              · rw [← h.buffer, getD_modify _ _ _ _ _ (by omega), if_neg (by omega)]
            have := ih _ _ hsh
            simp only [ofObject] at this
            rw [this]
            simp only [h2, if_false]
            congr 1
            simp only [leakView]
            by_cases e : j = i
            · subst e
              simp only [if_true, hx, Option.map_some, hc, h2, if_false, getD_modify _ _ _ _ _ hal]
              cases m <;> rfl
            · simp only [if_neg e]
              cases hy : w.vars[i]? with
              | none => rfl
              | some y =>
                simp only [Option.map_some]
                cases hb : y.control with
                | none => rfl
                | some b =>
                  have hne : ¬ a = b := by
                    intro e'; subst e'
                    exact h2 (h.sep.sep j i x y a e hx hy hc hb)
                  simp only [getD_modify _ _ _ _ _ (h.sep.lt i y b hy hb), if_neg hne]
    | execute j =>
      have hl := execute_left .shared L w j
      rw [execute_out]
      -- the world after: the same, with the references of a fixed command back at the default
      have hw : (step .shared L w (.execute j)).1 =
          { w with vars := w.vars.modify j fun x => if x.obj.cls.resets then { x with control := some (Sharing.home x.obj.cls) } else x } := by
        simp only [Sharing.step]
        cases hx : w.vars[j]? with
        | none => simp only; rw [modify_id' _ _ _ (by simp [hx])]
        | some x =>
          simp only
          split
          · rename_i hr
            have : w.vars.modify j (fun x => { x with control := some (Sharing.home x.obj.cls) }) =
                w.vars.modify j (fun x => if x.obj.cls.resets then { x with control := some (Sharing.home x.obj.cls) } else x) := by
              apply List.ext_getElem?
              intro k
              simp only [getElem?_modify']
              split
              · rename_i e; subst e; simp [hx, hr]
              · rfl
            rw [this]
          · rename_i hr
            rw [modify_id' _ _ _ (by intro y hy; rw [hx] at hy; cases hy; simp [hr])]
      rw [hw] at hsep ⊢
      have hsh : Shared { w with vars := w.vars.modify j fun x =>
          if x.obj.cls.resets then { x with control := some (Sharing.home x.obj.cls) } else x } d := by
        refine ⟨hsep, h.struct, h.buffer, ?_, ?_⟩
        · intro k y a hy ha h2
          obtain ⟨x, hx, ⟨-, e⟩ | ⟨-, e⟩⟩ := modify_get hy
          · subst e
            split at ha
            · rename_i hr; cases ha; simp [hr]
            · rename_i hr; simp only [hr]; exact h.home k x a hx ha h2
          · subst e; exact h.home k _ a hx ha h2
        · intro k y hy ha
          obtain ⟨x, hx, ⟨-, e⟩ | ⟨-, e⟩⟩ := modify_get hy
          · subst e
            split at ha
            · cases ha
            · rename_i hr; exact absurd (h.none k x hx ha) hr
          · subst e; exact h.none k _ hx ha
      rw [ih _ d hsh]
      simp only [leaky]
      rw [slots_modify w j (fun x => if x.obj.cls.resets then { x with control := some (Sharing.home x.obj.cls) } else x)
        (fun s => if s.fixed then { s with control := .default } else s) (by
          intro x _
          simp only [slot]
          split
          · rename_i hr; simp [hr, from_, home_lt]
          · rename_i hr; simp [hr])]
      by_cases e : j = i
      · subst e
        rw [if_pos rfl]
        cases hx : w.vars[j]? with
        | none => simp [ofObject, leakView, hx, getElem?_modify']
        | some x =>
          have hof := h.of x.obj.cls
          by_cases hr : x.obj.cls.resets = true
          · have hcx : w.control x = d.of (isBuffer x.obj.cls) := by
              simp only [World.control, hr, if_true, isBuffer_positional]; exact hof
            simp only [ofObject, leakView, hx, getElem?_modify', if_true, Option.map_some, fixed_resets, hr, hcx,
              List.filterMap_cons, List.filterMap_nil, List.cons_append, List.nil_append, home_lt]
          · have hcx : w.control x = (match x.control with
                | some a => if a < 2 then none else some (w.controls.getD a ⟨0, 0⟩)
                | none => none : Option Ctl).getD (d.of (isBuffer x.obj.cls)) := by
              simp only [World.control, hr, Bool.false_eq_true, if_false, isBuffer_positional]
              cases hc : x.control with
              | none => exact absurd (h.none j x hx hc) hr
              | some a =>
                simp only [Option.getD_some]
                by_cases h2 : a < 2
                · have := h.home j x a hx hc h2
                  subst this
                  simp only [h2, if_true, Option.getD_none]
                  exact hof
                · simp only [h2, if_false, Option.getD_some]
            simp only [ofObject, leakView, hx, getElem?_modify', if_true, Option.map_some, fixed_resets, hr, hcx,
              List.filterMap_cons, List.filterMap_nil, List.cons_append, List.nil_append, Bool.false_eq_true, if_false]
      · rw [if_neg e]
        simp only [ofObject, leakView, getElem?_modify', if_neg e, List.filterMap_cons, List.filterMap_nil, List.nil_append]

end Verif.Sharing
