import Verif.Spec.WindowsAsync
/-! # Memory of several requests in flight -/
set_option linter.unusedSimpArgs false

namespace Verif.Platform.Win32
open Verif.Executer Verif.Spec

variable {S δ : Type} {b : Bool} {h : Spt} {al : Alloc} {id : Nat} {c : Req}

/-- The address belongs to the request: its block with the sense area, or its data buffer. -/
def Inside (b : Bool) (al : Alloc) (c : Req) (x : Nat) : Prop :=
  (al.block ≤ x ∧ x < al.block + (osz b + 255)) ∨ (al.data ≤ x ∧ x < al.data + dataSize c)

theorem bufOf_length {x d} (hd : bufOf al c = some (x, d)) : x = al.data ∧ d.length = dataSize c := by
  cases c with
  | read cdb n =>
    simp only [bufOf] at hd
    split at hd
    · cases hd; simp [dataSize]
    · cases hd
  | write cdb d =>
    simp only [bufOf] at hd
    split at hd
    · cases hd; simp [dataSize]
    · cases hd

theorem bufOf_none (hd : bufOf al c = none) : dataSize c = 0 := by
  cases c with
  | read cdb n =>
    simp only [bufOf] at hd
    split at hd
    · cases hd
    · simp only [dataSize]; omega
  | write cdb d =>
    simp only [bufOf] at hd
    split at hd
    · cases hd
    · simp only [dataSize]; omega

theorem install_outside (hb : Built b h al id c) (m : Mem) {x : Nat} (hx : ¬ Inside b al c x) : h.install m x = m x := by
  unfold Inside at hx
  unfold Spt.install
  simp only [writeMem, hb.blockAddr, hb.fields.len]
  rw [if_neg (by omega)]
  rcases hd : h.data with _ | ⟨y, d⟩
  · rfl
  · rw [hb.data] at hd
    obtain ⟨rfl, hl⟩ := bufOf_length hd
    simp only [writeMem]
    rw [if_neg (by omega)]

theorem install_inside (hb : Built b h al id c) (m m' : Mem) {x : Nat} (hx : Inside b al c x) : h.install m x = h.install m' x := by
  unfold Inside at hx
  unfold Spt.install
  simp only [writeMem, hb.blockAddr, hb.fields.len]
  by_cases h1 : al.block ≤ x ∧ x < al.block + (osz b + 255)
  · rw [if_pos h1, if_pos h1]
  · rw [if_neg h1, if_neg h1]
    rcases hd : h.data with _ | ⟨y, d⟩
    · rw [hb.data] at hd
      have := bufOf_none hd
      omega
    · rw [hb.data] at hd
      obtain ⟨rfl, hl⟩ := bufOf_length hd
      simp only [writeMem]
      rw [if_pos (by omega), if_pos (by omega)]

theorem install_install (hb : Built b h al id c) (m : Mem) : h.install (h.install m) = h.install m := by
  funext x
  by_cases hx : Inside b al c x
  · exact install_inside hb _ _ hx
  · exact install_outside hb _ hx

/-- A request object stays in memory as long as its own bytes are left alone. -/
theorem holds_congr (hb : Built b h al id c) {m m' : Mem} (he : ∀ x, Inside b al c x → m' x = m x) (hm : h.install m = m) :
    h.install m' = m' := by
  funext x
  by_cases hx : Inside b al c x
  · rw [install_inside hb m' m hx, hm, he x hx]
  · exact install_outside hb _ hx

/-- What the executer makes of a completed request depends on the request's own bytes only. -/
theorem classify_congr (hb : Built b h al id c) (parse : Bytes → Py (Option S)) {m m' : Mem}
    (he : ∀ x, Inside b al c x → m' x = m x) : classify (W b) parse h m' = classify (W b) parse h m := by
  have h1 : readMem m' h.blockAddr h.block.length = readMem m h.blockAddr h.block.length := by
    apply readMem_congr
    intro y hy hy'
    rw [hb.blockAddr] at hy hy'
    rw [hb.fields.len] at hy'
    exact he y (.inl ⟨hy, hy'⟩)
  have h2 : ∀ n, cutData h m' n = cutData h m n := by
    intro n
    unfold cutData
    split
    · rename_i x d hd
      rw [hb.data] at hd
      obtain ⟨rfl, hl⟩ := bufOf_length hd
      rw [readMem_congr (m := m') (m' := m)]
      intro y hy hy'
      exact he y (.inr ⟨hy, by omega⟩)
    · rfl
  unfold classify
  rw [h1]
  simp only [h2]

/-- What `call` does with a classified response. -/
def clsOut : Py (Outcome (Option Bytes) (DevErr S)) → Except (Exn (DevErr S)) (Option (Option Bytes))
  | .error e => .error (.py e)
  | .ok (.data d) => .ok (some d)
  | .ok (.exc e) => .error (.dev e)

/-- The device serves a request lying in memory. -/
theorem device_serves (parse : Bytes → Py (Option S)) (dev : Device δ) (hcdb : c.cdb.length ≤ 16) (hd : dataSize c < 2 ^ 32)
    (hsep : Separate (bits b) (winRegions b al c)) (hc : create (W b) al id c = .ok h) (m : Mem) (k : δ) (hm : h.install m = m) :
    ∃ m', (sptDevice b dev).ioctl 0x4D014 h.blockAddr (blockSize b) { mem := m, kernel := k } =
        (.ok (), { mem := m', kernel := (dev k (asked c)).2 }) ∧
      (∀ x, ¬ Inside b al c x → m' x = m x) ∧
      clsOut (classify (W b) parse h m') = winOutcome parse c (dev k (asked c)).1 := by
  obtain ⟨ha, hx⟩ := win_apart hsep
  obtain ⟨h', hc', hb⟩ := create_built b al id c hcdb hd hx
  rw [hc] at hc'; cases hc'
  obtain ⟨h', hc', -, hlen, hblk, hview, -⟩ := C18_windows b al id c m hcdb hd hsep
  rw [hc] at hc'; cases hc'
  have hf := hb.fields
  rw [hm] at hblk hview
  let ans := (dev k (asked c)).1
  let back := ans.data.take (asked c).fromDevice
  let ptr := word true h.block (if b then 24 else 20) (if b then 8 else 4)
  let m1 := writeMem m ptr back
  let m2 := writeMem m1 (al.block + osz b) (ans.sense.take 255)
  let m3 := writeMem m2 (al.block + 12) (be 4 (back.length + (asked c).toDevice.length)).reverse
  let m4 := writeMem m3 (al.block + 2) [ans.status]
  have hsub : (sptDevice b dev).ioctl 0x4D014 h.blockAddr (blockSize b) { mem := m, kernel := k } =
      (.ok (), { mem := m4, kernel := (dev k (asked c)).2 }) := by
    have e4 : word true h.block (if b then 32 else 24) 4 = osz b := by
      rw [show (if b then 32 else 24) = oso b from rfl, word_W b, hf.senseOff]; rfl
    unfold sptDevice blockSize
    simp only
    rw [if_neg (by simp), hb.blockAddr, hblk, hview]
    simp only [e4]
    rw [show (asked c).senseRoom = 255 by cases c <;> rfl]
  refine ⟨m4, hsub, ?_, ?_⟩
  · intro x hx
    unfold Inside at hx
    have hptr : ptr = al.data ∨ back = [] := by
      simp only [ptr]
      rw [show (if b then 24 else 20) = obuf b from rfl, show (if b then 8 else 4) = optr b from rfl, word_W b, hf.dataPtr]
      cases c with
      | read cdb n =>
        by_cases hn : n > 0
        · left; simp [bufOf, hn]
        · right; simp only [back, asked]; rw [show n.toNat = 0 by omega]; rfl
      | write cdb d => right; simp [back, asked]
    have hback : back.length ≤ (asked c).fromDevice := by simp only [back, List.length_take]; omega
    have hfd := fromDevice_le c
    have hosz : 12 + 4 ≤ osz b := by cases b <;> decide
    have hm1 : m1 x = m x := by
      simp only [m1]
      rcases hptr with hp | hp
      · rw [hp]; unfold writeMem; rw [if_neg (by omega)]
      · rw [hp, writeMem_nil]
    have hs : (ans.sense.take 255).length ≤ 255 := by rw [List.length_take]; omega
    have hlen4 : (be 4 (back.length + (asked c).toDevice.length)).reverse.length = 4 := by simp
    simp only [m4, m3, m2]
    unfold writeMem
    rw [if_neg (by simp only [List.length_singleton]; omega), if_neg (by omega), if_neg (by omega)]
    exact hm1
  · have key := C55_windows (K := Unit) b parse dev (fun _ => al) c { pending := [], index := id, maxq := 1 } m k [] rfl Nat.one_pos hcdb hd hsep
    have hs2 : submitted b (sptDevice b dev) h { world := { mem := m, kernel := k }, incoming := [] } =
        (.ok (), { mem := m4, kernel := (dev k (asked c)).2 }) := by
      unfold submitted
      simp only [hm]
      exact hsub
    rw [winCall_ok b parse (sptDevice b dev) (fun _ => al) c { pending := [], index := id, maxq := 1 } _ rfl Nat.one_pos h hc hb.id _ hs2] at key
    rw [← key.1]
    cases classify (W b) parse h m4 with
    | error e => rfl
    | ok o => cases o <;> rfl

end Verif.Platform.Win32
