import Verif.Commands
import Verif.Props.Cdb
/-! # C50: page codes and page classes -/
set_option linter.unusedSimpArgs false

namespace Verif.Commands

open Verif.Spec.Cdb

/-- The VPD pages with a class of their own. -/
def SpecialVpd (code : Int) : Prop :=
  code = 0x00 ∨ code = 0x80 ∨ code = 0x83 ∨ code = 0x89 ∨ code = 0xB0 ∨ code = 0xB2 ∨ code = 0xC0

/-- The diagnostic pages with a class of their own. -/
def SpecialSes (code : Int) : Prop := code = 0x00 ∨ code = 0x01 ∨ code = 0x02 ∨ code = 0x07 ∨ code = 0x80

theorem lookup_getD_cons {α : Type} (c k : Int) (v d : α) (t : List (Int × α)) :
    (((k, v) :: t).lookup c).getD d = if c = k then v else (t.lookup c).getD d := by
  rw [List.lookup_cons]
  by_cases h : c = k
  · subst h; simp
  · simp [h, beq_eq_false_iff_ne.2 h]

theorem getVpdPage_cases (code : Int) :
    getVpdPage code = if code = 0x00 then .supported else if code = 0x80 then .serial else if code = 0x83 then .identification
      else if code = 0x89 then .ata else if code = 0xB0 then .limits else if code = 0xB2 then .provisioning
      else if code = 0xC0 then .veritas else .unknown code := by
  simp only [getVpdPage, vpdCommands, lookup_getD_cons, List.lookup_nil, Option.getD_none]

theorem getVpdPageData_cases (code : Int) :
    getVpdPageData code = if code = 0x00 then .supported else if code = 0x80 then .serial else if code = 0x83 then .identification
      else if code = 0x89 then .ata else if code = 0xB0 then .limits else if code = 0xB2 then .provisioning
      else if code = 0xC0 then .veritas else .unknown := by
  simp only [getVpdPageData, vpdBuffers, lookup_getD_cons, List.lookup_nil, Option.getD_none]

theorem getSesPage_cases (code : Int) :
    getSesPage code = if code = 0x00 then .supported else if code = 0x01 then .configuration else if code = 0x02 then .status
      else if code = 0x07 then .descriptors else if code = 0x80 then .vendor else .unknown code := by
  simp only [getSesPage, sesCommands, lookup_getD_cons, List.lookup_nil, Option.getD_none]

theorem getSesPageData_cases (code : Int) :
    getSesPageData code = if code = 0x00 then .supported else if code = 0x01 then .configuration else if code = 0x02 then .status
      else if code = 0x07 then .descriptors else if code = 0x80 then .vendor else .unknown := by
  simp only [getSesPageData, sesBuffers, lookup_getD_cons, List.lookup_nil, Option.getD_none]

theorem vpd_args (code : Int) : ∃ alloc, (getVpdPage code).args = (code, alloc, getVpdPageData code) ∧ 252 ≤ alloc ∧ alloc < 2 ^ 16 := by
  rw [getVpdPage_cases, getVpdPageData_cases]
  repeat' split
  all_goals (try subst code); exact ⟨_, rfl, by decide, by decide⟩

theorem ses_args (code : Int) : ∃ alloc, (getSesPage code).args = (code, alloc, getSesPageData code) ∧ 252 ≤ alloc ∧ alloc < 2 ^ 16 := by
  rw [getSesPage_cases, getSesPageData_cases]
  repeat' split
  all_goals (try subst code); exact ⟨_, rfl, by decide, by decide⟩

/-- **C50, requests.** For every page code of one byte, the command found by `get_vpd_page` is an INQUIRY with EVPD set for exactly
that page, and its response is decoded by the class `get_vpd_page_data` names. Other codes are refused before anything is sent. -/
theorem C50_vpd (L : Lib) (B : Parse.BufLib) (other : Bytes → Py (List (String × Int))) (code : Int) :
    (Fits 8 code → ∃ alloc, 252 ≤ alloc ∧
      ((Cmd.vpd (getVpdPage code)).command L B other).request = .ok (.read (Spec.Cdb.inquiry 1 code.toNat alloc.toNat) alloc)) ∧
    (¬ Fits 8 code → ∃ e, ((Cmd.vpd (getVpdPage code)).command L B other).request = .error e) ∧
    (∀ b, ((Cmd.vpd (getVpdPage code)).command L B other).decode (some (some b)) = unpackVpd B b (getVpdPageData code)) := by
  obtain ⟨alloc, h, h1, h2⟩ := vpd_args code
  have hr : ((Cmd.vpd (getVpdPage code)).command L B other).request = Cdb.inquiry L 1 code alloc := by
    simp only [Cmd.command, Cmd.cdb, Cdb.request, h]
  refine ⟨fun hf => ⟨alloc, h1, ?_⟩, fun hf => ?_, fun b => ?_⟩
  · rw [hr]; exact Cdb.C36_inquiry L 1 code alloc (by simp [Fits]) hf ⟨by omega, by omega⟩
  · rw [hr]
    cases hq : Cdb.inquiry L 1 code alloc with
    | error e => exact ⟨e, rfl⟩
    | ok r =>
      obtain ⟨_, -, hp, -⟩ := (Cdb.inquiry_iff ..).1 hq
      exact absurd hp hf
  · simp only [Cmd.command, Cmd.decode, Option.getD_some, withData, h]

/-- **C50, classes.** The codes with a class of their own get it; every other code gets the generic page, for this code. -/
theorem C50_vpd_classes (code : Int) :
    getVpdPage 0x00 = .supported ∧ getVpdPage 0x80 = .serial ∧ getVpdPage 0x83 = .identification ∧ getVpdPage 0x89 = .ata ∧
    getVpdPage 0xB0 = .limits ∧ getVpdPage 0xB2 = .provisioning ∧ getVpdPage 0xC0 = .veritas ∧
    (¬ SpecialVpd code → getVpdPage code = .unknown code ∧ getVpdPageData code = .unknown) := by
  refine ⟨rfl, rfl, rfl, rfl, rfl, rfl, rfl, fun h => ?_⟩
  simp only [SpecialVpd, not_or] at h
  rw [getVpdPage_cases, getVpdPageData_cases]
  simp [h]

/-- **C50**, RECEIVE DIAGNOSTIC RESULTS: PCV is set and the page code is the one asked for; codes that do not fit a byte are refused if the
library refuses them. -/
theorem C50_ses (L : Lib) (B : Parse.BufLib) (other : Bytes → Py (List (String × Int))) (code : Int) (conf : Option Parse.Ses.Configuration) :
    (Fits 8 code → ∃ alloc, 252 ≤ alloc ∧
      ((Cmd.ses (getSesPage code) conf).command L B other).request =
        .ok (.read (Spec.Cdb.receiveDiagnosticResults 1 code.toNat alloc.toNat) alloc)) ∧
    ((∃ e, L.enc 8 code = .error e) → ∃ e, ((Cmd.ses (getSesPage code) conf).command L B other).request = .error e) ∧
    (∀ b, ((Cmd.ses (getSesPage code) conf).command L B other).decode (some (some b)) = unpackSes B other conf b (getSesPageData code)) := by
  obtain ⟨alloc, h, h1, h2⟩ := ses_args code
  have hr : ((Cmd.ses (getSesPage code) conf).command L B other).request = Cdb.receiveDiagnostic L 1 code alloc := by
    simp only [Cmd.command, Cmd.cdb, Cdb.request, h]
  refine ⟨fun hf => ⟨alloc, h1, ?_⟩, fun hf => ?_, fun b => ?_⟩
  · rw [hr]; exact Cdb.C36_receive_diagnostic L 1 code alloc (by simp [Fits]) hf ⟨by omega, by omega⟩
  · rw [hr]
    cases hq : Cdb.receiveDiagnostic L 1 code alloc with
    | error e => exact ⟨e, rfl⟩
    | ok r =>
      obtain ⟨_, _, _, -, hp, -⟩ := (Cdb.receiveDiagnostic_iff ..).1 hq
      obtain ⟨e, he⟩ := hf
      rw [he] at hp; cases hp
  · simp only [Cmd.command, Cmd.decode, Option.getD_some, withData, h]

theorem C50_ses_classes (code : Int) :
    getSesPage 0x00 = .supported ∧ getSesPage 0x01 = .configuration ∧ getSesPage 0x02 = .status ∧ getSesPage 0x07 = .descriptors ∧
    getSesPage 0x80 = .vendor ∧ (¬ SpecialSes code → getSesPage code = .unknown code ∧ getSesPageData code = .unknown) := by
  refine ⟨rfl, rfl, rfl, rfl, rfl, fun h => ?_⟩
  simp only [SpecialSes, not_or] at h
  rw [getSesPage_cases, getSesPageData_cases]
  simp [h]

/-- Instances: an unlisted VPD page, a listed one. -/
example : ¬ SpecialVpd 0x86 ∧ Fits 8 0x86 ∧ ¬ Fits 8 0x186 ∧ SpecialVpd 0xB2 ∧ ¬ SpecialSes 0x0E := by
  simp [SpecialVpd, SpecialSes, Fits]

end Verif.Commands
