import Verif.RequestsProps
/-
Evaluation, by the kernel, of every execution of every request (all checks failing and not failing), for all configurations.
-/
namespace Gate.Requests
set_option maxRecDepth 100000
theorem ok1 : ∀ anonymous pin hash known redundant, allOk .uploadModule {anonymous,pin,hash,known,redundant} = true := by decide +kernel
theorem ok2 : ∀ anonymous pin redundant, allOk .sourceModule {anonymous,pin,redundant} = true := by decide +kernel
theorem ok3 : ∀ anonymous transient suspend final withLog, allOk .newInstance {anonymous,transient,suspend,final,withLog} = true := by decide +kernel
theorem ok6 : ∀ anonymous, allOk .moduleInfo {anonymous} = true := by decide +kernel
theorem ok7 : ∀ anonymous, allOk .modules {anonymous} = true := by decide +kernel
theorem ok8 : ∀ anonymous, allOk .moduleContent {anonymous} = true := by decide +kernel
theorem ok9 : ∀ anonymous pin, allOk .pinModule {anonymous,pin} = true := by decide +kernel
theorem ok10 : ∀ anonymous, allOk .unpinModule {anonymous} = true := by decide +kernel
theorem ok11 : ∀ anonymous connectable, allOk .instanceConnection {anonymous,connectable} = true := by decide +kernel
theorem ok12 : ∀ anonymous, allOk .instanceInfo {anonymous} = true := by decide +kernel
theorem ok13 : ∀ anonymous, allOk .waitInstance {anonymous} = true := by decide +kernel
theorem ok14 : ∀ anonymous running oldLog alt, allOk .killInstance {anonymous,running,oldLog,alt} = true := by decide +kernel
theorem ok15 : ∀ anonymous running oldLog alt, allOk .suspendInstance {anonymous,running,oldLog,alt} = true := by decide +kernel
theorem ok16 : ∀ anonymous withLog oldLog alt, allOk .resumeInstance {anonymous,withLog,oldLog,alt} = true := by decide +kernel
theorem ok17 : ∀ anonymous oldLog alt, allOk .deleteInstance {anonymous,oldLog,alt} = true := by decide +kernel
theorem ok18 : ∀ anonymous pin redundant running suspends oldLog alt, allOk .snapshot {anonymous,pin,redundant,running,suspends,oldLog,alt} = true := by decide +kernel
theorem ok19 : ∀ anonymous running oldLog alt, allOk .updateInstance {anonymous,running,oldLog,alt} = true := by decide +kernel
theorem ok20 : ∀ anonymous modified original running oldLog alt, allOk .debugInstance {anonymous,modified,original,running,oldLog,alt} = true := by decide +kernel
theorem ok21 : ∀ anonymous, allOk .instances {anonymous} = true := by decide +kernel
theorem ok22 : ∀ transient oldLog alt, allOk .drive {transient,oldLog,alt} = true := by decide +kernel
theorem ok5_0 : ∀ pin suspend final redundant withLog, allOk .sourceModuleInstance {pin,suspend,final,redundant,withLog,anonymous := false,transient := false} = true := by decide +kernel
theorem ok5_1 : ∀ pin suspend final redundant withLog, allOk .sourceModuleInstance {pin,suspend,final,redundant,withLog,anonymous := false,transient := true} = true := by decide +kernel
theorem ok5_2 : ∀ pin suspend final redundant withLog, allOk .sourceModuleInstance {pin,suspend,final,redundant,withLog,anonymous := true,transient := false} = true := by decide +kernel
theorem ok5_3 : ∀ pin suspend final redundant withLog, allOk .sourceModuleInstance {pin,suspend,final,redundant,withLog,anonymous := true,transient := true} = true := by decide +kernel
theorem ok5 : ∀ anonymous pin transient suspend final redundant withLog, allOk .sourceModuleInstance {anonymous,pin,transient,suspend,final,redundant,withLog} = true
  | false, b, false, d, e, f, g => ok5_0 b d e f g
  | false, b, true, d, e, f, g => ok5_1 b d e f g
  | true, b, false, d, e, f, g => ok5_2 b d e f g
  | true, b, true, d, e, f, g => ok5_3 b d e f g
theorem ok4_0 : ∀ pin suspend final redundant withLog,
    allOk .uploadModuleInstance {pin,suspend,final,redundant,withLog,known := false,anonymous := false,transient := false,hash := false} = true := by decide +kernel
theorem ok4_1 : ∀ pin suspend final redundant withLog,
    allOk .uploadModuleInstance {pin,suspend,final,redundant,withLog,known := false,anonymous := false,transient := false,hash := true} = true := by decide +kernel
theorem ok4_2 : ∀ pin suspend final redundant withLog,
    allOk .uploadModuleInstance {pin,suspend,final,redundant,withLog,known := false,anonymous := false,transient := true,hash := false} = true := by decide +kernel
theorem ok4_3 : ∀ pin suspend final redundant withLog,
    allOk .uploadModuleInstance {pin,suspend,final,redundant,withLog,known := false,anonymous := false,transient := true,hash := true} = true := by decide +kernel
theorem ok4_4 : ∀ pin suspend final redundant withLog,
    allOk .uploadModuleInstance {pin,suspend,final,redundant,withLog,known := false,anonymous := true,transient := false,hash := false} = true := by decide +kernel
theorem ok4_5 : ∀ pin suspend final redundant withLog,
    allOk .uploadModuleInstance {pin,suspend,final,redundant,withLog,known := false,anonymous := true,transient := false,hash := true} = true := by decide +kernel
theorem ok4_6 : ∀ pin suspend final redundant withLog,
    allOk .uploadModuleInstance {pin,suspend,final,redundant,withLog,known := false,anonymous := true,transient := true,hash := false} = true := by decide +kernel
theorem ok4_7 : ∀ pin suspend final redundant withLog,
    allOk .uploadModuleInstance {pin,suspend,final,redundant,withLog,known := false,anonymous := true,transient := true,hash := true} = true := by decide +kernel
theorem ok4 : ∀ anonymous pin transient suspend final hash redundant withLog,
    allOk .uploadModuleInstance {anonymous,pin,transient,suspend,final,hash,redundant,withLog,known := false} = true
  | false, b, false, d, e, false, f, g => ok4_0 b d e f g
  | false, b, false, d, e, true, f, g => ok4_1 b d e f g
  | false, b, true, d, e, false, f, g => ok4_2 b d e f g
  | false, b, true, d, e, true, f, g => ok4_3 b d e f g
  | true, b, false, d, e, false, f, g => ok4_4 b d e f g
  | true, b, false, d, e, true, f, g => ok4_5 b d e f g
  | true, b, true, d, e, false, f, g => ok4_6 b d e f g
  | true, b, true, d, e, true, f, g => ok4_7 b d e f g
theorem ok4' : ∀ anonymous pin transient suspend final withLog,
    allOk .uploadModuleInstance {anonymous,pin,transient,suspend,final,withLog,hash := true,known := true} = true := by decide +kernel

/-- Every execution of every request passes the tests. -/
theorem allOk_all (a : Api) (c : Cfg) : allOk a c = true := by
  cases a with
  | uploadModule => exact ok1 c.anonymous c.pin c.hash c.known c.redundant
  | sourceModule => exact ok2 c.anonymous c.pin c.redundant
  | newInstance => exact ok3 c.anonymous c.transient c.suspend c.final c.withLog
  | uploadModuleInstance =>
    obtain ⟨an, pi, tr, su, fi, ha, kn, re, co, ru, ss, mo, og, wl, ol, al⟩ := c
    cases kn with
    | false => exact ok4 an pi tr su fi ha re wl
    | true =>
      cases ha with
      | false => exact ok4 an pi tr su fi false re wl
      | true => exact ok4' an pi tr su fi wl
  | sourceModuleInstance => exact ok5 c.anonymous c.pin c.transient c.suspend c.final c.redundant c.withLog
  | moduleInfo => exact ok6 c.anonymous
  | modules => exact ok7 c.anonymous
  | moduleContent => exact ok8 c.anonymous
  | pinModule => exact ok9 c.anonymous c.pin
  | unpinModule => exact ok10 c.anonymous
  | instanceConnection => exact ok11 c.anonymous c.connectable
  | instanceInfo => exact ok12 c.anonymous
  | waitInstance => exact ok13 c.anonymous
  | killInstance => exact ok14 c.anonymous c.running c.oldLog c.alt
  | suspendInstance => exact ok15 c.anonymous c.running c.oldLog c.alt
  | resumeInstance => exact ok16 c.anonymous c.withLog c.oldLog c.alt
  | deleteInstance => exact ok17 c.anonymous c.oldLog c.alt
  | snapshot => exact ok18 c.anonymous c.pin c.redundant c.running c.suspends c.oldLog c.alt
  | updateInstance => exact ok19 c.anonymous c.running c.oldLog c.alt
  | debugInstance => exact ok20 c.anonymous c.modified c.original c.running c.oldLog c.alt
  | instances => exact ok21 c.anonymous
  | drive => exact ok22 c.transient c.oldLog c.alt

end Gate.Requests
