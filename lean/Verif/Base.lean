import Verif.Common
import Verif.GoTime

/-!
# `syslog.Base` (syslog.go), `common/facility.go`, `common/severity.go`
-/

namespace Verif

/-- `common.Facility` (common/facility.go:5-30). A missing key gives `""` in Go. -/
def facilityMessages : List String := [
  "kernel messages", "user-level messages", "mail system messages", "system daemons messages",
  "authorization messages", "messages generated internally by syslogd", "line printer subsystem messages",
  "network news subsystem messages", "UUCP subsystem messages", "clock daemon messages",
  "security/authorization messages", "ftp daemon messages", "NTP subsystem messages", "audit messages",
  "console messages", "clock daemon messages", "local use 0 (local0)", "local use 1 (local1)",
  "local use 2 (local2)", "local use 3 (local3)", "local use 4 (local4)", "local use 5 (local5)",
  "local use 6 (local6)", "local use 7 (local7)"]

/-- `common.FacilityKeywords` (common/facility.go:34-59). -/
def facilityKeywords : List String := [
  "kern", "user", "mail", "daemon", "auth", "syslog", "lpr", "news", "uucp", "cron", "authpriv", "ftp", "ntp",
  "security", "console", "cron2", "local0", "local1", "local2", "local3", "local4", "local5", "local6", "local7"]

/-- `common.SeverityMessages` (common/severity.go:4-13). -/
def severityMessages : List String := [
  "system is unusable", "action must be taken immediately", "critical conditions", "error conditions",
  "warning conditions", "normal but significant condition", "informational messages", "debug-level messages"]

/-- `common.SeverityLevels` (common/severity.go:16-25). -/
def severityLevels : List String := [
  "emergency", "alert", "critical", "error", "warning", "notice", "informational", "debug"]

/-- `common.SeverityLevelsShort` (common/severity.go:29-38). -/
def severityLevelsShort : List String := [
  "emerg", "alert", "crit", "err", "warning", "notice", "info", "debug"]

/-- `syslog.Base` (syslog.go:67-77); `none` is a nil pointer. -/
structure Base where
  facility : Option UInt8 := none
  severity : Option UInt8 := none
  priority : Option UInt8 := none
  timestamp : Option GoTime.Time := none
  hostname : Option Bytes := none
  appname : Option Bytes := none
  procID : Option Bytes := none
  msgID : Option Bytes := none
  message : Option Bytes := none
  deriving DecidableEq, Repr

namespace Base

/-- `Base.Valid` (syslog.go:83-86). -/
def valid (m : Base) : Bool :=
  match m.priority with
  | none => false
  | some p => Common.validPriority p

/-- `Base.ComputeFromPriority` (syslog.go:91-97). -/
def computeFromPriority (m : Base) (value : UInt8) : Base :=
  { m with priority := some value, facility := some (value / 8), severity := some (value % 8) }

/-- `Base.FacilityMessage` (syslog.go:100-107). -/
def facilityMessage (m : Base) : Option String := m.facility.map fun f => facilityMessages.getD f.toNat ""

/-- `Base.FacilityLevel` (syslog.go:110-122). -/
def facilityLevel (m : Base) : Option String :=
  m.facility.map fun f =>
    match facilityKeywords[f.toNat]? with
    | some k => k
    | none => facilityMessages.getD f.toNat ""

/-- `Base.SeverityMessage` (syslog.go:125-132). -/
def severityMessage (m : Base) : Option String := m.severity.map fun s => severityMessages.getD s.toNat ""

/-- `Base.SeverityLevel` (syslog.go:135-142). -/
def severityLevel (m : Base) : Option String := m.severity.map fun s => severityLevels.getD s.toNat ""

/-- `Base.SeverityShortLevel` (syslog.go:145-152). -/
def severityShortLevel (m : Base) : Option String := m.severity.map fun s => severityLevelsShort.getD s.toNat ""

end Base
end Verif
