/-!
# Specification: names of facilities and severities

Written from RFC 5427 (labels of `SyslogFacility` and `SyslogSeverity`) and from the wording of the table of RFC 5424 section 6.2.1, as
adapted by this library, not from the code's tables: every entry gives the number, so that the order of the lines does not matter.
-/

namespace Verif.Spec

/-- RFC 5427: `SyslogFacility` -/
inductive FacilityLabel : Nat → String → Prop
  | kern : FacilityLabel 0 "kern"
  | user : FacilityLabel 1 "user"
  | mail : FacilityLabel 2 "mail"
  | daemon : FacilityLabel 3 "daemon"
  | auth : FacilityLabel 4 "auth"
  | syslog : FacilityLabel 5 "syslog"
  | lpr : FacilityLabel 6 "lpr"
  | news : FacilityLabel 7 "news"
  | uucp : FacilityLabel 8 "uucp"
  | cron : FacilityLabel 9 "cron"
  | authpriv : FacilityLabel 10 "authpriv"
  | ftp : FacilityLabel 11 "ftp"
  | ntp : FacilityLabel 12 "ntp"
  | audit : FacilityLabel 13 "audit"
  | console : FacilityLabel 14 "console"
  | cron2 : FacilityLabel 15 "cron2"
  | local (n : Nat) : n ≤ 7 → FacilityLabel (16 + n) ("local" ++ toString n)

/-- RFC 5427: `SyslogSeverity` -/
inductive SeverityLabel : Nat → String → Prop
  | emerg : SeverityLabel 0 "emerg"
  | alert : SeverityLabel 1 "alert"
  | crit : SeverityLabel 2 "crit"
  | err : SeverityLabel 3 "err"
  | warning : SeverityLabel 4 "warning"
  | notice : SeverityLabel 5 "notice"
  | info : SeverityLabel 6 "info"
  | debug : SeverityLabel 7 "debug"

/-- the long names of the severities, and the explanations of RFC 5424 table 2, by label -/
inductive SeverityText : String → String → String → Prop
  | emerg : SeverityText "emerg" "emergency" "system is unusable"
  | alert : SeverityText "alert" "alert" "action must be taken immediately"
  | crit : SeverityText "crit" "critical" "critical conditions"
  | err : SeverityText "err" "error" "error conditions"
  | warning : SeverityText "warning" "warning" "warning conditions"
  | notice : SeverityText "notice" "notice" "normal but significant condition"
  | info : SeverityText "info" "informational" "informational messages"
  | debug : SeverityText "debug" "debug" "debug-level messages"

/-- the explanations of RFC 5424 table 1 (in the wording of this library), by label -/
inductive FacilityText : String → String → Prop
  | kern : FacilityText "kern" "kernel messages"
  | user : FacilityText "user" "user-level messages"
  | mail : FacilityText "mail" "mail system messages"
  | daemon : FacilityText "daemon" "system daemons messages"
  | auth : FacilityText "auth" "authorization messages"
  | syslog : FacilityText "syslog" "messages generated internally by syslogd"
  | lpr : FacilityText "lpr" "line printer subsystem messages"
  | news : FacilityText "news" "network news subsystem messages"
  | uucp : FacilityText "uucp" "UUCP subsystem messages"
  | cron : FacilityText "cron" "clock daemon messages"
  | authpriv : FacilityText "authpriv" "security/authorization messages"
  | ftp : FacilityText "ftp" "ftp daemon messages"
  | ntp : FacilityText "ntp" "NTP subsystem messages"
  | audit : FacilityText "audit" "audit messages"
  | console : FacilityText "console" "console messages"
  | cron2 : FacilityText "cron2" "clock daemon messages"
  | local (n : Nat) : n ≤ 7 → FacilityText ("local" ++ toString n) ("local use " ++ toString n ++ " (local" ++ toString n ++ ")")

end Verif.Spec
