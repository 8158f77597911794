import Verif.Mini.Lang

/-!
# The hand-written functions of the packages

Generated by tools/gomini.py from the Go sources; do not edit. The syntax is that of `Verif/Mini/Lang.lean`.
-/

namespace Verif.Gen.Mini
open Verif.Mini

namespace Zero

/-- `Scanner{}` (octetcounting/scanner.go:30-34) -/
def octetcounting_Scanner : Val := .struct .octetcounting_Scanner [(.r, .nil), (.msglen, .int .u64 0), (.ready, .bool false)]

/-- `Token{}` (octetcounting/tokens.go:8-11) -/
def octetcounting_Token : Val := .struct .octetcounting_Token [(.typ, .int .int 0), (.lit, .nil)]

/-- `syslogMessage{}` (rfc5424/syslog_message.go:10-23) -/
def rfc5424_syslogMessage : Val := .struct .rfc5424_syslogMessage [(.prioritySet, .bool false), (.timestampSet, .bool false), (.hasElements, .bool false), (.priority, .int .u8 0), (.version, .int .u16 0), (.timestamp, .ext (.time Rfc5424.zeroTime)), (.hostname, .str []), (.appname, .str []), (.procID, .str []), (.msgID, .str []), (.structuredData, .nil), (.message, .str [])]

/-- `SyslogMessage{}` (rfc5424/syslog_message.go:78-83) -/
def rfc5424_SyslogMessage : Val := .struct .rfc5424_SyslogMessage [(.Facility, .nil), (.Severity, .nil), (.Priority, .nil), (.Timestamp, .nil), (.Hostname, .nil), (.Appname, .nil), (.ProcID, .nil), (.MsgID, .nil), (.Message, .nil), (.Version, .int .u16 0), (.StructuredData, .nil)]

/-- `syslogMessage{}` (rfc3164/syslog_message.go:10-19) -/
def rfc3164_syslogMessage : Val := .struct .rfc3164_syslogMessage [(.prioritySet, .bool false), (.timestampSet, .bool false), (.priority, .int .u8 0), (.timestamp, .ext (.time Rfc5424.zeroTime)), (.hostname, .str []), (.tag, .str []), (.content, .str []), (.message, .str [])]

/-- `SyslogMessage{}` (rfc3164/syslog_message.go:53-55) -/
def rfc3164_SyslogMessage : Val := .struct .rfc3164_SyslogMessage [(.Facility, .nil), (.Severity, .nil), (.Priority, .nil), (.Timestamp, .nil), (.Hostname, .nil), (.Appname, .nil), (.ProcID, .nil), (.MsgID, .nil), (.Message, .nil)]

/-- `machine{}` (rfc5424/machine.go:60-72) -/
def rfc5424_machine : Val := .struct .rfc5424_machine [(.data, .nil), (.cs, .int .int 0), (.p, .int .int 0), (.pe, .int .int 0), (.eof, .int .int 0), (.pb, .int .int 0), (.err, .nil), (.currentelem, .str []), (.currentparam, .str []), (.msgat, .int .int 0), (.backslashat, .nil), (.bestEffort, .bool false), (.compliantMsg, .bool false)]

/-- `machine{}` (rfc3164/machine.go:29-40) -/
def rfc3164_machine : Val := .struct .rfc3164_machine [(.data, .nil), (.cs, .int .int 0), (.p, .int .int 0), (.pe, .int .int 0), (.eof, .int .int 0), (.pb, .int .int 0), (.err, .nil), (.bestEffort, .bool false), (.yyyy, .int .int 0), (.rfc3339, .bool false), (.loc, .nil), (.timezone, .nil)]

/-- `parser{}` (rfc5424/parser.go:10-13) -/
def rfc5424_parser : Val := .struct .rfc5424_parser [(.Mutex, .bool false), (.machine, .nil)]

/-- `parser{}` (rfc3164/parser.go:10-13) -/
def rfc3164_parser : Val := .struct .rfc3164_parser [(.Mutex, .bool false), (.machine, .nil)]

/-- `parser{}` (octetcounting/parser.go:14-23) -/
def octetcounting_parser : Val := .struct .octetcounting_parser [(.msglen, .int .int 0), (.maxMessageLength, .int .int 0), (.s, Zero.octetcounting_Scanner), (.internal, .nil), (.last, Zero.octetcounting_Token), (.stepback, .bool false), (.bestEffort, .bool false), (.emit, .nil)]

/-- `machine{}` (nontransparent/parser.go:16-25) -/
def nontransparent_machine : Val := .struct .nontransparent_machine [(.trailertyp, .int .int 0), (.trailer, .int .u8 0), (.candidate, .nil), (.bestEffort, .bool false), (.internal, .nil), (.emit, .nil), (.readError, .nil), (.lastChunk, .nil)]

/-- `Result{}` (syslog.go:47-50) -/
def syslog_Result : Val := .struct .syslog_Result [(.Message, .nil), (.Error, .nil)]

/-- `Base{}` (syslog.go:67-77) -/
def syslog_Base : Val := .struct .syslog_Base [(.Facility, .nil), (.Severity, .nil), (.Priority, .nil), (.Timestamp, .nil), (.Hostname, .nil), (.Appname, .nil), (.ProcID, .nil), (.MsgID, .nil), (.Message, .nil)]

/-- `YearOperation{}` (rfc3164/year.go:13-15) -/
def rfc3164_YearOperation : Val := .struct .rfc3164_YearOperation [(.Operator, .nil)]

/-- `Year{}` (rfc3164/year.go:31-33) -/
def rfc3164_Year : Val := .struct .rfc3164_Year [(.YYYY, .int .int 0)]

/-- `CurrentYear{}` (rfc3164/year.go:23-23) -/
def rfc3164_CurrentYear : Val := .struct .rfc3164_CurrentYear []

end Zero

namespace Table

/-- `Facility` (common/facility.go:5-30) -/
def Facility : List (Int × Bytes) := [
  (0, ascii "kernel messages"),
  (1, ascii "user-level messages"),
  (2, ascii "mail system messages"),
  (3, ascii "system daemons messages"),
  (4, ascii "authorization messages"),
  (5, ascii "messages generated internally by syslogd"),
  (6, ascii "line printer subsystem messages"),
  (7, ascii "network news subsystem messages"),
  (8, ascii "UUCP subsystem messages"),
  (9, ascii "clock daemon messages"),
  (10, ascii "security/authorization messages"),
  (11, ascii "ftp daemon messages"),
  (12, ascii "NTP subsystem messages"),
  (13, ascii "audit messages"),
  (14, ascii "console messages"),
  (15, ascii "clock daemon messages"),
  (16, ascii "local use 0 (local0)"),
  (17, ascii "local use 1 (local1)"),
  (18, ascii "local use 2 (local2)"),
  (19, ascii "local use 3 (local3)"),
  (20, ascii "local use 4 (local4)"),
  (21, ascii "local use 5 (local5)"),
  (22, ascii "local use 6 (local6)"),
  (23, ascii "local use 7 (local7)")]

/-- `FacilityKeywords` (common/facility.go:34-59) -/
def FacilityKeywords : List (Int × Bytes) := [
  (0, ascii "kern"),
  (1, ascii "user"),
  (2, ascii "mail"),
  (3, ascii "daemon"),
  (4, ascii "auth"),
  (5, ascii "syslog"),
  (6, ascii "lpr"),
  (7, ascii "news"),
  (8, ascii "uucp"),
  (9, ascii "cron"),
  (10, ascii "authpriv"),
  (11, ascii "ftp"),
  (12, ascii "ntp"),
  (13, ascii "security"),
  (14, ascii "console"),
  (15, ascii "cron2"),
  (16, ascii "local0"),
  (17, ascii "local1"),
  (18, ascii "local2"),
  (19, ascii "local3"),
  (20, ascii "local4"),
  (21, ascii "local5"),
  (22, ascii "local6"),
  (23, ascii "local7")]

/-- `SeverityMessages` (common/severity.go:4-13) -/
def SeverityMessages : List (Int × Bytes) := [
  (0, ascii "system is unusable"),
  (1, ascii "action must be taken immediately"),
  (2, ascii "critical conditions"),
  (3, ascii "error conditions"),
  (4, ascii "warning conditions"),
  (5, ascii "normal but significant condition"),
  (6, ascii "informational messages"),
  (7, ascii "debug-level messages")]

/-- `SeverityLevels` (common/severity.go:16-25) -/
def SeverityLevels : List (Int × Bytes) := [
  (0, ascii "emergency"),
  (1, ascii "alert"),
  (2, ascii "critical"),
  (3, ascii "error"),
  (4, ascii "warning"),
  (5, ascii "notice"),
  (6, ascii "informational"),
  (7, ascii "debug")]

/-- `SeverityLevelsShort` (common/severity.go:29-38) -/
def SeverityLevelsShort : List (Int × Bytes) := [
  (0, ascii "emerg"),
  (1, ascii "alert"),
  (2, ascii "crit"),
  (3, ascii "err"),
  (4, ascii "warning"),
  (5, ascii "notice"),
  (6, ascii "info"),
  (7, ascii "debug")]

end Table

/-- `func UnsafeUTF8DecimalCodePointsToInt` (common/functions.go:8-17) -/
def common_UnsafeUTF8DecimalCodePointsToInt : Fn := ⟨[.chars],
  (.seq (.assign .out (.lit (.int .int 0))) <|
  .seq (.assign .ord (.lit (.int .int 1))) <|
  .seq (.assign .i (.bin .sub (.len (.var .chars)) (.lit (.int .const 1)))) <|
  .seq (.forc (.bin .ge (.var .i) (.lit (.int .const 0))) (.assign .i (.bin .sub (.var .i) (.lit (.int .const 1)))) (.seq (.assign .curchar (.conv .int (.index (.var .chars) (.var .i)))) <|
    .seq (.assign .out (.bin .add (.var .out) (.bin .mul (.bin .sub (.var .curchar) (.lit (.int .const 48))) (.var .ord)))) <|
    .assign .ord (.bin .mul (.var .ord) (.lit (.int .const 10))))) <|
  .ret (.var .out))⟩

/-- `func RemoveBytes` (common/functions.go:20-28) -/
def common_RemoveBytes : Fn := ⟨[.data, .positions, .offset],
  (.seq (.assign .cp (.appendAll (.lit .nil) (.var .data))) <|
  .seq (.range (some .i) (some .pos) (.var .positions) (.seq (.assign .«at» (.bin .sub (.bin .sub (.var .pos) (.var .i)) (.var .offset))) <|
    .assign .cp (.appendAll (.sub (.var .cp) (.lit .nil) (.var .«at»)) (.sub (.var .cp) (.bin .add (.var .«at») (.lit (.int .const 1))) (.lit .nil))))) <|
  .ret (.var .cp))⟩

/-- `func EscapeBytes` (common/functions.go:31-42) -/
def common_EscapeBytes : Fn := ⟨[.value],
  (.seq (.assign .res (.lit (.str []))) <|
  .seq (.range (some .i) (some .c) (.var .value) (.seq (.ifs (.or (.or (.bin .eq (.var .c) (.lit (.int .const 92))) (.bin .eq (.var .c) (.lit (.int .const 93)))) (.bin .eq (.var .c) (.lit (.int .const 34)))) (.assign .res (.bin .add (.var .res) (.lit (.str (ascii "\\"))))) .skip) <|
    .assign .res (.bin .add (.var .res) (.toStr (.index (.var .value) (.var .i)))))) <|
  .ret (.var .res))⟩

/-- `func InBetween` (common/functions.go:45-47) -/
def common_InBetween : Fn := ⟨[.val, .min, .max],
  (.ret (.and (.bin .ge (.var .val) (.var .min)) (.bin .le (.var .val) (.var .max))))⟩

/-- `func ValidPriority` (common/functions.go:50-52) -/
def common_ValidPriority : Fn := ⟨[.priority],
  (.ret (.call .common_InBetween (.cons (.conv .int (.var .priority)) (.cons (.lit (.int .const 0)) (.cons (.lit (.int .const 191)) .unit)))))⟩

/-- `func ValidVersion` (common/functions.go:55-57) -/
def common_ValidVersion : Fn := ⟨[.version],
  (.ret (.call .common_InBetween (.cons (.conv .int (.var .version)) (.cons (.lit (.int .const 1)) (.cons (.lit (.int .const 999)) .unit)))))⟩

/-- `func (m *Base) Valid` (syslog.go:83-86) -/
def syslog_Base_Valid : Fn := ⟨[.m],
  (.ret (.and (.bin .ne (.field (.var .m) .Priority) (.lit .nil)) (.call .common_ValidPriority (.cons (.deref (.field (.var .m) .Priority)) .unit))))⟩

/-- `func (m *Base) ComputeFromPriority` (syslog.go:91-97) -/
def syslog_Base_ComputeFromPriority : Fn := ⟨[.m, .value],
  (.seq (.assign .value (.new (.var .value))) <|
  (.seq (.store (.addr (.var .m) .Priority) (.var .value)) <|
  .seq (.assign .facility (.new (.conv .u8 (.bin .div (.deref (.var .value)) (.lit (.int .const 8)))))) <|
  .seq (.assign .severity (.new (.conv .u8 (.bin .mod (.deref (.var .value)) (.lit (.int .const 8)))))) <|
  .seq (.store (.addr (.var .m) .Facility) (.var .facility)) <|
  .store (.addr (.var .m) .Severity) (.var .severity)))⟩

/-- `func (m *Base) FacilityMessage` (syslog.go:100-107) -/
def syslog_Base_FacilityMessage : Fn := ⟨[.m],
  (.seq (.ifs (.bin .ne (.field (.var .m) .Facility) (.lit .nil)) (.seq (.assign .msg (.new (.index (.lit (.tbl Table.Facility)) (.deref (.field (.var .m) .Facility))))) <|
    .ret (.var .msg)) .skip) <|
  .ret (.lit .nil))⟩

/-- `func (m *Base) FacilityLevel` (syslog.go:110-122) -/
def syslog_Base_FacilityLevel : Fn := ⟨[.m],
  (.seq (.ifs (.bin .ne (.field (.var .m) .Facility) (.lit .nil)) (.seq (.multi [some .tmp1, some .ok] (.indexOk (.lit (.tbl Table.FacilityKeywords)) (.deref (.field (.var .m) .Facility)))) <|
    .seq (.assign .msg (.new (.var .tmp1))) <|
    .seq (.ifs (.var .ok) (.ret (.var .msg)) .skip) <|
    .seq (.assign .msg_2 (.new (.index (.lit (.tbl Table.Facility)) (.deref (.field (.var .m) .Facility))))) <|
    .ret (.var .msg_2)) .skip) <|
  .ret (.lit .nil))⟩

/-- `func (m *Base) SeverityMessage` (syslog.go:125-132) -/
def syslog_Base_SeverityMessage : Fn := ⟨[.m],
  (.seq (.ifs (.bin .ne (.field (.var .m) .Severity) (.lit .nil)) (.seq (.assign .msg (.new (.index (.lit (.tbl Table.SeverityMessages)) (.deref (.field (.var .m) .Severity))))) <|
    .ret (.var .msg)) .skip) <|
  .ret (.lit .nil))⟩

/-- `func (m *Base) SeverityLevel` (syslog.go:135-142) -/
def syslog_Base_SeverityLevel : Fn := ⟨[.m],
  (.seq (.ifs (.bin .ne (.field (.var .m) .Severity) (.lit .nil)) (.seq (.assign .msg (.new (.index (.lit (.tbl Table.SeverityLevels)) (.deref (.field (.var .m) .Severity))))) <|
    .ret (.var .msg)) .skip) <|
  .ret (.lit .nil))⟩

/-- `func (m *Base) SeverityShortLevel` (syslog.go:145-152) -/
def syslog_Base_SeverityShortLevel : Fn := ⟨[.m],
  (.seq (.ifs (.bin .ne (.field (.var .m) .Severity) (.lit .nil)) (.seq (.assign .msg (.new (.index (.lit (.tbl Table.SeverityLevelsShort)) (.deref (.field (.var .m) .Severity))))) <|
    .ret (.var .msg)) .skip) <|
  .ret (.lit .nil))⟩

/-- `func WithListener` (options.go:4-9) -/
def syslog_WithListener : Fn := ⟨[.f],
  (.ret (.clo .syslog_WithListener_fn (.cons (.var .f) .unit)))⟩

/-- `the closure in WithListener` (options.go:4-9) -/
def syslog_WithListener_fn : Fn := ⟨[.f, .p],
  (.seq (.expr (.dyn (.var .p) .WithListener (.cons (.var .f) .unit))) <|
  .ret (.var .p))⟩

/-- `func WithBestEffort` (options.go:14-19) -/
def syslog_WithBestEffort : Fn := ⟨[],
  (.ret (.clo .syslog_WithBestEffort_fn .unit))⟩

/-- `the closure in WithBestEffort` (options.go:14-19) -/
def syslog_WithBestEffort_fn : Fn := ⟨[.p],
  (.seq (.expr (.dyn (.var .p) .WithBestEffort .unit)) <|
  .ret (.var .p))⟩

/-- `func WithMaxMessageLength` (options.go:22-27) -/
def syslog_WithMaxMessageLength : Fn := ⟨[.length],
  (.ret (.clo .syslog_WithMaxMessageLength_fn (.cons (.var .length) .unit)))⟩

/-- `the closure in WithMaxMessageLength` (options.go:22-27) -/
def syslog_WithMaxMessageLength_fn : Fn := ⟨[.length, .p],
  (.seq (.expr (.dyn (.var .p) .WithMaxMessageLength (.cons (.var .length) .unit))) <|
  .ret (.var .p))⟩

/-- `func (sm *syslogMessage) minimal` (rfc5424/syslog_message.go:25-27) -/
def rfc5424_syslogMessage_minimal : Fn := ⟨[.sm],
  (.ret (.and (.and (.field (.var .sm) .prioritySet) (.call .common_ValidPriority (.cons (.field (.var .sm) .priority) .unit))) (.call .common_ValidVersion (.cons (.field (.var .sm) .version) .unit))))⟩

/-- `func (sm *syslogMessage) export` (rfc5424/syslog_message.go:31-59) -/
def rfc5424_syslogMessage_export : Fn := ⟨[.sm],
  (.seq (.assign .out (.new (.lit Zero.rfc5424_SyslogMessage))) <|
  .seq (.expr (.call .syslog_Base_ComputeFromPriority (.cons (.var .out) (.cons (.field (.var .sm) .priority) .unit)))) <|
  .seq (.store (.addr (.var .out) .Version) (.field (.var .sm) .version)) <|
  .seq (.ifs (.field (.var .sm) .timestampSet) (.store (.addr (.var .out) .Timestamp) (.addr (.var .sm) .timestamp)) .skip) <|
  .seq (.ifs (.and (.bin .ne (.field (.var .sm) .hostname) (.lit (.str (ascii "-")))) (.bin .ne (.field (.var .sm) .hostname) (.lit (.str [])))) (.store (.addr (.var .out) .Hostname) (.addr (.var .sm) .hostname)) .skip) <|
  .seq (.ifs (.and (.bin .ne (.field (.var .sm) .appname) (.lit (.str (ascii "-")))) (.bin .ne (.field (.var .sm) .appname) (.lit (.str [])))) (.store (.addr (.var .out) .Appname) (.addr (.var .sm) .appname)) .skip) <|
  .seq (.ifs (.and (.bin .ne (.field (.var .sm) .procID) (.lit (.str (ascii "-")))) (.bin .ne (.field (.var .sm) .procID) (.lit (.str [])))) (.store (.addr (.var .out) .ProcID) (.addr (.var .sm) .procID)) .skip) <|
  .seq (.ifs (.and (.bin .ne (.field (.var .sm) .msgID) (.lit (.str (ascii "-")))) (.bin .ne (.field (.var .sm) .msgID) (.lit (.str [])))) (.store (.addr (.var .out) .MsgID) (.addr (.var .sm) .msgID)) .skip) <|
  .seq (.ifs (.field (.var .sm) .hasElements) (.store (.addr (.var .out) .StructuredData) (.addr (.var .sm) .structuredData)) .skip) <|
  .seq (.ifs (.bin .ne (.field (.var .sm) .message) (.lit (.str []))) (.store (.addr (.var .out) .Message) (.addr (.var .sm) .message)) .skip) <|
  .ret (.var .out))⟩

/-- `func (sm *SyslogMessage) Valid` (rfc5424/syslog_message.go:88-91) -/
def rfc5424_SyslogMessage_Valid : Fn := ⟨[.sm],
  (.ret (.and (.call .syslog_Base_Valid (.cons (.var .sm) .unit)) (.call .common_ValidVersion (.cons (.field (.var .sm) .Version) .unit))))⟩

/-- `func (e entrypoint) translate` (rfc5424/builder.go:39-62) -/
def rfc5424_entrypoint_translate : Fn := ⟨[.e],
  (.seq (.assign .tmp1 (.var .e)) <|
  .ifs (.bin .eq (.var .tmp1) (.lit (.int .int 0))) (.ret (.lit (.int .int 1))) (.ifs (.bin .eq (.var .tmp1) (.lit (.int .int 1))) (.ret (.lit (.int .int 38))) (.ifs (.bin .eq (.var .tmp1) (.lit (.int .int 2))) (.ret (.lit (.int .int 39))) (.ifs (.bin .eq (.var .tmp1) (.lit (.int .int 3))) (.ret (.lit (.int .int 40))) (.ifs (.bin .eq (.var .tmp1) (.lit (.int .int 4))) (.ret (.lit (.int .int 41))) (.ifs (.bin .eq (.var .tmp1) (.lit (.int .int 5))) (.ret (.lit (.int .int 42))) (.ifs (.bin .eq (.var .tmp1) (.lit (.int .int 6))) (.ret (.lit (.int .int 43))) (.ifs (.bin .eq (.var .tmp1) (.lit (.int .int 7))) (.ret (.lit (.int .int 582))) (.ifs (.bin .eq (.var .tmp1) (.lit (.int .int 8))) (.ret (.lit (.int .int 52))) (.ret (.lit (.int .int 52))))))))))))⟩

/-- `func (sm *SyslogMessage) SetPriority` (rfc5424/builder.go:9270-9276) -/
def rfc5424_SyslogMessage_SetPriority : Fn := ⟨[.sm, .value],
  (.seq (.ifs (.call .common_ValidPriority (.cons (.var .value) .unit)) (.expr (.call .syslog_Base_ComputeFromPriority (.cons (.var .sm) (.cons (.var .value) .unit)))) .skip) <|
  .ret (.var .sm))⟩

/-- `func (sm *SyslogMessage) SetVersion` (rfc5424/builder.go:9281-9287) -/
def rfc5424_SyslogMessage_SetVersion : Fn := ⟨[.sm, .value],
  (.seq (.ifs (.call .common_ValidVersion (.cons (.var .value) .unit)) (.store (.addr (.var .sm) .Version) (.var .value)) .skip) <|
  .ret (.var .sm))⟩

/-- `func (sm *SyslogMessage) SetTimestamp` (rfc5424/builder.go:9290-9292) -/
def rfc5424_SyslogMessage_SetTimestamp : Fn := ⟨[.sm, .value],
  (.ret (.call .rfc5424_SyslogMessage_set (.cons (.var .sm) (.cons (.lit (.int .int 0)) (.cons (.var .value) .unit)))))⟩

/-- `func (sm *SyslogMessage) SetHostname` (rfc5424/builder.go:9295-9297) -/
def rfc5424_SyslogMessage_SetHostname : Fn := ⟨[.sm, .value],
  (.ret (.call .rfc5424_SyslogMessage_set (.cons (.var .sm) (.cons (.lit (.int .int 1)) (.cons (.var .value) .unit)))))⟩

/-- `func (sm *SyslogMessage) SetAppname` (rfc5424/builder.go:9300-9302) -/
def rfc5424_SyslogMessage_SetAppname : Fn := ⟨[.sm, .value],
  (.ret (.call .rfc5424_SyslogMessage_set (.cons (.var .sm) (.cons (.lit (.int .int 2)) (.cons (.var .value) .unit)))))⟩

/-- `func (sm *SyslogMessage) SetProcID` (rfc5424/builder.go:9305-9307) -/
def rfc5424_SyslogMessage_SetProcID : Fn := ⟨[.sm, .value],
  (.ret (.call .rfc5424_SyslogMessage_set (.cons (.var .sm) (.cons (.lit (.int .int 3)) (.cons (.var .value) .unit)))))⟩

/-- `func (sm *SyslogMessage) SetMsgID` (rfc5424/builder.go:9310-9312) -/
def rfc5424_SyslogMessage_SetMsgID : Fn := ⟨[.sm, .value],
  (.ret (.call .rfc5424_SyslogMessage_set (.cons (.var .sm) (.cons (.lit (.int .int 4)) (.cons (.var .value) .unit)))))⟩

/-- `func (sm *SyslogMessage) SetElementID` (rfc5424/builder.go:9317-9319) -/
def rfc5424_SyslogMessage_SetElementID : Fn := ⟨[.sm, .value],
  (.ret (.call .rfc5424_SyslogMessage_set (.cons (.var .sm) (.cons (.lit (.int .int 5)) (.cons (.var .value) .unit)))))⟩

/-- `func (sm *SyslogMessage) SetParameter` (rfc5424/builder.go:9325-9344) -/
def rfc5424_SyslogMessage_SetParameter : Fn := ⟨[.sm, .id, .name, .value],
  (.seq (.expr (.call .rfc5424_SyslogMessage_set (.cons (.var .sm) (.cons (.lit (.int .int 5)) (.cons (.var .id) .unit))))) <|
  .seq (.ifs (.bin .ne (.field (.var .sm) .StructuredData) (.lit .nil)) (.seq (.assign .elements (.deref (.field (.var .sm) .StructuredData))) <|
    .seq (.multi [none, some .ok] (.indexOk (.var .elements) (.var .id))) <|
    .ifs (.var .ok) (.seq (.setGlob .currentid (.var .id)) <|
      .seq (.expr (.call .rfc5424_SyslogMessage_set (.cons (.var .sm) (.cons (.lit (.int .int 6)) (.cons (.var .name) .unit))))) <|
      .seq (.multi [none, some .ok_2] (.indexOk (.index (.var .elements) (.var .id)) (.var .name))) <|
      .ifs (.var .ok_2) (.seq (.setGlob .currentparamname (.var .name)) <|
        .expr (.call .rfc5424_SyslogMessage_set (.cons (.var .sm) (.cons (.lit (.int .int 7)) (.cons (.var .value) .unit))))) .skip) .skip) .skip) <|
  .ret (.var .sm))⟩

/-- `func (sm *SyslogMessage) SetMessage` (rfc5424/builder.go:9347-9349) -/
def rfc5424_SyslogMessage_SetMessage : Fn := ⟨[.sm, .value],
  (.ret (.call .rfc5424_SyslogMessage_set (.cons (.var .sm) (.cons (.lit (.int .int 8)) (.cons (.var .value) .unit)))))⟩

/-- `func (sm *SyslogMessage) String` (rfc5424/builder.go:9351-9411) -/
def rfc5424_SyslogMessage_String : Fn := ⟨[.sm],
  (.seq (.ifs (.not (.call .rfc5424_SyslogMessage_Valid (.cons (.var .sm) .unit))) (.ret (.cons (.lit (.str [])) (.cons (.call .fmt_Errorf (.cons (.lit (.str (ascii "invalid syslog"))) .unit)) .unit))) .skip) <|
  .seq (.assign .template (.lit (.str (ascii "<%d>%d %s %s %s %s %s %s%s")))) <|
  .seq (.assign .t (.lit (.str (ascii "-")))) <|
  .seq (.assign .hn (.lit (.str (ascii "-")))) <|
  .seq (.assign .an (.lit (.str (ascii "-")))) <|
  .seq (.assign .pid (.lit (.str (ascii "-")))) <|
  .seq (.assign .mid (.lit (.str (ascii "-")))) <|
  .seq (.assign .sd (.lit (.str (ascii "-")))) <|
  .seq (.assign .m (.lit (.str []))) <|
  .seq (.ifs (.bin .ne (.field (.var .sm) .Timestamp) (.lit .nil)) (.assign .t (.call .time_Format (.cons (.field (.var .sm) .Timestamp) (.cons (.lit (.str (ascii "2006-01-02T15:04:05.999999Z07:00"))) .unit)))) .skip) <|
  .seq (.ifs (.bin .ne (.field (.var .sm) .Hostname) (.lit .nil)) (.assign .hn (.deref (.field (.var .sm) .Hostname))) .skip) <|
  .seq (.ifs (.bin .ne (.field (.var .sm) .Appname) (.lit .nil)) (.assign .an (.deref (.field (.var .sm) .Appname))) .skip) <|
  .seq (.ifs (.bin .ne (.field (.var .sm) .ProcID) (.lit .nil)) (.assign .pid (.deref (.field (.var .sm) .ProcID))) .skip) <|
  .seq (.ifs (.bin .ne (.field (.var .sm) .MsgID) (.lit .nil)) (.assign .mid (.deref (.field (.var .sm) .MsgID))) .skip) <|
  .seq (.ifs (.bin .ne (.field (.var .sm) .StructuredData) (.lit .nil)) (.seq (.assign .identifiers (.lit (.slice 0 0 0 0))) <|
    .seq (.range (some .k) none (.deref (.field (.var .sm) .StructuredData)) (.assign .identifiers (.append (.var .identifiers) (.var .k)))) <|
    .seq (.expr (.call .sort_Strings (.cons (.var .identifiers) .unit))) <|
    .seq (.assign .sd (.lit (.str []))) <|
    .range none (some .id) (.var .identifiers) (.seq (.assign .sd (.bin .add (.var .sd) (.call .fmt_Sprintf (.cons (.lit (.str (ascii "[%s"))) (.cons (.var .id) .unit))))) <|
      .seq (.assign .params (.index (.deref (.field (.var .sm) .StructuredData)) (.var .id))) <|
      .seq (.assign .names (.lit (.slice 0 0 0 0))) <|
      .seq (.range (some .n) none (.var .params) (.assign .names (.append (.var .names) (.var .n)))) <|
      .seq (.expr (.call .sort_Strings (.cons (.var .names) .unit))) <|
      .seq (.range none (some .name) (.var .names) (.assign .sd (.bin .add (.var .sd) (.call .fmt_Sprintf (.cons (.lit (.str (ascii " %s=\"%s\""))) (.cons (.var .name) (.cons (.call .common_EscapeBytes (.cons (.index (.var .params) (.var .name)) .unit)) .unit))))))) <|
      .assign .sd (.bin .add (.var .sd) (.lit (.str (ascii "]")))))) .skip) <|
  .seq (.ifs (.bin .ne (.field (.var .sm) .Message) (.lit .nil)) (.assign .m (.bin .add (.lit (.str (ascii " "))) (.deref (.field (.var .sm) .Message)))) .skip) <|
  .ret (.cons (.call .fmt_Sprintf (.cons (.var .template) (.cons (.deref (.field (.var .sm) .Priority)) (.cons (.field (.var .sm) .Version) (.cons (.var .t) (.cons (.var .hn) (.cons (.var .an) (.cons (.var .pid) (.cons (.var .mid) (.cons (.var .sd) (.cons (.var .m) .unit))))))))))) (.cons (.lit .nil) .unit)))⟩

/-- `func NewMachine` (rfc5424/machine.go:75-83) -/
def rfc5424_NewMachine : Fn := ⟨[.options],
  (.seq (.assign .m (.new (.lit Zero.rfc5424_machine))) <|
  .seq (.range none (some .opt) (.var .options) (.expr (.callVal (.var .opt) (.cons (.var .m) .unit)))) <|
  .ret (.var .m))⟩

/-- `func (m *machine) WithBestEffort` (rfc5424/machine.go:86-88) -/
def rfc5424_machine_WithBestEffort : Fn := ⟨[.m],
  (.store (.addr (.var .m) .bestEffort) (.lit (.bool true)))⟩

/-- `func (m *machine) HasBestEffort` (rfc5424/machine.go:91-93) -/
def rfc5424_machine_HasBestEffort : Fn := ⟨[.m],
  (.ret (.field (.var .m) .bestEffort))⟩

/-- `func (m *machine) Err` (rfc5424/machine.go:98-100) -/
def rfc5424_machine_Err : Fn := ⟨[.m],
  (.ret (.field (.var .m) .err))⟩

/-- `func (m *machine) text` (rfc5424/machine.go:102-104) -/
def rfc5424_machine_text : Fn := ⟨[.m],
  (.ret (.sub (.field (.var .m) .data) (.field (.var .m) .pb) (.field (.var .m) .p)))⟩

/-- `func WithBestEffort` (rfc5424/options.go:8-13) -/
def rfc5424_WithBestEffort : Fn := ⟨[],
  (.ret (.clo .rfc5424_WithBestEffort_fn .unit))⟩

/-- `the closure in WithBestEffort` (rfc5424/options.go:8-13) -/
def rfc5424_WithBestEffort_fn : Fn := ⟨[.m],
  (.seq (.expr (.dyn (.var .m) .WithBestEffort .unit)) <|
  .ret (.var .m))⟩

/-- `func WithCompliantMsg` (rfc5424/options.go:24-29) -/
def rfc5424_WithCompliantMsg : Fn := ⟨[],
  (.ret (.clo .rfc5424_WithCompliantMsg_fn .unit))⟩

/-- `the closure in WithCompliantMsg` (rfc5424/options.go:24-29) -/
def rfc5424_WithCompliantMsg_fn : Fn := ⟨[.m],
  (.seq (.store (.addr (.var .m) .compliantMsg) (.lit (.bool true))) <|
  .ret (.var .m))⟩

/-- `func NewParser` (rfc5424/parser.go:16-22) -/
def rfc5424_NewParser : Fn := ⟨[.options],
  (.seq (.assign .p (.new (.mk Zero.rfc5424_parser [.machine] (.cons (.call .rfc5424_NewMachine (.cons (.var .options) .unit)) .unit)))) <|
  .ret (.var .p))⟩

/-- `func (p *parser) HasBestEffort` (rfc5424/parser.go:25-27) -/
def rfc5424_parser_HasBestEffort : Fn := ⟨[.p],
  (.ret (.field (.field (.var .p) .machine) .bestEffort))⟩

/-- `func (p *parser) Parse` (rfc5424/parser.go:32-45) -/
def rfc5424_parser_Parse : Fn := ⟨[.p, .input],
  (.seq (.expr (.call .sync_Lock (.cons (.addr (.var .p) .Mutex) .unit))) <|
  .deferd (.call .sync_Unlock (.cons (.addr (.var .p) .Mutex) .unit)) (.seq (.multi [some .msg, some .err] (.call .rfc5424_machine_Parse (.cons (.field (.var .p) .machine) (.cons (.var .input) .unit)))) <|
  .seq (.ifs (.bin .ne (.var .err) (.lit .nil)) (.seq (.ifs (.field (.field (.var .p) .machine) .bestEffort) (.ret (.cons (.var .msg) (.cons (.var .err) .unit))) .skip) <|
    .ret (.cons (.lit .nil) (.cons (.var .err) .unit))) .skip) <|
  .ret (.cons (.var .msg) (.cons (.lit .nil) .unit))))⟩

/-- `func (sm *syslogMessage) minimal` (rfc3164/syslog_message.go:21-23) -/
def rfc3164_syslogMessage_minimal : Fn := ⟨[.sm],
  (.ret (.and (.field (.var .sm) .prioritySet) (.call .common_ValidPriority (.cons (.field (.var .sm) .priority) .unit))))⟩

/-- `func (sm *syslogMessage) export` (rfc3164/syslog_message.go:27-50) -/
def rfc3164_syslogMessage_export : Fn := ⟨[.sm],
  (.seq (.assign .out (.new (.lit Zero.rfc3164_SyslogMessage))) <|
  .seq (.expr (.call .syslog_Base_ComputeFromPriority (.cons (.var .out) (.cons (.field (.var .sm) .priority) .unit)))) <|
  .seq (.ifs (.field (.var .sm) .timestampSet) (.store (.addr (.var .out) .Timestamp) (.addr (.var .sm) .timestamp)) .skip) <|
  .seq (.ifs (.and (.bin .ne (.field (.var .sm) .hostname) (.lit (.str (ascii "-")))) (.bin .ne (.field (.var .sm) .hostname) (.lit (.str [])))) (.store (.addr (.var .out) .Hostname) (.addr (.var .sm) .hostname)) .skip) <|
  .seq (.ifs (.and (.bin .ne (.field (.var .sm) .tag) (.lit (.str (ascii "-")))) (.bin .ne (.field (.var .sm) .tag) (.lit (.str [])))) (.store (.addr (.var .out) .Appname) (.addr (.var .sm) .tag)) .skip) <|
  .seq (.ifs (.and (.bin .ne (.field (.var .sm) .content) (.lit (.str (ascii "-")))) (.bin .ne (.field (.var .sm) .content) (.lit (.str [])))) (.store (.addr (.var .out) .ProcID) (.addr (.var .sm) .content)) .skip) <|
  .seq (.ifs (.bin .ne (.field (.var .sm) .message) (.lit (.str []))) (.store (.addr (.var .out) .Message) (.addr (.var .sm) .message)) .skip) <|
  .ret (.var .out))⟩

/-- `func NewMachine` (rfc3164/machine.go:43-51) -/
def rfc3164_NewMachine : Fn := ⟨[.options],
  (.seq (.assign .m (.new (.lit Zero.rfc3164_machine))) <|
  .seq (.range none (some .opt) (.var .options) (.expr (.callVal (.var .opt) (.cons (.var .m) .unit)))) <|
  .ret (.var .m))⟩

/-- `func (m *machine) WithBestEffort` (rfc3164/machine.go:54-56) -/
def rfc3164_machine_WithBestEffort : Fn := ⟨[.m],
  (.store (.addr (.var .m) .bestEffort) (.lit (.bool true)))⟩

/-- `func (m *machine) HasBestEffort` (rfc3164/machine.go:59-61) -/
def rfc3164_machine_HasBestEffort : Fn := ⟨[.m],
  (.ret (.field (.var .m) .bestEffort))⟩

/-- `func (m *machine) WithYear` (rfc3164/machine.go:64-66) -/
def rfc3164_machine_WithYear : Fn := ⟨[.m, .o],
  (.store (.addr (.var .m) .yyyy) (.call .rfc3164_YearOperation_Operate (.cons (.mk Zero.rfc3164_YearOperation [.Operator] (.cons (.var .o) .unit)) .unit)))⟩

/-- `func (m *machine) WithTimezone` (rfc3164/machine.go:69-71) -/
def rfc3164_machine_WithTimezone : Fn := ⟨[.m, .loc],
  (.store (.addr (.var .m) .loc) (.var .loc))⟩

/-- `func (m *machine) WithLocaleTimezone` (rfc3164/machine.go:74-76) -/
def rfc3164_machine_WithLocaleTimezone : Fn := ⟨[.m, .loc],
  (.store (.addr (.var .m) .timezone) (.var .loc))⟩

/-- `func (m *machine) WithRFC3339` (rfc3164/machine.go:81-83) -/
def rfc3164_machine_WithRFC3339 : Fn := ⟨[.m],
  (.store (.addr (.var .m) .rfc3339) (.lit (.bool true)))⟩

/-- `func (m *machine) Err` (rfc3164/machine.go:88-90) -/
def rfc3164_machine_Err : Fn := ⟨[.m],
  (.ret (.field (.var .m) .err))⟩

/-- `func (m *machine) text` (rfc3164/machine.go:92-94) -/
def rfc3164_machine_text : Fn := ⟨[.m],
  (.ret (.sub (.field (.var .m) .data) (.field (.var .m) .pb) (.field (.var .m) .p)))⟩

/-- `func WithBestEffort` (rfc3164/options.go:10-15) -/
def rfc3164_WithBestEffort : Fn := ⟨[],
  (.ret (.clo .rfc3164_WithBestEffort_fn .unit))⟩

/-- `the closure in WithBestEffort` (rfc3164/options.go:10-15) -/
def rfc3164_WithBestEffort_fn : Fn := ⟨[.m],
  (.seq (.expr (.dyn (.var .m) .WithBestEffort .unit)) <|
  .ret (.var .m))⟩

/-- `func WithYear` (rfc3164/options.go:18-23) -/
def rfc3164_WithYear : Fn := ⟨[.o],
  (.ret (.clo .rfc3164_WithYear_fn (.cons (.var .o) .unit)))⟩

/-- `the closure in WithYear` (rfc3164/options.go:18-23) -/
def rfc3164_WithYear_fn : Fn := ⟨[.o, .m],
  (.seq (.expr (.call .rfc3164_machine_WithYear (.cons (.var .m) (.cons (.var .o) .unit)))) <|
  .ret (.var .m))⟩

/-- `func WithTimezone` (rfc3164/options.go:26-31) -/
def rfc3164_WithTimezone : Fn := ⟨[.loc],
  (.ret (.clo .rfc3164_WithTimezone_fn (.cons (.var .loc) .unit)))⟩

/-- `the closure in WithTimezone` (rfc3164/options.go:26-31) -/
def rfc3164_WithTimezone_fn : Fn := ⟨[.loc, .m],
  (.seq (.expr (.call .rfc3164_machine_WithTimezone (.cons (.var .m) (.cons (.var .loc) .unit)))) <|
  .ret (.var .m))⟩

/-- `func WithLocaleTimezone` (rfc3164/options.go:34-39) -/
def rfc3164_WithLocaleTimezone : Fn := ⟨[.loc],
  (.ret (.clo .rfc3164_WithLocaleTimezone_fn (.cons (.var .loc) .unit)))⟩

/-- `the closure in WithLocaleTimezone` (rfc3164/options.go:34-39) -/
def rfc3164_WithLocaleTimezone_fn : Fn := ⟨[.loc, .m],
  (.seq (.expr (.call .rfc3164_machine_WithLocaleTimezone (.cons (.var .m) (.cons (.var .loc) .unit)))) <|
  .ret (.var .m))⟩

/-- `func WithRFC3339` (rfc3164/options.go:63-68) -/
def rfc3164_WithRFC3339 : Fn := ⟨[],
  (.ret (.clo .rfc3164_WithRFC3339_fn .unit))⟩

/-- `the closure in WithRFC3339` (rfc3164/options.go:63-68) -/
def rfc3164_WithRFC3339_fn : Fn := ⟨[.m],
  (.seq (.expr (.call .rfc3164_machine_WithRFC3339 (.cons (.var .m) .unit))) <|
  .ret (.var .m))⟩

/-- `func (y YearOperation) Operate` (rfc3164/year.go:18-20) -/
def rfc3164_YearOperation_Operate : Fn := ⟨[.y],
  (.ret (.dyn (.field (.var .y) .Operator) .Apply .unit))⟩

/-- `func (CurrentYear) Apply` (rfc3164/year.go:26-28) -/
def rfc3164_CurrentYear_Apply : Fn := ⟨[.unused],
  (.ret (.call .time_Year (.cons (.call .time_Now .unit) .unit)))⟩

/-- `func (y Year) Apply` (rfc3164/year.go:36-38) -/
def rfc3164_Year_Apply : Fn := ⟨[.y],
  (.ret (.field (.var .y) .YYYY))⟩

/-- `func NewParser` (rfc3164/parser.go:16-22) -/
def rfc3164_NewParser : Fn := ⟨[.options],
  (.seq (.assign .p (.new (.mk Zero.rfc3164_parser [.machine] (.cons (.call .rfc3164_NewMachine (.cons (.var .options) .unit)) .unit)))) <|
  .ret (.var .p))⟩

/-- `func (p *parser) HasBestEffort` (rfc3164/parser.go:25-27) -/
def rfc3164_parser_HasBestEffort : Fn := ⟨[.p],
  (.ret (.field (.field (.var .p) .machine) .bestEffort))⟩

/-- `func (p *parser) Parse` (rfc3164/parser.go:32-45) -/
def rfc3164_parser_Parse : Fn := ⟨[.p, .input],
  (.seq (.expr (.call .sync_Lock (.cons (.addr (.var .p) .Mutex) .unit))) <|
  .deferd (.call .sync_Unlock (.cons (.addr (.var .p) .Mutex) .unit)) (.seq (.multi [some .msg, some .err] (.call .rfc3164_machine_Parse (.cons (.field (.var .p) .machine) (.cons (.var .input) .unit)))) <|
  .seq (.ifs (.bin .ne (.var .err) (.lit .nil)) (.seq (.ifs (.field (.field (.var .p) .machine) .bestEffort) (.ret (.cons (.var .msg) (.cons (.var .err) .unit))) .skip) <|
    .ret (.cons (.lit .nil) (.cons (.var .err) .unit))) .skip) <|
  .ret (.cons (.var .msg) (.cons (.lit .nil) .unit))))⟩

/-- `func (t Token) String` (octetcounting/tokens.go:26-33) -/
def octetcounting_Token_String : Fn := ⟨[.t],
  (.seq (.assign .tmp1 (.field (.var .t) .typ)) <|
  .ifs (.or (.bin .eq (.var .tmp1) (.lit (.int .int 2))) (.bin .eq (.var .tmp1) (.lit (.int .int 1)))) (.ret (.call .octetcounting_TokenType_String (.cons (.field (.var .t) .typ) .unit))) (.ret (.bin .add (.bin .add (.bin .add (.call .octetcounting_TokenType_String (.cons (.field (.var .t) .typ) .unit)) (.lit (.str (ascii "(")))) (.toStr (.field (.var .t) .lit))) (.lit (.str (ascii ")"))))))⟩

/-- `func (i TokenType) String` (octetcounting/tokens.go:40-45) -/
def octetcounting_TokenType_String : Fn := ⟨[.i],
  (.seq (.ifs (.or (.bin .lt (.var .i) (.lit (.int .const 0))) (.bin .ge (.var .i) (.conv .int (.bin .sub (.len (.lit (.arr [.int .u8 0, .int .u8 7, .int .u8 10, .int .u8 12, .int .u8 18, .int .u8 27]))) (.lit (.int .const 1)))))) (.ret (.bin .add (.bin .add (.lit (.str (ascii "TokenType("))) (.call .strconv_FormatInt (.cons (.conv .int (.var .i)) (.cons (.lit (.int .const 10)) .unit)))) (.lit (.str (ascii ")"))))) .skip) <|
  .ret (.sub (.lit (.str (ascii "ILLEGALEOFWSMSGLENSYSLOGMSG"))) (.index (.lit (.arr [.int .u8 0, .int .u8 7, .int .u8 10, .int .u8 12, .int .u8 18, .int .u8 27])) (.var .i)) (.index (.lit (.arr [.int .u8 0, .int .u8 7, .int .u8 10, .int .u8 12, .int .u8 18, .int .u8 27])) (.bin .add (.var .i) (.lit (.int .const 1))))))⟩

/-- `func isDigit` (octetcounting/scanner.go:20-22) -/
def octetcounting_isDigit : Fn := ⟨[.ch],
  (.ret (.and (.bin .ge (.var .ch) (.lit (.int .const 47))) (.bin .le (.var .ch) (.lit (.int .const 57)))))⟩

/-- `func isNonZeroDigit` (octetcounting/scanner.go:25-27) -/
def octetcounting_isNonZeroDigit : Fn := ⟨[.ch],
  (.ret (.and (.bin .ge (.var .ch) (.lit (.int .const 48))) (.bin .le (.var .ch) (.lit (.int .const 57)))))⟩

/-- `func NewScanner` (octetcounting/scanner.go:37-41) -/
def octetcounting_NewScanner : Fn := ⟨[.r, .maxLength],
  (.ret (.new (.mk Zero.octetcounting_Scanner [.r] (.cons (.call .bufio_NewReaderSize (.cons (.var .r) (.cons (.bin .add (.var .maxLength) (.lit (.int .const 20))) .unit))) .unit))))⟩

/-- `func (s *Scanner) read` (octetcounting/scanner.go:45-51) -/
def octetcounting_Scanner_read : Fn := ⟨[.s],
  (.seq (.multi [some .b, some .err] (.call .bufio_ReadByte (.cons (.field (.var .s) .r) .unit))) <|
  .seq (.ifs (.bin .ne (.var .err) (.lit .nil)) (.ret (.lit (.int .u8 0))) .skip) <|
  .ret (.var .b))⟩

/-- `func (s *Scanner) unread` (octetcounting/scanner.go:54-56) -/
def octetcounting_Scanner_unread : Fn := ⟨[.s],
  (.expr (.call .bufio_UnreadByte (.cons (.field (.var .s) .r) .unit)))⟩

/-- `func (s *Scanner) Scan` (octetcounting/scanner.go:59-93) -/
def octetcounting_Scanner_Scan : Fn := ⟨[.s],
  (.seq (.assign .tok (.lit (Zero.octetcounting_Token))) <|
  (.seq (.assign .b (.call .octetcounting_Scanner_read (.cons (.var .s) .unit))) <|
  .seq (.ifs (.call .octetcounting_isNonZeroDigit (.cons (.var .b) .unit)) (.seq (.expr (.call .octetcounting_Scanner_unread (.cons (.var .s) .unit))) <|
    .seq (.store (.addr (.var .s) .ready) (.lit (.bool false))) <|
    .ret (.call .octetcounting_Scanner_scanMsgLen (.cons (.var .s) .unit))) .skip) <|
  .seq (.assign .tmp1 (.var .b)) <|
  .seq (.ifs (.bin .eq (.var .tmp1) (.lit (.int .u8 0))) (.seq (.store (.addr (.var .s) .ready) (.lit (.bool false))) <|
    .ret (.mk Zero.octetcounting_Token [.typ] (.cons (.lit (.int .int 1)) .unit))) (.ifs (.bin .eq (.var .tmp1) (.lit (.int .u8 32))) (.seq (.store (.addr (.var .s) .ready) (.lit (.bool true))) <|
    .ret (.mk Zero.octetcounting_Token [.typ, .lit] (.cons (.lit (.int .int 2)) (.cons (.byteLit (.cons (.lit (.int .u8 32)) .unit)) .unit)))) (.ifs (.bin .eq (.var .tmp1) (.lit (.int .u8 60))) (.ifs (.and (.bin .gt (.field (.var .s) .msglen) (.lit (.int .const 0))) (.field (.var .s) .ready)) (.seq (.expr (.call .octetcounting_Scanner_unread (.cons (.var .s) .unit))) <|
      .ret (.call .octetcounting_Scanner_scanSyslogMsg (.cons (.var .s) .unit))) .skip) .skip))) <|
  .ret (.mk Zero.octetcounting_Token [.typ, .lit] (.cons (.lit (.int .int 0)) (.cons (.byteLit (.cons (.var .b) .unit)) .unit)))))⟩

/-- `func (s *Scanner) scanMsgLen` (octetcounting/scanner.go:95-120) -/
def octetcounting_Scanner_scanMsgLen : Fn := ⟨[.s],
  (.seq (.assign .buf (.new (.lit (.str [])))) <|
  .seq (.expr (.call .bytes_WriteByte (.cons (.var .buf) (.cons (.call .octetcounting_Scanner_read (.cons (.var .s) .unit)) .unit)))) <|
  .seq (.forc (.lit (.bool true)) .skip (.seq (.assign .b (.call .octetcounting_Scanner_read (.cons (.var .s) .unit))) <|
    .ifs (.bin .eq (.var .b) (.lit (.int .u8 0))) .brk (.ifs (.not (.call .octetcounting_isDigit (.cons (.var .b) .unit))) (.seq (.expr (.call .octetcounting_Scanner_unread (.cons (.var .s) .unit))) <|
        .brk) (.expr (.call .bytes_WriteByte (.cons (.var .buf) (.cons (.var .b) .unit))))))) <|
  .seq (.assign .msglen (.call .bytes_String (.cons (.var .buf) .unit))) <|
  .seq (.multi [some .tmp1, none] (.call .strconv_ParseUint (.cons (.var .msglen) (.cons (.lit (.int .const 10)) (.cons (.lit (.int .const 64)) .unit))))) <|
  .seq (.store (.addr (.var .s) .msglen) (.var .tmp1)) <|
  .ret (.mk Zero.octetcounting_Token [.typ, .lit] (.cons (.lit (.int .int 3)) (.cons (.call .bytes_Bytes (.cons (.var .buf) .unit)) .unit))))⟩

/-- `func (s *Scanner) scanSyslogMsg` (octetcounting/scanner.go:122-144) -/
def octetcounting_Scanner_scanSyslogMsg : Fn := ⟨[.s],
  (.seq (.assign .n (.conv .int (.field (.var .s) .msglen))) <|
  .seq (.multi [some .b, some .err] (.call .bufio_Peek (.cons (.field (.var .s) .r) (.cons (.var .n) .unit)))) <|
  .seq (.ifs (.bin .ne (.var .err) (.lit .nil)) (.ret (.mk Zero.octetcounting_Token [.typ, .lit] (.cons (.lit (.int .int 1)) (.cons (.var .b) .unit)))) .skip) <|
  .seq (.expr (.call .bufio_Discard (.cons (.field (.var .s) .r) (.cons (.var .n) .unit)))) <|
  .seq (.store (.addr (.var .s) .ready) (.lit (.bool false))) <|
  .seq (.store (.addr (.var .s) .msglen) (.lit (.int .const 0))) <|
  .ret (.mk Zero.octetcounting_Token [.typ, .lit] (.cons (.lit (.int .int 4)) (.cons (.var .b) .unit))))⟩

/-- `func NewParser` (octetcounting/parser.go:26-44) -/
def octetcounting_NewParser : Fn := ⟨[.opts],
  (.seq (.assign .p (.new (.mk Zero.octetcounting_parser [.emit, .maxMessageLength] (.cons (.clo .octetcounting_NewParser_fn .unit) (.cons (.lit (.int .const 8192)) .unit))))) <|
  .seq (.range none (some .opt) (.var .opts) (.assign .p (.callVal (.var .opt) (.cons (.var .p) .unit)))) <|
  .seq (.ifs (.field (.var .p) .bestEffort) (.store (.addr (.var .p) .internal) (.call .rfc5424_NewMachine (.cons (.sliceLit (.cons (.call .rfc5424_WithBestEffort .unit) .unit)) .unit))) (.store (.addr (.var .p) .internal) (.call .rfc5424_NewMachine (.cons (.sliceLit .unit) .unit)))) <|
  .ret (.var .p))⟩

/-- `the closure in NewParser` (octetcounting/parser.go:26-44) -/
def octetcounting_NewParser_fn : Fn := ⟨[.unused],
  .skip⟩

/-- `func (p *parser) WithMaxMessageLength` (octetcounting/parser.go:46-48) -/
def octetcounting_parser_WithMaxMessageLength : Fn := ⟨[.p, .length],
  (.store (.addr (.var .p) .maxMessageLength) (.var .length))⟩

/-- `func (p *parser) HasBestEffort` (octetcounting/parser.go:51-53) -/
def octetcounting_parser_HasBestEffort : Fn := ⟨[.p],
  (.ret (.field (.var .p) .bestEffort))⟩

/-- `func (p *parser) WithBestEffort` (octetcounting/parser.go:58-60) -/
def octetcounting_parser_WithBestEffort : Fn := ⟨[.p],
  (.store (.addr (.var .p) .bestEffort) (.lit (.bool true)))⟩

/-- `func (p *parser) WithListener` (octetcounting/parser.go:65-67) -/
def octetcounting_parser_WithListener : Fn := ⟨[.p, .f],
  (.store (.addr (.var .p) .emit) (.var .f))⟩

/-- `func (p *parser) Parse` (octetcounting/parser.go:72-75) -/
def octetcounting_parser_Parse : Fn := ⟨[.p, .r],
  (.seq (.store (.addr (.var .p) .s) (.deref (.call .octetcounting_NewScanner (.cons (.var .r) (.cons (.field (.var .p) .maxMessageLength) .unit))))) <|
  .expr (.call .octetcounting_parser_run (.cons (.var .p) .unit)))⟩

/-- `func (p *parser) run` (octetcounting/parser.go:77-141) -/
def octetcounting_parser_run : Fn := ⟨[.p],
  (.forc (.lit (.bool true)) .skip (.seq (.assign .tok (.lit (Zero.octetcounting_Token))) <|
    .seq (.assign .tok (.call .octetcounting_parser_scan (.cons (.var .p) .unit))) <|
    .seq (.ifs (.bin .ne (.field (.var .tok) .typ) (.lit (.int .int 3))) (.seq (.expr (.callVal (.field (.var .p) .emit) (.cons (.new (.mk Zero.syslog_Result [.Error] (.cons (.call .fmt_Errorf (.cons (.lit (.str (ascii "found %s, expecting a %s"))) (.cons (.var .tok) (.cons (.lit (.int .int 3)) .unit)))) .unit))) .unit))) <|
      .brk) .skip) <|
    .seq (.ifs (.bin .gt (.conv .int (.field (.field (.var .p) .s) .msglen)) (.field (.var .p) .maxMessageLength)) (.seq (.expr (.callVal (.field (.var .p) .emit) (.cons (.new (.mk Zero.syslog_Result [.Error] (.cons (.call .fmt_Errorf (.cons (.lit (.str (ascii "message too long to parse. was size %d, max length %d"))) (.cons (.field (.field (.var .p) .s) .msglen) (.cons (.field (.var .p) .maxMessageLength) .unit)))) .unit))) .unit))) <|
      .brk) .skip) <|
    .seq (.assign .tok (.call .octetcounting_parser_scan (.cons (.var .p) .unit))) <|
    .seq (.ifs (.bin .ne (.field (.var .tok) .typ) (.lit (.int .int 2))) (.seq (.expr (.callVal (.field (.var .p) .emit) (.cons (.new (.mk Zero.syslog_Result [.Error] (.cons (.call .fmt_Errorf (.cons (.lit (.str (ascii "found %s, expecting a %s"))) (.cons (.var .tok) (.cons (.lit (.int .int 2)) .unit)))) .unit))) .unit))) <|
      .brk) .skip) <|
    .seq (.assign .tok (.call .octetcounting_parser_scan (.cons (.var .p) .unit))) <|
    .seq (.ifs (.bin .ne (.field (.var .tok) .typ) (.lit (.int .int 4))) (.seq (.assign .e (.call .fmt_Errorf (.cons (.lit (.str (ascii "found %s after \"%s\", expecting a %s containing %d octets"))) (.cons (.var .tok) (.cons (.field (.var .tok) .lit) (.cons (.lit (.int .int 4)) (.cons (.field (.field (.var .p) .s) .msglen) .unit))))))) <|
      .seq (.ifs (.and (.bin .lt (.len (.field (.var .tok) .lit)) (.conv .int (.field (.field (.var .p) .s) .msglen))) (.field (.var .p) .bestEffort)) (.seq (.assign .result (.call .octetcounting_parser_parse (.cons (.var .p) (.cons (.field (.var .tok) .lit) .unit)))) <|
        .seq (.ifs (.bin .eq (.field (.var .result) .Error) (.lit .nil)) (.store (.addr (.var .result) .Error) (.var .e)) .skip) <|
        .seq (.expr (.callVal (.field (.var .p) .emit) (.cons (.var .result) .unit))) <|
        .brk) .skip) <|
      .seq (.expr (.callVal (.field (.var .p) .emit) (.cons (.new (.mk Zero.syslog_Result [.Error] (.cons (.var .e) .unit))) .unit))) <|
      .brk) .skip) <|
    .seq (.assign .result_2 (.call .octetcounting_parser_parse (.cons (.var .p) (.cons (.field (.var .tok) .lit) .unit)))) <|
    .seq (.ifs (.or (.field (.var .p) .bestEffort) (.bin .eq (.field (.var .result_2) .Error) (.lit .nil))) (.expr (.callVal (.field (.var .p) .emit) (.cons (.var .result_2) .unit))) .skip) <|
    .seq (.ifs (.and (.not (.field (.var .p) .bestEffort)) (.bin .ne (.field (.var .result_2) .Error) (.lit .nil))) (.seq (.expr (.callVal (.field (.var .p) .emit) (.cons (.new (.mk Zero.syslog_Result [.Error] (.cons (.field (.var .result_2) .Error) .unit))) .unit))) <|
      .brk) .skip) <|
    .seq (.assign .tok (.call .octetcounting_parser_scan (.cons (.var .p) .unit))) <|
    .ifs (.bin .eq (.field (.var .tok) .typ) (.lit (.int .int 1))) .brk (.expr (.call .octetcounting_parser_unscan (.cons (.var .p) .unit)))))⟩

/-- `func (p *parser) parse` (octetcounting/parser.go:143-150) -/
def octetcounting_parser_parse : Fn := ⟨[.p, .input],
  (.seq (.multi [some .sys, some .err] (.call .rfc5424_machine_Parse (.cons (.field (.var .p) .internal) (.cons (.var .input) .unit)))) <|
  .ret (.new (.mk Zero.syslog_Result [.Message, .Error] (.cons (.var .sys) (.cons (.var .err) .unit)))))⟩

/-- `func (p *parser) scan` (octetcounting/parser.go:154-168) -/
def octetcounting_parser_scan : Fn := ⟨[.p],
  (.seq (.ifs (.field (.var .p) .stepback) (.seq (.store (.addr (.var .p) .stepback) (.lit (.bool false))) <|
    .ret (.field (.var .p) .last)) .skip) <|
  .seq (.assign .tok (.call .octetcounting_Scanner_Scan (.cons (.addr (.var .p) .s) .unit))) <|
  .seq (.store (.addr (.var .p) .last) (.var .tok)) <|
  .ret (.var .tok))⟩

/-- `func (p *parser) unscan` (octetcounting/parser.go:171-173) -/
def octetcounting_parser_unscan : Fn := ⟨[.p],
  (.store (.addr (.var .p) .stepback) (.lit (.bool true)))⟩

/-- `func NewParser` (nontransparent/parser.go:198-219) -/
def nontransparent_NewParser : Fn := ⟨[.options],
  (.seq (.assign .m (.new (.mk Zero.nontransparent_machine [.emit] (.cons (.clo .nontransparent_NewParser_fn .unit) .unit)))) <|
  .seq (.range none (some .opt) (.var .options) (.assign .m (.callVal (.var .opt) (.cons (.var .m) .unit)))) <|
  .seq (.multi [some .trailer, none] (.call .nontransparent_TrailerType_Value (.cons (.field (.var .m) .trailertyp) .unit))) <|
  .seq (.store (.addr (.var .m) .trailer) (.conv .u8 (.var .trailer))) <|
  .seq (.ifs (.field (.var .m) .bestEffort) (.store (.addr (.var .m) .internal) (.call .rfc5424_NewMachine (.cons (.sliceLit (.cons (.call .rfc5424_WithBestEffort .unit) .unit)) .unit))) (.store (.addr (.var .m) .internal) (.call .rfc5424_NewMachine (.cons (.sliceLit .unit) .unit)))) <|
  .ret (.var .m))⟩

/-- `the closure in NewParser` (nontransparent/parser.go:198-219) -/
def nontransparent_NewParser_fn : Fn := ⟨[.unused],
  .skip⟩

/-- `func WithTrailer` (nontransparent/parser.go:230-238) -/
def nontransparent_WithTrailer : Fn := ⟨[.t],
  (.ret (.clo .nontransparent_WithTrailer_fn (.cons (.var .t) .unit)))⟩

/-- `the closure in WithTrailer` (nontransparent/parser.go:230-238) -/
def nontransparent_WithTrailer_fn : Fn := ⟨[.t, .m],
  (.seq (.multi [some .val, some .err] (.call .nontransparent_TrailerType_Value (.cons (.var .t) .unit))) <|
  .seq (.ifs (.bin .eq (.var .err) (.lit .nil)) (.seq (.store (.addr (.var .m) .trailer) (.conv .u8 (.var .val))) <|
    .store (.addr (.var .m) .trailertyp) (.var .t)) .skip) <|
  .ret (.var .m))⟩

/-- `func (m *machine) OnErr` (nontransparent/parser.go:171-175) -/
def nontransparent_machine_OnErr : Fn := ⟨[.m, .chunk, .err],
  (.seq (.store (.addr (.var .m) .lastChunk) (.var .chunk)) <|
  .store (.addr (.var .m) .readError) (.var .err))⟩

/-- `func (m *machine) OnEOF` (nontransparent/parser.go:177-178) -/
def nontransparent_machine_OnEOF : Fn := ⟨[.m, .chunk],
  .skip⟩

/-- `func (m *machine) OnCompletion` (nontransparent/parser.go:180-195) -/
def nontransparent_machine_OnCompletion : Fn := ⟨[.m],
  (.seq (.ifs (.bin .gt (.len (.field (.var .m) .candidate)) (.lit (.int .const 0))) (.expr (.call .nontransparent_machine_process (.cons (.var .m) .unit))) .skip) <|
  .ifs (.and (.bin .ne (.field (.var .m) .readError) (.lit .nil)) (.bin .gt (.len (.field (.var .m) .lastChunk)) (.lit (.int .const 0)))) (.seq (.multi [some .res, some .err] (.call .rfc5424_machine_Parse (.cons (.field (.var .m) .internal) (.cons (.field (.var .m) .lastChunk) .unit)))) <|
    .seq (.ifs (.bin .eq (.var .err) (.lit .nil)) (.assign .err (.field (.var .m) .readError)) .skip) <|
    .expr (.callVal (.field (.var .m) .emit) (.cons (.new (.mk Zero.syslog_Result [.Message, .Error] (.cons (.var .res) (.cons (.var .err) .unit)))) .unit))) .skip)⟩

/-- `func (m *machine) WithMaxMessageLength` (nontransparent/parser.go:222-222) -/
def nontransparent_machine_WithMaxMessageLength : Fn := ⟨[.m, .length],
  .skip⟩

/-- `func (m *machine) HasBestEffort` (nontransparent/parser.go:225-227) -/
def nontransparent_machine_HasBestEffort : Fn := ⟨[.m],
  (.ret (.field (.var .m) .bestEffort))⟩

/-- `func (m *machine) WithBestEffort` (nontransparent/parser.go:243-245) -/
def nontransparent_machine_WithBestEffort : Fn := ⟨[.m],
  (.store (.addr (.var .m) .bestEffort) (.lit (.bool true)))⟩

/-- `func (m *machine) WithListener` (nontransparent/parser.go:250-252) -/
def nontransparent_machine_WithListener : Fn := ⟨[.m, .f],
  (.store (.addr (.var .m) .emit) (.var .f))⟩

/-- `func (m *machine) Parse` (nontransparent/parser.go:257-260) -/
def nontransparent_machine_Parse : Fn := ⟨[.m, .reader],
  (.seq (.assign .r (.call .ragel_ArbitraryReader (.cons (.var .reader) (.cons (.field (.var .m) .trailer) .unit)))) <|
  .expr (.call .ragel_Parse (.cons (.call .ragel_New (.cons (.var .r) (.cons (.var .m) (.cons (.call .ragel_WithStart (.cons (.lit (.int .const 1)) .unit)) .unit)))) .unit)))⟩

/-- `func (m *machine) process` (nontransparent/parser.go:262-272) -/
def nontransparent_machine_process : Fn := ⟨[.m],
  (.seq (.assign .lastByte (.bin .sub (.len (.field (.var .m) .candidate)) (.lit (.int .const 1)))) <|
  .seq (.ifs (.bin .eq (.index (.field (.var .m) .candidate) (.var .lastByte)) (.field (.var .m) .trailer)) (.store (.addr (.var .m) .candidate) (.sub (.field (.var .m) .candidate) (.lit .nil) (.var .lastByte))) .skip) <|
  .seq (.multi [some .res, some .err] (.call .rfc5424_machine_Parse (.cons (.field (.var .m) .internal) (.cons (.field (.var .m) .candidate) .unit)))) <|
  .expr (.callVal (.field (.var .m) .emit) (.cons (.new (.mk Zero.syslog_Result [.Message, .Error] (.cons (.var .res) (.cons (.var .err) .unit)))) .unit)))⟩

/-- `func (t TrailerType) String` (nontransparent/trailer_type.go:21-27) -/
def nontransparent_TrailerType_String : Fn := ⟨[.t],
  (.seq (.ifs (.or (.bin .lt (.var .t) (.lit (.int .int 0))) (.bin .gt (.var .t) (.lit (.int .int 1)))) (.ret (.lit (.str []))) .skip) <|
  .ret (.index (.lit (.arr [.str (ascii "LF"), .str (ascii "NUL")])) (.var .t)))⟩

/-- `func (t TrailerType) Value` (nontransparent/trailer_type.go:30-36) -/
def nontransparent_TrailerType_Value : Fn := ⟨[.t],
  (.seq (.ifs (.or (.bin .lt (.var .t) (.lit (.int .int 0))) (.bin .gt (.var .t) (.lit (.int .int 1)))) (.ret (.cons (.lit (.int .const (-1))) (.cons (.call .fmt_Errorf (.cons (.lit (.str (ascii "unknown TrailerType"))) .unit)) .unit))) .skip) <|
  .ret (.cons (.index (.lit (.arr [.int .int 10, .int .int 0])) (.var .t)) (.cons (.lit .nil) .unit)))⟩

/-- `func (t *TrailerType) UnmarshalTOML` (nontransparent/trailer_type.go:59-61) -/
def nontransparent_TrailerType_UnmarshalTOML : Fn := ⟨[.t, .data],
  (.seq (.assign .err (.lit (.nil))) <|
  (.ret (.call .nontransparent_TrailerType_UnmarshalText (.cons (.var .t) (.cons (.var .data) .unit)))))⟩

/-- `func (t *TrailerType) UnmarshalText` (nontransparent/trailer_type.go:64-67) -/
def nontransparent_TrailerType_UnmarshalText : Fn := ⟨[.t, .data],
  (.seq (.assign .err (.lit (.nil))) <|
  (.seq (.multi [some .tmp1, some .err] (.call .nontransparent_TrailerTypeFromString (.cons (.toStr (.var .data)) .unit))) <|
  .seq (.store (.var .t) (.var .tmp1)) <|
  .ret (.var .err)))⟩

/-- `func (t TrailerType) MarshalText` (nontransparent/trailer_type.go:70-76) -/
def nontransparent_TrailerType_MarshalText : Fn := ⟨[.t],
  (.seq (.assign .s (.call .nontransparent_TrailerType_String (.cons (.var .t) .unit))) <|
  .seq (.ifs (.bin .ne (.var .s) (.lit (.str []))) (.ret (.cons (.toBytes (.var .s)) (.cons (.lit .nil) .unit))) .skip) <|
  .ret (.cons (.lit .nil) (.cons (.call .fmt_Errorf (.cons (.lit (.str (ascii "unknown TrailerType"))) .unit)) .unit)))⟩

/-- `func TrailerTypeFromString` (nontransparent/trailer_type.go:39-56) -/
def nontransparent_TrailerTypeFromString : Fn := ⟨[.s],
  (.seq (.assign .tmp1 (.call .strings_ToUpper (.cons (.var .s) .unit))) <|
  .seq (.ifs (.or (.or (.bin .eq (.var .tmp1) (.lit (.str (ascii "\"LF\"")))) (.bin .eq (.var .tmp1) (.lit (.str (ascii "'LF'"))))) (.bin .eq (.var .tmp1) (.lit (.str (ascii "LF"))))) (.ret (.cons (.lit (.int .int 0)) (.cons (.lit .nil) .unit))) (.ifs (.or (.or (.bin .eq (.var .tmp1) (.lit (.str (ascii "\"NUL\"")))) (.bin .eq (.var .tmp1) (.lit (.str (ascii "'NUL'"))))) (.bin .eq (.var .tmp1) (.lit (.str (ascii "NUL"))))) (.ret (.cons (.lit (.int .int 1)) (.cons (.lit .nil) .unit))) .skip)) <|
  .ret (.cons (.lit (.int .const (-1))) (.cons (.call .fmt_Errorf (.cons (.lit (.str (ascii "unknown TrailerType"))) .unit)) .unit)))⟩

/-- `func RandomBytes` (testing/testing.go:21-38) -/
def testing_RandomBytes : Fn := ⟨[.n],
  (.seq (.assign .src (.call .rand_NewSource (.cons (.call .time_UnixNano (.cons (.call .time_Now .unit) .unit)) .unit))) <|
  .seq (.assign .b (.makeBytes (.var .n))) <|
  .seq (.assign .tmp1 (.bin .sub (.var .n) (.lit (.int .const 1)))) <|
  .seq (.assign .tmp2 (.call .rand_Int63 (.cons (.var .src) .unit))) <|
  .seq (.assign .tmp3 (.lit (.int .int 10))) <|
  .seq (.assign .i (.var .tmp1)) <|
  .seq (.assign .cache (.var .tmp2)) <|
  .seq (.assign .remain (.var .tmp3)) <|
  .seq (.forc (.bin .ge (.var .i) (.lit (.int .const 0))) .skip (.seq (.ifs (.bin .eq (.var .remain) (.lit (.int .const 0))) (.seq (.assign .tmp4 (.call .rand_Int63 (.cons (.var .src) .unit))) <|
      .seq (.assign .tmp5 (.lit (.int .int 10))) <|
      .seq (.assign .cache (.var .tmp4)) <|
      .assign .remain (.var .tmp5)) .skip) <|
    .seq (.assign .idx (.conv .int (.bin .band (.var .cache) (.lit (.int .const 63))))) <|
    .seq (.ifs (.bin .lt (.var .idx) (.len (.lit (.str (ascii "abcdefghijklmnopqrstuvwxyzABCDEFGHIJKLMNOPQRSTUVWXYZ"))))) (.seq (.setIdx (.var .b) (.var .i) (.index (.lit (.str (ascii "abcdefghijklmnopqrstuvwxyzABCDEFGHIJKLMNOPQRSTUVWXYZ"))) (.var .idx))) <|
      .assign .i (.bin .sub (.var .i) (.lit (.int .const 1)))) .skip) <|
    .seq (.assign .cache (.bin .shr (.var .cache) (.lit (.int .const 6)))) <|
    .assign .remain (.bin .sub (.var .remain) (.lit (.int .const 1))))) <|
  .ret (.var .b))⟩

/-- `func RightPad` (testing/testing.go:65-68) -/
def testing_RightPad : Fn := ⟨[.str, .limit],
  (.seq (.assign .str (.bin .add (.var .str) (.call .strings_Repeat (.cons (.lit (.str (ascii " "))) (.cons (.var .limit) .unit))))) <|
  .ret (.sub (.var .str) (.lit .nil) (.var .limit)))⟩

/-- `func StringAddress` (testing/testing.go:71-73) -/
def testing_StringAddress : Fn := ⟨[.str],
  (.seq (.assign .str (.new (.var .str))) <|
  (.ret (.var .str)))⟩

/-- `func Uint8Address` (testing/testing.go:76-78) -/
def testing_Uint8Address : Fn := ⟨[.x],
  (.seq (.assign .x (.new (.var .x))) <|
  (.ret (.var .x)))⟩

/-- `func TimeParse` (testing/testing.go:81-84) -/
def testing_TimeParse : Fn := ⟨[.layout, .value],
  (.seq (.multi [some .tmp1, none] (.call .time_Parse (.cons (.var .layout) (.cons (.var .value) .unit)))) <|
  .seq (.assign .t (.new (.var .tmp1))) <|
  .ret (.var .t))⟩

/-- `func YearTime` (testing/testing.go:87-89) -/
def testing_YearTime : Fn := ⟨[.mm, .dd, .hh, .min, .ss],
  (.ret (.call .time_Date (.cons (.call .time_Year (.cons (.call .time_Now .unit) .unit)) (.cons (.call .time_Month (.cons (.var .mm) .unit)) (.cons (.var .dd) (.cons (.var .hh) (.cons (.var .min) (.cons (.var .ss) (.cons (.lit (.int .const 0)) (.cons (.lit (.ext .utc)) .unit))))))))))⟩

/-- all functions; the names that are not here are those of other packages and of the functions that Ragel writes -/
def prog : Nm → Option Fn
  | .common_UnsafeUTF8DecimalCodePointsToInt => some common_UnsafeUTF8DecimalCodePointsToInt
  | .common_RemoveBytes => some common_RemoveBytes
  | .common_EscapeBytes => some common_EscapeBytes
  | .common_InBetween => some common_InBetween
  | .common_ValidPriority => some common_ValidPriority
  | .common_ValidVersion => some common_ValidVersion
  | .syslog_Base_Valid => some syslog_Base_Valid
  | .syslog_Base_ComputeFromPriority => some syslog_Base_ComputeFromPriority
  | .syslog_Base_FacilityMessage => some syslog_Base_FacilityMessage
  | .syslog_Base_FacilityLevel => some syslog_Base_FacilityLevel
  | .syslog_Base_SeverityMessage => some syslog_Base_SeverityMessage
  | .syslog_Base_SeverityLevel => some syslog_Base_SeverityLevel
  | .syslog_Base_SeverityShortLevel => some syslog_Base_SeverityShortLevel
  | .syslog_WithListener => some syslog_WithListener
  | .syslog_WithListener_fn => some syslog_WithListener_fn
  | .syslog_WithBestEffort => some syslog_WithBestEffort
  | .syslog_WithBestEffort_fn => some syslog_WithBestEffort_fn
  | .syslog_WithMaxMessageLength => some syslog_WithMaxMessageLength
  | .syslog_WithMaxMessageLength_fn => some syslog_WithMaxMessageLength_fn
  | .rfc5424_syslogMessage_minimal => some rfc5424_syslogMessage_minimal
  | .rfc5424_syslogMessage_export => some rfc5424_syslogMessage_export
  | .rfc5424_SyslogMessage_Valid => some rfc5424_SyslogMessage_Valid
  | .rfc5424_entrypoint_translate => some rfc5424_entrypoint_translate
  | .rfc5424_SyslogMessage_SetPriority => some rfc5424_SyslogMessage_SetPriority
  | .rfc5424_SyslogMessage_SetVersion => some rfc5424_SyslogMessage_SetVersion
  | .rfc5424_SyslogMessage_SetTimestamp => some rfc5424_SyslogMessage_SetTimestamp
  | .rfc5424_SyslogMessage_SetHostname => some rfc5424_SyslogMessage_SetHostname
  | .rfc5424_SyslogMessage_SetAppname => some rfc5424_SyslogMessage_SetAppname
  | .rfc5424_SyslogMessage_SetProcID => some rfc5424_SyslogMessage_SetProcID
  | .rfc5424_SyslogMessage_SetMsgID => some rfc5424_SyslogMessage_SetMsgID
  | .rfc5424_SyslogMessage_SetElementID => some rfc5424_SyslogMessage_SetElementID
  | .rfc5424_SyslogMessage_SetParameter => some rfc5424_SyslogMessage_SetParameter
  | .rfc5424_SyslogMessage_SetMessage => some rfc5424_SyslogMessage_SetMessage
  | .rfc5424_SyslogMessage_String => some rfc5424_SyslogMessage_String
  | .rfc5424_NewMachine => some rfc5424_NewMachine
  | .rfc5424_machine_WithBestEffort => some rfc5424_machine_WithBestEffort
  | .rfc5424_machine_HasBestEffort => some rfc5424_machine_HasBestEffort
  | .rfc5424_machine_Err => some rfc5424_machine_Err
  | .rfc5424_machine_text => some rfc5424_machine_text
  | .rfc5424_WithBestEffort => some rfc5424_WithBestEffort
  | .rfc5424_WithBestEffort_fn => some rfc5424_WithBestEffort_fn
  | .rfc5424_WithCompliantMsg => some rfc5424_WithCompliantMsg
  | .rfc5424_WithCompliantMsg_fn => some rfc5424_WithCompliantMsg_fn
  | .rfc5424_NewParser => some rfc5424_NewParser
  | .rfc5424_parser_HasBestEffort => some rfc5424_parser_HasBestEffort
  | .rfc5424_parser_Parse => some rfc5424_parser_Parse
  | .rfc3164_syslogMessage_minimal => some rfc3164_syslogMessage_minimal
  | .rfc3164_syslogMessage_export => some rfc3164_syslogMessage_export
  | .rfc3164_NewMachine => some rfc3164_NewMachine
  | .rfc3164_machine_WithBestEffort => some rfc3164_machine_WithBestEffort
  | .rfc3164_machine_HasBestEffort => some rfc3164_machine_HasBestEffort
  | .rfc3164_machine_WithYear => some rfc3164_machine_WithYear
  | .rfc3164_machine_WithTimezone => some rfc3164_machine_WithTimezone
  | .rfc3164_machine_WithLocaleTimezone => some rfc3164_machine_WithLocaleTimezone
  | .rfc3164_machine_WithRFC3339 => some rfc3164_machine_WithRFC3339
  | .rfc3164_machine_Err => some rfc3164_machine_Err
  | .rfc3164_machine_text => some rfc3164_machine_text
  | .rfc3164_WithBestEffort => some rfc3164_WithBestEffort
  | .rfc3164_WithBestEffort_fn => some rfc3164_WithBestEffort_fn
  | .rfc3164_WithYear => some rfc3164_WithYear
  | .rfc3164_WithYear_fn => some rfc3164_WithYear_fn
  | .rfc3164_WithTimezone => some rfc3164_WithTimezone
  | .rfc3164_WithTimezone_fn => some rfc3164_WithTimezone_fn
  | .rfc3164_WithLocaleTimezone => some rfc3164_WithLocaleTimezone
  | .rfc3164_WithLocaleTimezone_fn => some rfc3164_WithLocaleTimezone_fn
  | .rfc3164_WithRFC3339 => some rfc3164_WithRFC3339
  | .rfc3164_WithRFC3339_fn => some rfc3164_WithRFC3339_fn
  | .rfc3164_YearOperation_Operate => some rfc3164_YearOperation_Operate
  | .rfc3164_CurrentYear_Apply => some rfc3164_CurrentYear_Apply
  | .rfc3164_Year_Apply => some rfc3164_Year_Apply
  | .rfc3164_NewParser => some rfc3164_NewParser
  | .rfc3164_parser_HasBestEffort => some rfc3164_parser_HasBestEffort
  | .rfc3164_parser_Parse => some rfc3164_parser_Parse
  | .octetcounting_Token_String => some octetcounting_Token_String
  | .octetcounting_TokenType_String => some octetcounting_TokenType_String
  | .octetcounting_isDigit => some octetcounting_isDigit
  | .octetcounting_isNonZeroDigit => some octetcounting_isNonZeroDigit
  | .octetcounting_NewScanner => some octetcounting_NewScanner
  | .octetcounting_Scanner_read => some octetcounting_Scanner_read
  | .octetcounting_Scanner_unread => some octetcounting_Scanner_unread
  | .octetcounting_Scanner_Scan => some octetcounting_Scanner_Scan
  | .octetcounting_Scanner_scanMsgLen => some octetcounting_Scanner_scanMsgLen
  | .octetcounting_Scanner_scanSyslogMsg => some octetcounting_Scanner_scanSyslogMsg
  | .octetcounting_NewParser => some octetcounting_NewParser
  | .octetcounting_NewParser_fn => some octetcounting_NewParser_fn
  | .octetcounting_parser_WithMaxMessageLength => some octetcounting_parser_WithMaxMessageLength
  | .octetcounting_parser_HasBestEffort => some octetcounting_parser_HasBestEffort
  | .octetcounting_parser_WithBestEffort => some octetcounting_parser_WithBestEffort
  | .octetcounting_parser_WithListener => some octetcounting_parser_WithListener
  | .octetcounting_parser_Parse => some octetcounting_parser_Parse
  | .octetcounting_parser_run => some octetcounting_parser_run
  | .octetcounting_parser_parse => some octetcounting_parser_parse
  | .octetcounting_parser_scan => some octetcounting_parser_scan
  | .octetcounting_parser_unscan => some octetcounting_parser_unscan
  | .nontransparent_NewParser => some nontransparent_NewParser
  | .nontransparent_NewParser_fn => some nontransparent_NewParser_fn
  | .nontransparent_WithTrailer => some nontransparent_WithTrailer
  | .nontransparent_WithTrailer_fn => some nontransparent_WithTrailer_fn
  | .nontransparent_machine_OnErr => some nontransparent_machine_OnErr
  | .nontransparent_machine_OnEOF => some nontransparent_machine_OnEOF
  | .nontransparent_machine_OnCompletion => some nontransparent_machine_OnCompletion
  | .nontransparent_machine_WithMaxMessageLength => some nontransparent_machine_WithMaxMessageLength
  | .nontransparent_machine_HasBestEffort => some nontransparent_machine_HasBestEffort
  | .nontransparent_machine_WithBestEffort => some nontransparent_machine_WithBestEffort
  | .nontransparent_machine_WithListener => some nontransparent_machine_WithListener
  | .nontransparent_machine_Parse => some nontransparent_machine_Parse
  | .nontransparent_machine_process => some nontransparent_machine_process
  | .nontransparent_TrailerType_String => some nontransparent_TrailerType_String
  | .nontransparent_TrailerType_Value => some nontransparent_TrailerType_Value
  | .nontransparent_TrailerType_UnmarshalTOML => some nontransparent_TrailerType_UnmarshalTOML
  | .nontransparent_TrailerType_UnmarshalText => some nontransparent_TrailerType_UnmarshalText
  | .nontransparent_TrailerType_MarshalText => some nontransparent_TrailerType_MarshalText
  | .nontransparent_TrailerTypeFromString => some nontransparent_TrailerTypeFromString
  | .testing_RandomBytes => some testing_RandomBytes
  | .testing_RightPad => some testing_RightPad
  | .testing_StringAddress => some testing_StringAddress
  | .testing_Uint8Address => some testing_Uint8Address
  | .testing_TimeParse => some testing_TimeParse
  | .testing_YearTime => some testing_YearTime
  | _ => none

/-- methods called through an interface, by the type of the receiver -/
def meth : Nm → Nm → Option Nm
  | .octetcounting_parser, .WithListener => some .octetcounting_parser_WithListener
  | .octetcounting_parser, .WithBestEffort => some .octetcounting_parser_WithBestEffort
  | .octetcounting_parser, .WithMaxMessageLength => some .octetcounting_parser_WithMaxMessageLength
  | .nontransparent_machine, .WithListener => some .nontransparent_machine_WithListener
  | .nontransparent_machine, .WithBestEffort => some .nontransparent_machine_WithBestEffort
  | .nontransparent_machine, .WithMaxMessageLength => some .nontransparent_machine_WithMaxMessageLength
  | .rfc5424_machine, .WithBestEffort => some .rfc5424_machine_WithBestEffort
  | .rfc3164_machine, .WithBestEffort => some .rfc3164_machine_WithBestEffort
  | .rfc3164_Year, .Apply => some .rfc3164_Year_Apply
  | .rfc3164_CurrentYear, .Apply => some .rfc3164_CurrentYear_Apply
  | _, _ => none

theorem prog_common_UnsafeUTF8DecimalCodePointsToInt : prog .common_UnsafeUTF8DecimalCodePointsToInt = some common_UnsafeUTF8DecimalCodePointsToInt := rfl
theorem prog_common_RemoveBytes : prog .common_RemoveBytes = some common_RemoveBytes := rfl
theorem prog_common_EscapeBytes : prog .common_EscapeBytes = some common_EscapeBytes := rfl
theorem prog_common_InBetween : prog .common_InBetween = some common_InBetween := rfl
theorem prog_common_ValidPriority : prog .common_ValidPriority = some common_ValidPriority := rfl
theorem prog_common_ValidVersion : prog .common_ValidVersion = some common_ValidVersion := rfl
theorem prog_syslog_Base_Valid : prog .syslog_Base_Valid = some syslog_Base_Valid := rfl
theorem prog_syslog_Base_ComputeFromPriority : prog .syslog_Base_ComputeFromPriority = some syslog_Base_ComputeFromPriority := rfl
theorem prog_syslog_Base_FacilityMessage : prog .syslog_Base_FacilityMessage = some syslog_Base_FacilityMessage := rfl
theorem prog_syslog_Base_FacilityLevel : prog .syslog_Base_FacilityLevel = some syslog_Base_FacilityLevel := rfl
theorem prog_syslog_Base_SeverityMessage : prog .syslog_Base_SeverityMessage = some syslog_Base_SeverityMessage := rfl
theorem prog_syslog_Base_SeverityLevel : prog .syslog_Base_SeverityLevel = some syslog_Base_SeverityLevel := rfl
theorem prog_syslog_Base_SeverityShortLevel : prog .syslog_Base_SeverityShortLevel = some syslog_Base_SeverityShortLevel := rfl
theorem prog_syslog_WithListener : prog .syslog_WithListener = some syslog_WithListener := rfl
theorem prog_syslog_WithListener_fn : prog .syslog_WithListener_fn = some syslog_WithListener_fn := rfl
theorem prog_syslog_WithBestEffort : prog .syslog_WithBestEffort = some syslog_WithBestEffort := rfl
theorem prog_syslog_WithBestEffort_fn : prog .syslog_WithBestEffort_fn = some syslog_WithBestEffort_fn := rfl
theorem prog_syslog_WithMaxMessageLength : prog .syslog_WithMaxMessageLength = some syslog_WithMaxMessageLength := rfl
theorem prog_syslog_WithMaxMessageLength_fn : prog .syslog_WithMaxMessageLength_fn = some syslog_WithMaxMessageLength_fn := rfl
theorem prog_rfc5424_syslogMessage_minimal : prog .rfc5424_syslogMessage_minimal = some rfc5424_syslogMessage_minimal := rfl
theorem prog_rfc5424_syslogMessage_export : prog .rfc5424_syslogMessage_export = some rfc5424_syslogMessage_export := rfl
theorem prog_rfc5424_SyslogMessage_Valid : prog .rfc5424_SyslogMessage_Valid = some rfc5424_SyslogMessage_Valid := rfl
theorem prog_rfc5424_entrypoint_translate : prog .rfc5424_entrypoint_translate = some rfc5424_entrypoint_translate := rfl
theorem prog_rfc5424_SyslogMessage_SetPriority : prog .rfc5424_SyslogMessage_SetPriority = some rfc5424_SyslogMessage_SetPriority := rfl
theorem prog_rfc5424_SyslogMessage_SetVersion : prog .rfc5424_SyslogMessage_SetVersion = some rfc5424_SyslogMessage_SetVersion := rfl
theorem prog_rfc5424_SyslogMessage_SetTimestamp : prog .rfc5424_SyslogMessage_SetTimestamp = some rfc5424_SyslogMessage_SetTimestamp := rfl
theorem prog_rfc5424_SyslogMessage_SetHostname : prog .rfc5424_SyslogMessage_SetHostname = some rfc5424_SyslogMessage_SetHostname := rfl
theorem prog_rfc5424_SyslogMessage_SetAppname : prog .rfc5424_SyslogMessage_SetAppname = some rfc5424_SyslogMessage_SetAppname := rfl
theorem prog_rfc5424_SyslogMessage_SetProcID : prog .rfc5424_SyslogMessage_SetProcID = some rfc5424_SyslogMessage_SetProcID := rfl
theorem prog_rfc5424_SyslogMessage_SetMsgID : prog .rfc5424_SyslogMessage_SetMsgID = some rfc5424_SyslogMessage_SetMsgID := rfl
theorem prog_rfc5424_SyslogMessage_SetElementID : prog .rfc5424_SyslogMessage_SetElementID = some rfc5424_SyslogMessage_SetElementID := rfl
theorem prog_rfc5424_SyslogMessage_SetParameter : prog .rfc5424_SyslogMessage_SetParameter = some rfc5424_SyslogMessage_SetParameter := rfl
theorem prog_rfc5424_SyslogMessage_SetMessage : prog .rfc5424_SyslogMessage_SetMessage = some rfc5424_SyslogMessage_SetMessage := rfl
theorem prog_rfc5424_SyslogMessage_String : prog .rfc5424_SyslogMessage_String = some rfc5424_SyslogMessage_String := rfl
theorem prog_rfc5424_NewMachine : prog .rfc5424_NewMachine = some rfc5424_NewMachine := rfl
theorem prog_rfc5424_machine_WithBestEffort : prog .rfc5424_machine_WithBestEffort = some rfc5424_machine_WithBestEffort := rfl
theorem prog_rfc5424_machine_HasBestEffort : prog .rfc5424_machine_HasBestEffort = some rfc5424_machine_HasBestEffort := rfl
theorem prog_rfc5424_machine_Err : prog .rfc5424_machine_Err = some rfc5424_machine_Err := rfl
theorem prog_rfc5424_machine_text : prog .rfc5424_machine_text = some rfc5424_machine_text := rfl
theorem prog_rfc5424_WithBestEffort : prog .rfc5424_WithBestEffort = some rfc5424_WithBestEffort := rfl
theorem prog_rfc5424_WithBestEffort_fn : prog .rfc5424_WithBestEffort_fn = some rfc5424_WithBestEffort_fn := rfl
theorem prog_rfc5424_WithCompliantMsg : prog .rfc5424_WithCompliantMsg = some rfc5424_WithCompliantMsg := rfl
theorem prog_rfc5424_WithCompliantMsg_fn : prog .rfc5424_WithCompliantMsg_fn = some rfc5424_WithCompliantMsg_fn := rfl
theorem prog_rfc5424_NewParser : prog .rfc5424_NewParser = some rfc5424_NewParser := rfl
theorem prog_rfc5424_parser_HasBestEffort : prog .rfc5424_parser_HasBestEffort = some rfc5424_parser_HasBestEffort := rfl
theorem prog_rfc5424_parser_Parse : prog .rfc5424_parser_Parse = some rfc5424_parser_Parse := rfl
theorem prog_rfc3164_syslogMessage_minimal : prog .rfc3164_syslogMessage_minimal = some rfc3164_syslogMessage_minimal := rfl
theorem prog_rfc3164_syslogMessage_export : prog .rfc3164_syslogMessage_export = some rfc3164_syslogMessage_export := rfl
theorem prog_rfc3164_NewMachine : prog .rfc3164_NewMachine = some rfc3164_NewMachine := rfl
theorem prog_rfc3164_machine_WithBestEffort : prog .rfc3164_machine_WithBestEffort = some rfc3164_machine_WithBestEffort := rfl
theorem prog_rfc3164_machine_HasBestEffort : prog .rfc3164_machine_HasBestEffort = some rfc3164_machine_HasBestEffort := rfl
theorem prog_rfc3164_machine_WithYear : prog .rfc3164_machine_WithYear = some rfc3164_machine_WithYear := rfl
theorem prog_rfc3164_machine_WithTimezone : prog .rfc3164_machine_WithTimezone = some rfc3164_machine_WithTimezone := rfl
theorem prog_rfc3164_machine_WithLocaleTimezone : prog .rfc3164_machine_WithLocaleTimezone = some rfc3164_machine_WithLocaleTimezone := rfl
theorem prog_rfc3164_machine_WithRFC3339 : prog .rfc3164_machine_WithRFC3339 = some rfc3164_machine_WithRFC3339 := rfl
theorem prog_rfc3164_machine_Err : prog .rfc3164_machine_Err = some rfc3164_machine_Err := rfl
theorem prog_rfc3164_machine_text : prog .rfc3164_machine_text = some rfc3164_machine_text := rfl
theorem prog_rfc3164_WithBestEffort : prog .rfc3164_WithBestEffort = some rfc3164_WithBestEffort := rfl
theorem prog_rfc3164_WithBestEffort_fn : prog .rfc3164_WithBestEffort_fn = some rfc3164_WithBestEffort_fn := rfl
theorem prog_rfc3164_WithYear : prog .rfc3164_WithYear = some rfc3164_WithYear := rfl
theorem prog_rfc3164_WithYear_fn : prog .rfc3164_WithYear_fn = some rfc3164_WithYear_fn := rfl
theorem prog_rfc3164_WithTimezone : prog .rfc3164_WithTimezone = some rfc3164_WithTimezone := rfl
theorem prog_rfc3164_WithTimezone_fn : prog .rfc3164_WithTimezone_fn = some rfc3164_WithTimezone_fn := rfl
theorem prog_rfc3164_WithLocaleTimezone : prog .rfc3164_WithLocaleTimezone = some rfc3164_WithLocaleTimezone := rfl
theorem prog_rfc3164_WithLocaleTimezone_fn : prog .rfc3164_WithLocaleTimezone_fn = some rfc3164_WithLocaleTimezone_fn := rfl
theorem prog_rfc3164_WithRFC3339 : prog .rfc3164_WithRFC3339 = some rfc3164_WithRFC3339 := rfl
theorem prog_rfc3164_WithRFC3339_fn : prog .rfc3164_WithRFC3339_fn = some rfc3164_WithRFC3339_fn := rfl
theorem prog_rfc3164_YearOperation_Operate : prog .rfc3164_YearOperation_Operate = some rfc3164_YearOperation_Operate := rfl
theorem prog_rfc3164_CurrentYear_Apply : prog .rfc3164_CurrentYear_Apply = some rfc3164_CurrentYear_Apply := rfl
theorem prog_rfc3164_Year_Apply : prog .rfc3164_Year_Apply = some rfc3164_Year_Apply := rfl
theorem prog_rfc3164_NewParser : prog .rfc3164_NewParser = some rfc3164_NewParser := rfl
theorem prog_rfc3164_parser_HasBestEffort : prog .rfc3164_parser_HasBestEffort = some rfc3164_parser_HasBestEffort := rfl
theorem prog_rfc3164_parser_Parse : prog .rfc3164_parser_Parse = some rfc3164_parser_Parse := rfl
theorem prog_octetcounting_Token_String : prog .octetcounting_Token_String = some octetcounting_Token_String := rfl
theorem prog_octetcounting_TokenType_String : prog .octetcounting_TokenType_String = some octetcounting_TokenType_String := rfl
theorem prog_octetcounting_isDigit : prog .octetcounting_isDigit = some octetcounting_isDigit := rfl
theorem prog_octetcounting_isNonZeroDigit : prog .octetcounting_isNonZeroDigit = some octetcounting_isNonZeroDigit := rfl
theorem prog_octetcounting_NewScanner : prog .octetcounting_NewScanner = some octetcounting_NewScanner := rfl
theorem prog_octetcounting_Scanner_read : prog .octetcounting_Scanner_read = some octetcounting_Scanner_read := rfl
theorem prog_octetcounting_Scanner_unread : prog .octetcounting_Scanner_unread = some octetcounting_Scanner_unread := rfl
theorem prog_octetcounting_Scanner_Scan : prog .octetcounting_Scanner_Scan = some octetcounting_Scanner_Scan := rfl
theorem prog_octetcounting_Scanner_scanMsgLen : prog .octetcounting_Scanner_scanMsgLen = some octetcounting_Scanner_scanMsgLen := rfl
theorem prog_octetcounting_Scanner_scanSyslogMsg : prog .octetcounting_Scanner_scanSyslogMsg = some octetcounting_Scanner_scanSyslogMsg := rfl
theorem prog_octetcounting_NewParser : prog .octetcounting_NewParser = some octetcounting_NewParser := rfl
theorem prog_octetcounting_NewParser_fn : prog .octetcounting_NewParser_fn = some octetcounting_NewParser_fn := rfl
theorem prog_octetcounting_parser_WithMaxMessageLength : prog .octetcounting_parser_WithMaxMessageLength = some octetcounting_parser_WithMaxMessageLength := rfl
theorem prog_octetcounting_parser_HasBestEffort : prog .octetcounting_parser_HasBestEffort = some octetcounting_parser_HasBestEffort := rfl
theorem prog_octetcounting_parser_WithBestEffort : prog .octetcounting_parser_WithBestEffort = some octetcounting_parser_WithBestEffort := rfl
theorem prog_octetcounting_parser_WithListener : prog .octetcounting_parser_WithListener = some octetcounting_parser_WithListener := rfl
theorem prog_octetcounting_parser_Parse : prog .octetcounting_parser_Parse = some octetcounting_parser_Parse := rfl
theorem prog_octetcounting_parser_run : prog .octetcounting_parser_run = some octetcounting_parser_run := rfl
theorem prog_octetcounting_parser_parse : prog .octetcounting_parser_parse = some octetcounting_parser_parse := rfl
theorem prog_octetcounting_parser_scan : prog .octetcounting_parser_scan = some octetcounting_parser_scan := rfl
theorem prog_octetcounting_parser_unscan : prog .octetcounting_parser_unscan = some octetcounting_parser_unscan := rfl
theorem prog_nontransparent_NewParser : prog .nontransparent_NewParser = some nontransparent_NewParser := rfl
theorem prog_nontransparent_NewParser_fn : prog .nontransparent_NewParser_fn = some nontransparent_NewParser_fn := rfl
theorem prog_nontransparent_WithTrailer : prog .nontransparent_WithTrailer = some nontransparent_WithTrailer := rfl
theorem prog_nontransparent_WithTrailer_fn : prog .nontransparent_WithTrailer_fn = some nontransparent_WithTrailer_fn := rfl
theorem prog_nontransparent_machine_OnErr : prog .nontransparent_machine_OnErr = some nontransparent_machine_OnErr := rfl
theorem prog_nontransparent_machine_OnEOF : prog .nontransparent_machine_OnEOF = some nontransparent_machine_OnEOF := rfl
theorem prog_nontransparent_machine_OnCompletion : prog .nontransparent_machine_OnCompletion = some nontransparent_machine_OnCompletion := rfl
theorem prog_nontransparent_machine_WithMaxMessageLength : prog .nontransparent_machine_WithMaxMessageLength = some nontransparent_machine_WithMaxMessageLength := rfl
theorem prog_nontransparent_machine_HasBestEffort : prog .nontransparent_machine_HasBestEffort = some nontransparent_machine_HasBestEffort := rfl
theorem prog_nontransparent_machine_WithBestEffort : prog .nontransparent_machine_WithBestEffort = some nontransparent_machine_WithBestEffort := rfl
theorem prog_nontransparent_machine_WithListener : prog .nontransparent_machine_WithListener = some nontransparent_machine_WithListener := rfl
theorem prog_nontransparent_machine_Parse : prog .nontransparent_machine_Parse = some nontransparent_machine_Parse := rfl
theorem prog_nontransparent_machine_process : prog .nontransparent_machine_process = some nontransparent_machine_process := rfl
theorem prog_nontransparent_TrailerType_String : prog .nontransparent_TrailerType_String = some nontransparent_TrailerType_String := rfl
theorem prog_nontransparent_TrailerType_Value : prog .nontransparent_TrailerType_Value = some nontransparent_TrailerType_Value := rfl
theorem prog_nontransparent_TrailerType_UnmarshalTOML : prog .nontransparent_TrailerType_UnmarshalTOML = some nontransparent_TrailerType_UnmarshalTOML := rfl
theorem prog_nontransparent_TrailerType_UnmarshalText : prog .nontransparent_TrailerType_UnmarshalText = some nontransparent_TrailerType_UnmarshalText := rfl
theorem prog_nontransparent_TrailerType_MarshalText : prog .nontransparent_TrailerType_MarshalText = some nontransparent_TrailerType_MarshalText := rfl
theorem prog_nontransparent_TrailerTypeFromString : prog .nontransparent_TrailerTypeFromString = some nontransparent_TrailerTypeFromString := rfl
theorem prog_testing_RandomBytes : prog .testing_RandomBytes = some testing_RandomBytes := rfl
theorem prog_testing_RightPad : prog .testing_RightPad = some testing_RightPad := rfl
theorem prog_testing_StringAddress : prog .testing_StringAddress = some testing_StringAddress := rfl
theorem prog_testing_Uint8Address : prog .testing_Uint8Address = some testing_Uint8Address := rfl
theorem prog_testing_TimeParse : prog .testing_TimeParse = some testing_TimeParse := rfl
theorem prog_testing_YearTime : prog .testing_YearTime = some testing_YearTime := rfl
theorem prog_rfc5424_SyslogMessage_set : prog .rfc5424_SyslogMessage_set = none := rfl
theorem prog_fmt_Errorf : prog .fmt_Errorf = none := rfl
theorem prog_fmt_Sprintf : prog .fmt_Sprintf = none := rfl
theorem prog_sort_Strings : prog .sort_Strings = none := rfl
theorem prog_time_Format : prog .time_Format = none := rfl
theorem prog_rfc5424_machine_Parse : prog .rfc5424_machine_Parse = none := rfl
theorem prog_sync_Lock : prog .sync_Lock = none := rfl
theorem prog_sync_Unlock : prog .sync_Unlock = none := rfl
theorem prog_rfc3164_machine_Parse : prog .rfc3164_machine_Parse = none := rfl
theorem prog_time_Now : prog .time_Now = none := rfl
theorem prog_time_Year : prog .time_Year = none := rfl
theorem prog_bufio_NewReaderSize : prog .bufio_NewReaderSize = none := rfl
theorem prog_bufio_ReadByte : prog .bufio_ReadByte = none := rfl
theorem prog_bufio_UnreadByte : prog .bufio_UnreadByte = none := rfl
theorem prog_bufio_Peek : prog .bufio_Peek = none := rfl
theorem prog_bufio_Discard : prog .bufio_Discard = none := rfl
theorem prog_bytes_WriteByte : prog .bytes_WriteByte = none := rfl
theorem prog_bytes_String : prog .bytes_String = none := rfl
theorem prog_bytes_Bytes : prog .bytes_Bytes = none := rfl
theorem prog_strconv_ParseUint : prog .strconv_ParseUint = none := rfl
theorem prog_strconv_FormatInt : prog .strconv_FormatInt = none := rfl
theorem prog_strings_ToUpper : prog .strings_ToUpper = none := rfl
theorem prog_ragel_ArbitraryReader : prog .ragel_ArbitraryReader = none := rfl
theorem prog_ragel_New : prog .ragel_New = none := rfl
theorem prog_ragel_WithStart : prog .ragel_WithStart = none := rfl
theorem prog_ragel_Parse : prog .ragel_Parse = none := rfl
theorem prog_strings_Repeat : prog .strings_Repeat = none := rfl
theorem prog_rand_NewSource : prog .rand_NewSource = none := rfl
theorem prog_time_UnixNano : prog .time_UnixNano = none := rfl
theorem prog_rand_Int63 : prog .rand_Int63 = none := rfl
theorem prog_time_Parse : prog .time_Parse = none := rfl
theorem prog_time_Date : prog .time_Date = none := rfl
theorem prog_time_Month : prog .time_Month = none := rfl
theorem prog_emit : prog .emit = none := rfl
theorem meth_octetcounting_parser_WithListener : meth .octetcounting_parser .WithListener = some .octetcounting_parser_WithListener := rfl
theorem meth_octetcounting_parser_WithBestEffort : meth .octetcounting_parser .WithBestEffort = some .octetcounting_parser_WithBestEffort := rfl
theorem meth_octetcounting_parser_WithMaxMessageLength : meth .octetcounting_parser .WithMaxMessageLength = some .octetcounting_parser_WithMaxMessageLength := rfl
theorem meth_nontransparent_machine_WithListener : meth .nontransparent_machine .WithListener = some .nontransparent_machine_WithListener := rfl
theorem meth_nontransparent_machine_WithBestEffort : meth .nontransparent_machine .WithBestEffort = some .nontransparent_machine_WithBestEffort := rfl
theorem meth_nontransparent_machine_WithMaxMessageLength : meth .nontransparent_machine .WithMaxMessageLength = some .nontransparent_machine_WithMaxMessageLength := rfl
theorem meth_rfc5424_machine_WithBestEffort : meth .rfc5424_machine .WithBestEffort = some .rfc5424_machine_WithBestEffort := rfl
theorem meth_rfc3164_machine_WithBestEffort : meth .rfc3164_machine .WithBestEffort = some .rfc3164_machine_WithBestEffort := rfl
theorem meth_rfc3164_Year_Apply : meth .rfc3164_Year .Apply = some .rfc3164_Year_Apply := rfl
theorem meth_rfc3164_CurrentYear_Apply : meth .rfc3164_CurrentYear .Apply = some .rfc3164_CurrentYear_Apply := rfl

end Verif.Gen.Mini
