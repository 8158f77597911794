/-!
# Names of the hand-written functions, their variables, fields and types

Generated by tools/gomini.py; do not edit.
-/

namespace Verif.Mini

/-- names -/
inductive Nm where
  | Apply | Appname | Error | Facility | Hostname | Message | MsgID | Mutex
  | Operator | Priority | ProcID | Severity | StructuredData | Timestamp | Version | WithBestEffort
  | WithListener | WithMaxMessageLength | YYYY | an | appname | «at» | b | backslashat
  | bestEffort | buf | bufio_Discard | bufio_NewReaderSize | bufio_Peek | bufio_ReadByte | bufio_UnreadByte | bytes_Bytes
  | bytes_String | bytes_WriteByte | c | cache | candidate | ch | chars | chunk
  | common_EscapeBytes | common_InBetween | common_RemoveBytes | common_UnsafeUTF8DecimalCodePointsToInt | common_ValidPriority | common_ValidVersion | compliantMsg | content
  | cp | cs | curchar | currentelem | currentid | currentparam | currentparamname | data
  | dd | e | elements | emit | eof | err | f | facility
  | fmt_Errorf | fmt_Sprintf | hasElements | hh | hn | hostname | i | id
  | identifiers | idx | input | internal | k | last | lastByte | lastChunk
  | layout | length | limit | lit | loc | m | machine | max
  | maxLength | maxMessageLength | message | mid | min | mm | msg | msgID
  | msg_2 | msgat | msglen | n | name | names | nontransparent_NewParser | nontransparent_NewParser_fn
  | nontransparent_TrailerTypeFromString | nontransparent_TrailerType_MarshalText | nontransparent_TrailerType_String | nontransparent_TrailerType_UnmarshalTOML | nontransparent_TrailerType_UnmarshalText | nontransparent_TrailerType_Value | nontransparent_WithTrailer | nontransparent_WithTrailer_fn
  | nontransparent_machine | nontransparent_machine_HasBestEffort | nontransparent_machine_OnCompletion | nontransparent_machine_OnEOF | nontransparent_machine_OnErr | nontransparent_machine_Parse | nontransparent_machine_WithBestEffort | nontransparent_machine_WithListener
  | nontransparent_machine_WithMaxMessageLength | nontransparent_machine_process | o | octetcounting_NewParser | octetcounting_NewParser_fn | octetcounting_NewScanner | octetcounting_Scanner | octetcounting_Scanner_Scan
  | octetcounting_Scanner_read | octetcounting_Scanner_scanMsgLen | octetcounting_Scanner_scanSyslogMsg | octetcounting_Scanner_unread | octetcounting_Token | octetcounting_TokenType_String | octetcounting_Token_String | octetcounting_isDigit
  | octetcounting_isNonZeroDigit | octetcounting_parser | octetcounting_parser_HasBestEffort | octetcounting_parser_Parse | octetcounting_parser_WithBestEffort | octetcounting_parser_WithListener | octetcounting_parser_WithMaxMessageLength | octetcounting_parser_parse
  | octetcounting_parser_run | octetcounting_parser_scan | octetcounting_parser_unscan | offset | ok | ok_2 | opt | options
  | opts | ord | out | p | params | pb | pe | pid
  | pos | positions | priority | prioritySet | procID | r | ragel_ArbitraryReader | ragel_New
  | ragel_Parse | ragel_WithStart | rand_Int63 | rand_NewSource | readError | reader | ready | remain
  | res | result | result_2 | rfc3164_CurrentYear | rfc3164_CurrentYear_Apply | rfc3164_NewMachine | rfc3164_NewParser | rfc3164_SyslogMessage
  | rfc3164_WithBestEffort | rfc3164_WithBestEffort_fn | rfc3164_WithLocaleTimezone | rfc3164_WithLocaleTimezone_fn | rfc3164_WithRFC3339 | rfc3164_WithRFC3339_fn | rfc3164_WithTimezone | rfc3164_WithTimezone_fn
  | rfc3164_WithYear | rfc3164_WithYear_fn | rfc3164_Year | rfc3164_YearOperation | rfc3164_YearOperation_Operate | rfc3164_Year_Apply | rfc3164_machine | rfc3164_machine_Err
  | rfc3164_machine_HasBestEffort | rfc3164_machine_Parse | rfc3164_machine_WithBestEffort | rfc3164_machine_WithLocaleTimezone | rfc3164_machine_WithRFC3339 | rfc3164_machine_WithTimezone | rfc3164_machine_WithYear | rfc3164_machine_text
  | rfc3164_parser | rfc3164_parser_HasBestEffort | rfc3164_parser_Parse | rfc3164_syslogMessage | rfc3164_syslogMessage_export | rfc3164_syslogMessage_minimal | rfc3339 | rfc5424_NewMachine
  | rfc5424_NewParser | rfc5424_SyslogMessage | rfc5424_SyslogMessage_SetAppname | rfc5424_SyslogMessage_SetElementID | rfc5424_SyslogMessage_SetHostname | rfc5424_SyslogMessage_SetMessage | rfc5424_SyslogMessage_SetMsgID | rfc5424_SyslogMessage_SetParameter
  | rfc5424_SyslogMessage_SetPriority | rfc5424_SyslogMessage_SetProcID | rfc5424_SyslogMessage_SetTimestamp | rfc5424_SyslogMessage_SetVersion | rfc5424_SyslogMessage_String | rfc5424_SyslogMessage_Valid | rfc5424_SyslogMessage_set | rfc5424_WithBestEffort
  | rfc5424_WithBestEffort_fn | rfc5424_WithCompliantMsg | rfc5424_WithCompliantMsg_fn | rfc5424_entrypoint_translate | rfc5424_machine | rfc5424_machine_Err | rfc5424_machine_HasBestEffort | rfc5424_machine_Parse
  | rfc5424_machine_WithBestEffort | rfc5424_machine_text | rfc5424_parser | rfc5424_parser_HasBestEffort | rfc5424_parser_Parse | rfc5424_syslogMessage | rfc5424_syslogMessage_export | rfc5424_syslogMessage_minimal
  | s | sd | severity | sm | sort_Strings | src | ss | stepback
  | str | strconv_FormatInt | strconv_ParseUint | strings_Repeat | strings_ToUpper | structuredData | sync_Lock | sync_Unlock
  | sys | syslog_Base | syslog_Base_ComputeFromPriority | syslog_Base_FacilityLevel | syslog_Base_FacilityMessage | syslog_Base_SeverityLevel | syslog_Base_SeverityMessage | syslog_Base_SeverityShortLevel
  | syslog_Base_Valid | syslog_Result | syslog_WithBestEffort | syslog_WithBestEffort_fn | syslog_WithListener | syslog_WithListener_fn | syslog_WithMaxMessageLength | syslog_WithMaxMessageLength_fn
  | t | tag | template | testing_RandomBytes | testing_RightPad | testing_StringAddress | testing_TimeParse | testing_Uint8Address
  | testing_YearTime | time_Date | time_Format | time_Month | time_Now | time_Parse | time_UnixNano | time_Year
  | timestamp | timestampSet | timezone | tmp1 | tmp2 | tmp3 | tmp4 | tmp5
  | tok | trailer | trailertyp | typ | unused | val | value | version
  | x | y | yyyy
  deriving DecidableEq, Repr

end Verif.Mini
