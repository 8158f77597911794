import Verif.Rfc3164.Machine
import Verif.Octet.Model
import Verif.NonTransparent.Model

/-!
# Options as the user passes them

`NewMachine(options...)`/`NewParser(options...)` apply a list of functions; the other files take the resulting configuration.
-/

namespace Verif.Rfc5424

/-- rfc5424/options.go:8-29 -/
inductive MachineOption where
  | bestEffort
  | compliantMsg
  deriving DecidableEq, Repr

/-- rfc5424/options.go:8-13, 24-29; rfc5424/machine.go:86-88 -/
def applyOpt (m : M) : MachineOption → M
  | .bestEffort => { m with bestEffort := true }
  | .compliantMsg => { m with compliantMsg := true }

/-- `NewMachine` (rfc5424/machine.go:75-83), `NewParser` (rfc5424/parser.go:16-22) -/
def newMachineWith (options : List MachineOption) : M := options.foldl applyOpt {}

/-- `HasBestEffort` (rfc5424/machine.go:91-93, rfc5424/parser.go:25-27) -/
def M.hasBestEffort (m : M) : Bool := m.bestEffort

/-- `Err` (rfc5424/machine.go:98-100) -/
def M.error (m : M) : Option Err := m.err

end Verif.Rfc5424

namespace Verif.Rfc3164

/-- rfc3164/options.go:10-67; `year` carries what the operator returns when the option is applied (rfc3164/year.go:18-38), the location
pointers may be nil (`none`). -/
inductive MachineOption where
  | bestEffort
  | year (yyyy : Int)
  | timezone (loc : Option GoTime.Location)
  | localeTimezone (loc : Option GoTime.Location)
  | rfc3339

/-- rfc3164/machine.go:54-84 -/
def applyOpt (o : Opts) : MachineOption → Opts
  | .bestEffort => { o with bestEffort := true }
  | .year y => { o with yyyy := y }
  | .timezone l => { o with loc := l }
  | .localeTimezone l => { o with timezone := l }
  | .rfc3339 => { o with rfc3339 := true }

/-- `NewMachine` (rfc3164/machine.go:43-51), `NewParser` (rfc3164/parser.go:16-22): the configuration -/
def optsOf (options : List MachineOption) : Opts := options.foldl applyOpt {}

/-- `Err` (rfc3164/machine.go:88-90) -/
def M.error (m : M) : Option Err := m.err

end Verif.Rfc3164

namespace Verif.Octet

/-- the method `WithBestEffort` (octetcounting/parser.go:58-60), called on a parser that exists already -/
def Parser.withBestEffort (p : Parser) : Parser := { p with bestEffort := true }

/-- `HasBestEffort` (octetcounting/parser.go:51-53) -/
def Parser.hasBestEffort (p : Parser) : Bool := p.bestEffort

end Verif.Octet

namespace Verif.NonTransparent

/-- the method `WithBestEffort` (nontransparent/parser.go:243-245), called on a parser that exists already -/
def Machine.withBestEffort (m : Machine) : Machine := { m with bestEffort := true }

/-- `HasBestEffort` (nontransparent/parser.go:225-227) -/
def Machine.hasBestEffort (m : Machine) : Bool := m.bestEffort

end Verif.NonTransparent
