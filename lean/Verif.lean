import Verif.Props.Access
import Verif.Props.Addresses
import Verif.Props.Alias
import Verif.Props.Calendar
import Verif.Props.Case
import Verif.Props.CaseDict
import Verif.Props.CaseNames
import Verif.Props.Clock
import Verif.Props.Composition
import Verif.Props.Coverage
import Verif.Props.Debug2
import Verif.Props.DictTimes
import Verif.Props.Dicts
import Verif.Props.Effects
import Verif.Props.Fields
import Verif.Props.Forms
import Verif.Props.Lists
import Verif.Props.Numbers
import Verif.Props.Opcodes
import Verif.Props.Period
import Verif.Props.Raises
import Verif.Props.Readings
import Verif.Props.Relay
import Verif.Props.Scheduler
import Verif.Props.Schema
import Verif.Props.SchemaMessages
import Verif.Props.SchemaRejects
import Verif.Props.Sensors
import Verif.Props.Sent
import Verif.Props.SentMsgs
import Verif.Props.Stamps
import Verif.Props.Times
import Verif.Props.Total
import Verif.Props.Unique
import Verif.Props.Values
import Verif.Props.Vendor
