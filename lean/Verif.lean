import Verif.Model.Base
import Verif.Model.Text
import Verif.Model.Address
import Verif.Model.Command
import Verif.Model.Link
import Verif.Model.LinkText
import Verif.Model.Message
import Verif.Spec.Text
import Verif.Spec.Wire
import Verif.Spec.LinkText
import Verif.Lemmas.Bits
import Verif.Lemmas.Text
import Verif.Lemmas.Scan
import Verif.Props.Address
import Verif.Props.Command
import Verif.Props.Message
import Verif.Props.Link
import Verif.Model.Packet
import Verif.Model.Reader
import Verif.Model.Plm
import Verif.Model.PlmLinks
import Verif.Spec.Modem
import Verif.Spec.ModemDb
import Verif.Lemmas.Reader
import Verif.Props.Reader
import Verif.Props.Plm
import Verif.Props.PlmLinks
import Verif.Model.Device
import Verif.Spec.Device
import Verif.Props.Device
import Verif.Props.Filters
import Verif.Model.DeviceLinks
import Verif.Spec.AldbDevice
import Verif.Lemmas.Aldb
import Verif.Props.DeviceLinks
import Verif.Props.DeviceWrite
import Verif.Props.DeviceUpdate
import Verif.Model.Lighting
import Verif.Model.Thermostat
import Verif.Spec.Control
import Verif.Props.Control
import Verif.Props.ControlQuery
import Verif.Model.Json
import Verif.Model.Database
import Verif.Spec.Database
import Verif.Lemmas.Json
import Verif.Lemmas.Database
import Verif.Props.Database
import Verif.Model.LinkOps
import Verif.Spec.LinkOps
import Verif.Props.LinkSearch
import Verif.Props.LinkSession
import Verif.Props.Network
import Verif.Props.LinkAdd
import Verif.Spec.Live
import Verif.Model.Live
import Verif.Props.Live
import Verif.Spec.SerialModem
import Verif.Props.SerialModem
import Verif.Model.Snoop
import Verif.Spec.Snoop
import Verif.Props.Snoop
import Verif.Model.Names
import Verif.Model.Monitor
import Verif.Spec.Names
import Verif.Spec.Monitor
import Verif.Props.Names
import Verif.Props.Monitor
import Verif.Spec.Thermostat
import Verif.Props.Thermostat
import Verif.Model.Ic
import Verif.Spec.Ic
import Verif.Props.Ic
import Verif.Props.Remote
import Verif.Spec.SerialDevice
import Verif.Props.FarDevice
import Verif.Model.Isnoop
import Verif.Lemmas.Incremental
import Verif.Props.Isnoop
import Verif.Props.Show
import Verif.Model.IcDevice
import Verif.Spec.IcDevice
import Verif.Props.IcDevice
import Verif.Model.Timed
import Verif.Spec.Timed
import Verif.Props.Timed
import Verif.Model.Shared
import Verif.Spec.Shared
import Verif.Props.Shared
import Verif.Model.ModemCmd
import Verif.Spec.ModemCmd
import Verif.Props.ModemCmd
import Verif.Model.Team
import Verif.Spec.Team
import Verif.Props.Team
import Verif.Model.ResetRace
import Verif.Spec.ResetRace
import Verif.Props.ResetRace
import Verif.Spec.House
import Verif.Props.House
import Verif.Props.Housekeeping
import Verif.Model.Logs
import Verif.Spec.Logs
import Verif.Props.Logs
import Verif.Props.LinkLine
import Verif.Model.Caller
import Verif.Spec.Caller
import Verif.Props.Caller
import Verif.Model.LinkLogs
import Verif.Props.LinkLogs
import Verif.Props.LinkFix
import Verif.Spec.ModemFaults
import Verif.Props.ModemFaults
import Verif.Spec.Book
import Verif.Props.Again
import Verif.Props.EditFaults
import Verif.Props.DeviceEdit
import Verif.Model.DelayWriter
import Verif.Props.DelayWriter
import Verif.Props.GroupSet
import Verif.Props.PacketText
import Verif.Props.Refusals
import Verif.Spec.Json
import Verif.Lemmas.JsonString
import Verif.Lemmas.JsonText
import Verif.Props.DatabaseText
import Verif.Model.Programs
import Verif.Spec.Programs
import Verif.Props.Programs
import Verif.Props.Kills
import Verif.Props.DeviceUpdateAll
import Verif.Model.Port
import Verif.Props.Port
import Verif.Model.Float
import Verif.Lemmas.Float
import Verif.Props.Temperature
import Verif.Props.OpenLine
import Verif.Model.IsnoopFaults
import Verif.Props.IsnoopFaults
import Verif.Model.LinkTimed
import Verif.Spec.LinkTimed
import Verif.Props.LinkTimed
import Verif.Spec.CommandNames
import Verif.Props.CommandNames
import Verif.Spec.Silence
import Verif.Props.Silence
import Verif.Spec.Calls
import Verif.Props.Calls
import Verif.Spec.ModemCalls
import Verif.Props.ModemCalls
import Verif.Props.WalkEnds
import Verif.Spec.IcEnds
import Verif.Props.IcEnds
import Verif.Spec.Failures
import Verif.Props.Failures
import Verif.Spec.Traffic
import Verif.Props.Traffic
import Verif.Spec.LinkWire
import Verif.Props.LinkWire
import Verif.Model.IcPlm
import Verif.Spec.IcPlmEnds
import Verif.Props.IcPlmEnds
import Verif.Spec.IcFailures
import Verif.Props.IcFailures
import Verif.Spec.Talk
import Verif.Spec.Results
import Verif.Props.Talk
import Verif.Spec.DeviceTeam
import Verif.Props.DeviceTeam
import Verif.Spec.Answers
import Verif.Props.Answers
import Verif.Spec.Line
import Verif.Props.Line
import Verif.Spec.ModemFailures
import Verif.Props.ModemFailures
import Verif.Spec.IcAlike
import Verif.Props.IcAlike
import Verif.Spec.IcAsk
import Verif.Props.IcAsk
import Verif.Spec.ModemTeam
import Verif.Props.ModemTeam
import Verif.Model.ErrorText
import Verif.Spec.ErrorText
import Verif.Props.ErrorText
import Verif.Model.Output
import Verif.Spec.Output
import Verif.Props.Output
import Verif.Model.Generator
import Verif.Spec.Generator
import Verif.Props.Generator
import Verif.Props.GeneratorHere
import Verif.Props.Walk
import Verif.Spec.DevCats
import Verif.Model.DevCats
import Verif.Model.DevCatTable
import Verif.Props.DevCats
import Verif.Props.DevCatsHere
import Verif.Tests.Insteon
import Verif.Tests.Plm
import Verif.Tests.Devices
import Verif.Tests.Util
import Verif.Model.Csv
import Verif.Spec.Csv
import Verif.Props.Csv
import Verif.Model.DevCatFile
import Verif.Props.CsvHere
import Verif.Model.ParseInt
import Verif.Spec.ParseInt
import Verif.Props.ParseInt
import Verif.Props.DevCatsMade
