import Verif.Py.Basic
import Verif.Lemmas.Codec
import Verif.Model.Points
import Verif.Spec.Formats
import Verif.Lemmas.Points
import Verif.Props.Codec
import Verif.Model.Crc
import Verif.Spec.Crc
import Verif.Lemmas.Crc
import Verif.Props.Crc
import Verif.Model.Rtu
import Verif.Spec.Modbus
import Verif.Lemmas.Rtu
import Verif.Lemmas.RtuWrite
import Verif.Lemmas.RtuConform
import Verif.Props.Rtu
import Verif.Props.Tcp
import Verif.Props.Limits
import Verif.Py.Dict
import Verif.Model.Registry
import Verif.Props.Registry
import Verif.Model.Tcp
import Verif.Spec.Tcp
import Verif.Lemmas.Tcp
import Verif.Lemmas.TcpConform
import Verif.Lemmas.TcpAny
import Verif.Lemmas.TcpMore
import Verif.Py.Text
import Verif.Py.Num
import Verif.Py.Xml
import Verif.Lemmas.Text
import Verif.Model.Mbmap
import Verif.Spec.Memory
import Verif.Spec.Mbmap
import Verif.Spec.MapDoc
import Verif.Lemmas.Mbmap
import Verif.Lemmas.MapDoc
import Verif.Props.Mbmap
import Verif.Props.MapDoc
import Verif.Model.Device
import Verif.Model.Client
import Verif.Spec.Layout
import Verif.Lemmas.Load
import Verif.Lemmas.LoadTotal
import Verif.Props.Load
import Verif.Model.Devices
import Verif.Spec.Client
import Verif.Lemmas.ClientRead
import Verif.Lemmas.Mem
import Verif.Props.ClientRead
import Verif.Lemmas.ClientWrite
import Verif.Lemmas.ClientMarks
import Verif.Props.ClientWrite
import Verif.Props.WriteRead
import Verif.Py.Float
import Verif.Model.Value
import Verif.Spec.Value
import Verif.Lemmas.Float
import Verif.Lemmas.Value
import Verif.Lemmas.IntText
import Verif.Props.Value
import Verif.Model.Scan
import Verif.Spec.Scan
import Verif.Lemmas.Scan
import Verif.Props.Scan
import Verif.Model.Paths
import Verif.Spec.Paths
import Verif.Props.Paths
import Verif.Model.Smdx
import Verif.Spec.Smdx
import Verif.Props.Smdx
import Verif.Model.Wrapper
import Verif.Spec.Wrapper
import Verif.Lemmas.Wrapper
import Verif.Props.Wrapper
import Verif.Model.Trace
import Verif.Props.Trace
import Verif.Model.Pics
import Verif.Spec.Pics
import Verif.Lemmas.Pics
import Verif.Lemmas.PicsBlock
import Verif.Lemmas.PicsModel
import Verif.Lemmas.PicsDevice
import Verif.Props.Pics
import Verif.Props.PicsValue
import Verif.Model.Compare
import Verif.Spec.Compare
import Verif.Props.Compare
import Verif.Model.Data
import Verif.Spec.Data
import Verif.Props.Data
import Verif.Props.ReadOnly
import Verif.Spec.Session
import Verif.Lemmas.Session
import Verif.Props.Session
import Verif.Props.Retry
import Verif.Props.PicsDoc
import Verif.Spec.Float
import Verif.Lemmas.Single
import Verif.Props.Float
import Verif.Model.Tls
import Verif.Spec.Tls
import Verif.Props.Tls
import Verif.Model.ClientDevice
import Verif.Spec.ClientDevice
import Verif.Props.ClientDevice
import Verif.Model.Script
import Verif.Spec.Script
import Verif.Spec.Program
import Verif.Lemmas.Hex
import Verif.Props.Script
import Verif.Props.Report
import Verif.Props.Program
import Verif.Spec.Failure
import Verif.Props.Failure
import Verif.Lemmas.Errors
import Verif.Props.Errors
import Verif.Spec.Found
import Verif.Props.Found
import Verif.Spec.Alike
import Verif.Lemmas.Alike
import Verif.Props.Alike
import Verif.Spec.CopyBack
import Verif.Props.CopyBack
import Verif.Spec.Bus
import Verif.Lemmas.Bus
import Verif.Props.Bus
import Verif.Spec.Grouped
import Verif.Lemmas.Grouped
import Verif.Props.Grouped
import Verif.Props.GroupedTcp
import Verif.Props.Cancel
import Verif.Props.Cost
import Verif.Props.Order
import Verif.Props.FloatScaled
import Verif.Props.Torn
import Verif.Props.TwoClients
import Verif.Spec.Mimic
import Verif.Lemmas.Mimic
import Verif.Props.Mimic
import Verif.Props.PicsEqual
import Verif.Check.DeviceTests
import Verif.Props.MapErrors
import Verif.Props.Show
import Verif.Props.Sockets
import Verif.Props.Classes
import Verif.Props.ShowType
import Verif.Model.Command
import Verif.Spec.Command
import Verif.Props.Command
import Verif.Spec.Noise
import Verif.Lemmas.Noise
import Verif.Lemmas.Truthful
import Verif.Props.Noise
import Verif.Props.Wire
import Verif.Model.Files
import Verif.Spec.Files
import Verif.Props.Files
import Verif.Model.Conv
import Verif.Spec.Conv
import Verif.Props.Conv
import Verif.Model.ScriptFiles
import Verif.Props.ScriptFiles
import Verif.Spec.Atomic
import Verif.Lemmas.Atomic
import Verif.Lemmas.AtomicDev
import Verif.Props.Atomic
import Verif.Spec.Threads
import Verif.Lemmas.Threads
import Verif.Props.Threads
import Verif.Spec.Transfer
import Verif.Props.Transfer
import Verif.Spec.Forget
import Verif.Props.Forget
import Verif.Spec.Reload
import Verif.Props.Reload
import Verif.Model.Broken
import Verif.Spec.Broken
import Verif.Lemmas.Broken
import Verif.Lemmas.Repaired
import Verif.Props.Broken
import Verif.Model.MapFile
import Verif.Spec.MapFile
import Verif.Props.MapFile
import Verif.Model.CommandFiles
import Verif.Props.CommandFiles
import Verif.Spec.Sends
import Verif.Props.Sends
import Verif.Props.ReadWhile
import Verif.Props.Contend
import Verif.Props.Decimal
import Verif.Props.Reason
import Verif.Props.TcpThreads
