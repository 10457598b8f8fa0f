import Verif.Props.Header
import Verif.Props.Open
import Verif.Props.Session
import Verif.Props.Nlri
import Verif.Props.Prefix
import Verif.Props.Order
import Verif.Props.Families
import Verif.Props.Addrs
import Verif.Props.Attrs
import Verif.Props.Update
import Verif.Props.Relay
import Verif.Props.Bmp
import Verif.Props.Messages
import Verif.Props.Buffers
import Verif.Props.Short
import Verif.Props.Room
import Verif.Props.Construct
import Verif.Props.Errors
import Verif.Props.Local
import Verif.Props.Text
import Verif.Props.Values
import Verif.Props.Display
import Verif.Props.Reads
import Verif.Props.Small
import Verif.Props.Serde
import Verif.Props.Derived
import Verif.Props.Parse
import Verif.Props.TwoEnds
import Verif.Props.Dumper
import Verif.Props.Volume
import Verif.Props.Debug
import Verif.Props.AttrDisplay
import Verif.Props.Fresh
import Verif.Props.Truncated
import Verif.Props.Enough
import Verif.Props.Release
import Verif.Props.HashInj
import Verif.Props.L2
import Verif.Props.Left
import Verif.Props.Station
import Verif.Props.Dialogue
import Verif.Props.Table
import Verif.Props.CapOrder
import Verif.Props.OpenExact
import Verif.Props.BmpExact
import Verif.Props.Joined
import Verif.Props.Rearrange
import Verif.Props.ReleaseBmp
import Verif.Props.Io
import Verif.Props.PrefixExact
import Verif.Props.Outcome
import Verif.Props.OutcomeMsg
import Verif.Props.OutcomeRelease
import Verif.Props.Returns
import Verif.Props.ReturnsMsg
import Verif.Props.AnyBuffer
import Verif.Props.ReturnsBmp
import Verif.Props.Between
import Verif.Props.VolumeRelease
import Verif.Props.Peers
import Verif.Props.Resync
import Verif.Props.RearrangeRelease
import Verif.Props.RearrangeExactly
import Verif.Props.StationRelease
import Verif.Props.FreshRelease
import Verif.Props.ConstructKeys
import Verif.Props.SizeRelease
import Verif.Props.ExtendRelease
