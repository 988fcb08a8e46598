import Verif.Acc.Groups
import Verif.Acc.Home
import Verif.Acc.Kinds
import Verif.Acc.Leaf
import Verif.Acc.Lemmas
import Verif.Acc.Model
import Verif.Acc.Panics
import Verif.Acc.Props
import Verif.Acc.Safe
import Verif.Acc.Table
import Verif.Acc.Timer
import Verif.Config.Concurrent
import Verif.Config.ConcurrentProps
import Verif.Config.Model
import Verif.Config.Props
import Verif.Config.RaceExact
import Verif.Ctor.Generic
import Verif.Ctor.Group
import Verif.Ctor.GroupProps
import Verif.Ctor.GroupSpec
import Verif.Ctor.Lemmas
import Verif.Ctor.Model
import Verif.Ctor.Multi
import Verif.Ctor.MultiLayout
import Verif.Ctor.MultiLemmas
import Verif.Ctor.MultiProps
import Verif.Ctor.MultiProps2
import Verif.Ctor.MultiSafe
import Verif.Ctor.Names
import Verif.Ctor.Props
import Verif.Ctor.Small
import Verif.Ctor.Spec
import Verif.Ctor.Struct
import Verif.Ctor.StructProps
import Verif.Ctor.Table
import Verif.Ctor.Timers
import Verif.Example.Model
import Verif.Example.Props
import Verif.Fields.Addr
import Verif.Fields.Addr2
import Verif.Fields.Buffer
import Verif.Fields.BufferProps
import Verif.Fields.Built
import Verif.Fields.Counters
import Verif.Fields.Ends
import Verif.Fields.IP
import Verif.Fields.Keep1
import Verif.Fields.Keep2
import Verif.Fields.Keep3
import Verif.Fields.Keep4
import Verif.Fields.Keep5
import Verif.Fields.Keep6
import Verif.Fields.Loc
import Verif.Fields.Lossless
import Verif.Fields.Lossless2
import Verif.Fields.Lossless3
import Verif.Fields.Lossless4
import Verif.Fields.Misc
import Verif.Fields.Misc2
import Verif.Fields.Misc3
import Verif.Fields.Misc4
import Verif.Fields.Misc5
import Verif.Fields.Outcome
import Verif.Fields.Panics
import Verif.Fields.PfdPanics
import Verif.Fields.Prim
import Verif.Fields.Props1
import Verif.Fields.Props2
import Verif.Fields.Props3
import Verif.Fields.Props4
import Verif.Fields.Props5
import Verif.Fields.Props6
import Verif.Fields.Props7
import Verif.Fields.Reuse
import Verif.Fields.ReuseCopy
import Verif.Fields.ReuseProps
import Verif.Fields.Sound
import Verif.Fields.Volume
import Verif.Flag.Ctor
import Verif.Flag.Lemmas
import Verif.Flag.Model
import Verif.Flag.Panics
import Verif.Flag.Props
import Verif.Flag.Props2
import Verif.Flag.Spec
import Verif.Flag.Struct
import Verif.Flag.Table
import Verif.Flag.Validate
import Verif.Go
import Verif.IE.Accept
import Verif.IE.Cost
import Verif.IE.Exact
import Verif.IE.Lemmas
import Verif.IE.Live
import Verif.IE.LiveExact
import Verif.IE.LiveProps
import Verif.IE.Model
import Verif.IE.More
import Verif.IE.Nested
import Verif.IE.Props
import Verif.IE.Register
import Verif.IE.Reuse
import Verif.IE.Spec
import Verif.IE.TypeName
import Verif.IE.TypeNameProps
import Verif.IE.Types
import Verif.Log.Lemmas
import Verif.Log.Model
import Verif.Log.Props
import Verif.Mem.Edit
import Verif.Mem.Lemmas
import Verif.Mem.Message
import Verif.Mem.MessageProps
import Verif.Mem.Model
import Verif.Mem.Props
import Verif.Mem.Remove
import Verif.Mem.Spec
import Verif.Message.Arrive
import Verif.Message.Buffer
import Verif.Message.BufferProps
import Verif.Message.Bundle
import Verif.Message.Cost
import Verif.Message.CostProps
import Verif.Message.CtorProps
import Verif.Message.Cut
import Verif.Message.Exact
import Verif.Message.Failed
import Verif.Message.FailedLemmas
import Verif.Message.FailedProps
import Verif.Message.FileLemmas
import Verif.Message.Frame
import Verif.Message.Header
import Verif.Message.HeaderExact
import Verif.Message.HeaderLemmas
import Verif.Message.HeaderProps
import Verif.Message.Lemmas
import Verif.Message.LengthExact
import Verif.Message.Model
import Verif.Message.MoreProps
import Verif.Message.Order
import Verif.Message.OrderProps
import Verif.Message.Patch
import Verif.Message.Print
import Verif.Message.Props
import Verif.Message.Race
import Verif.Message.RaceProps
import Verif.Message.RegisterProps
import Verif.Message.Relay
import Verif.Message.RelayProps
import Verif.Message.Reuse
import Verif.Message.Spec
import Verif.Message.Stable
import Verif.Message.TableFacts
import Verif.Message.Tables
import Verif.Message.Typed
import Verif.Message.Unique
import Verif.Message.Unknown
import Verif.Text.Exact
import Verif.Text.Lemmas
import Verif.Text.Model
import Verif.Text.Names
import Verif.Text.Names2
import Verif.Text.Props
import Verif.Time
import Verif.Utils
