import Verif.Model.Base
import Verif.Model.Crc16
import Verif.Model.Prim
import Verif.Model.List
import Verif.Model.Tree
import Verif.Model.Bodies
import Verif.Model.Message
import Verif.Model.Transport
import Verif.Model.Util
import Verif.Model.NumMem
import Verif.Model.Example
import Verif.Model.Print
import Verif.Model.Program
import Verif.Model.HeapExample
import Verif.Model.HeapMessage
import Verif.Model.HeapWrite
import Verif.Model.HeapBuild
import Verif.Model.Ids
import Verif.Model.Select
import Verif.Props.Crc
import Verif.Props.Safety
import Verif.Props.Stream
import Verif.Props.Blocks
import Verif.Props.Content
import Verif.Props.Fields
import Verif.Props.RoundTrip
import Verif.Props.Writing
import Verif.Props.Transport
import Verif.Props.Util
import Verif.Props.Dzg
import Verif.Props.Depth
import Verif.Props.Example
import Verif.Props.Grammar
import Verif.Props.Forward
import Verif.Props.Print
import Verif.Props.Program
import Verif.Props.Serial
import Verif.Props.Standard
import Verif.Props.Long
import Verif.Props.Heap
import Verif.Props.HeapExample
import Verif.Props.HeapWrite
import Verif.Props.HeapBuild
import Verif.Props.Ids
import Verif.Props.Select
import Verif.Proofs.SourceFile
import Verif.Props.Source
import Verif.Props.SourceWrite
import Verif.Props.SourceTransport
import Verif.Props.SourceBuild
import Verif.Props.SourceText
import Verif.Props.SourceExample
import Verif.Props.SourceMain
import Verif.Props.SourceScarce
import Verif.Props.SourceScarceWrite
import Verif.Props.SourceOver
import Verif.Props.SourceLong
import Verif.Props.SourceFuzz
import Verif.Props.SourceForward
import Verif.Props.SourceLost
import Verif.Props.SourceSmooth
import Verif.Props.SourceStandard
import Verif.Props.SourceLeak
import Verif.Props.SourceUnique
import Verif.Props.SourceStream
import Verif.Conformance
import Verif.Proofs.Disturbed
import Verif.Props.SourceDisturbed
import Verif.Props.SourceNoise
import Verif.Proofs.Forge
import Verif.Props.SourceForge
