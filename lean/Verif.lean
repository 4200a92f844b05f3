import Verif.Model.Anon
import Verif.Props.Panic
import Verif.Props.Overflow
import Verif.Props.Accepted
import Verif.Props.Sections
import Verif.Props.Scan
import Verif.Props.Api
import Verif.Props.Anon
import Verif.Props.Attrs
import Verif.Props.Num
import Verif.Props.Fmtp
import Verif.Props.Candidate
import Verif.Props.RoundTrip
import Verif.Props.Text
import Verif.Props.Unsupported
import Verif.Props.Direction
import Verif.Props.Strings
import Verif.Props.Parsed
import Verif.Props.Grammar
import Verif.Props.Grammar2
import Verif.Props.Grammar3
import Verif.Props.Grammar4
import Verif.Props.Serial
import Verif.Props.Example
import Verif.Props.Document
import Verif.Props.Canonical
import Verif.Props.Float
import Verif.Props.Build
import Verif.Props.Masked
import Verif.Props.Vectors
import Verif.Props.ReadsBack
import Verif.Props.Edit
import Verif.Props.Settle
import Verif.Props.Compose
import Verif.Props.History
import Verif.Props.Made
import Verif.Props.Size
import Verif.Props.Fault
import Verif.Props.Equal
import Verif.Props.Insert
import Verif.Props.InsertConn
import Verif.Props.MaskHistory
import Verif.Props.Sense
import Verif.Props.Cut
import Verif.Props.World
import Verif.Props.Quote
import Verif.Props.Bytes
import Verif.Conformance.Env
import Verif.Conformance.Attributes
import Verif.Conformance.Lines
import Verif.Conformance.Documents
import Verif.Conformance.Values
import Verif.Conformance.Floats
import Verif.Props.Remask
import Verif.Props.Rfc
import Verif.Props.RfcLines
import Verif.Props.RfcDocument
import Verif.Props.RfcOrder
import Verif.Props.RfcMore
import Verif.Props.RfcImage
import Verif.Props.RfcFmtp
import Verif.Props.RfcWritten
import Verif.Props.RfcRewritten
import Verif.Props.RfcIp
import Verif.Props.RfcBuilt
import Verif.Props.RfcMasked
import Verif.Props.RfcEdited
import Verif.Props.Script
import Verif.Props.TextEdit
import Verif.Props.Interleave
import Verif.Props.Range
import Verif.Props.Reveals
import Verif.Props.Alike
import Verif.Props.AlikeMore
import Verif.Props.Redacted
import Verif.Props.SerialSeen
import Verif.Props.PrintLength
import Verif.Props.SerialShape
import Verif.Props.SerialDepth
