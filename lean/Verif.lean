import Verif.Py
import Verif.Dec
import Verif.SchemaData
import Verif.Obj
import Verif.Pre
import Verif.Tree
import Verif.Ident
import Verif.Build
import Verif.Write
import Verif.KvnIo
import Verif.XmlIo
import Verif.FileThreads
import Verif.Files
import Verif.Samples
import Verif.SchemaFacets
import Verif.Spec
import Verif.SpecAdditive
import Verif.SpecChange
import Verif.SpecChars
import Verif.SpecComplete
import Verif.SpecConf
import Verif.SpecEdit
import Verif.SpecEph
import Verif.SpecFile
import Verif.SpecFill
import Verif.SpecFrom
import Verif.SpecKept
import Verif.SpecMalformed
import Verif.SpecMissing
import Verif.SpecNdm
import Verif.SpecOrder
import Verif.SpecRead
import Verif.SpecRt
import Verif.SpecShare
import Verif.SpecStore
import Verif.SpecText
import Verif.SpecToKvn
import Verif.SpecUnknown
import Verif.SpecUpdate
import Verif.SpecWithin
import Verif.SpecWritable
import Verif.SpecXml
import Verif.SpecXmlDoc
import Verif.SpecXmlFrom
import Verif.SpecXmlOrder
import Verif.SpecXmlRead
import Verif.SpecXmlShare
import Verif.Threads
import Verif.ValEq
import Verif.XmlDoc
import Verif.XmlThreads
import Verif.Lemmas.Absent
import Verif.Lemmas.AbsentRead
import Verif.Lemmas.Additive
import Verif.Lemmas.AemOrder
import Verif.Lemmas.AemWritable
import Verif.Lemmas.AemWritten
import Verif.Lemmas.Att
import Verif.Lemmas.BindRt
import Verif.Lemmas.Change
import Verif.Lemmas.ChangeRead
import Verif.Lemmas.Chars
import Verif.Lemmas.CharsRead
import Verif.Lemmas.CharsXml
import Verif.Lemmas.Chop
import Verif.Lemmas.Conf
import Verif.Lemmas.Cut
import Verif.Lemmas.Edit
import Verif.Lemmas.Eph
import Verif.Lemmas.EphAem
import Verif.Lemmas.EphAemRead
import Verif.Lemmas.EphAemWrite
import Verif.Lemmas.EphOem
import Verif.Lemmas.EphTdm
import Verif.Lemmas.EphWrite
import Verif.Lemmas.Erase
import Verif.Lemmas.Errors
import Verif.Lemmas.Exc
import Verif.Lemmas.Fill
import Verif.Lemmas.FromBind
import Verif.Lemmas.FromBuild
import Verif.Lemmas.FromGood
import Verif.Lemmas.FromLine
import Verif.Lemmas.FromRoot
import Verif.Lemmas.GoodCheck
import Verif.Lemmas.GoodUnique
import Verif.Lemmas.Inside
import Verif.Lemmas.Kept
import Verif.Lemmas.Keys
import Verif.Lemmas.Lines
import Verif.Lemmas.Malformed
import Verif.Lemmas.MinMax
import Verif.Lemmas.Missing
import Verif.Lemmas.MissingKvn
import Verif.Lemmas.Num
import Verif.Lemmas.Order
import Verif.Lemmas.Range
import Verif.Lemmas.ReadGood
import Verif.Lemmas.ReadObj
import Verif.Lemmas.ReadRt
import Verif.Lemmas.Relative
import Verif.Lemmas.Rewrite
import Verif.Lemmas.RewriteEph
import Verif.Lemmas.Root
import Verif.Lemmas.Rotation
import Verif.Lemmas.RoundTrip
import Verif.Lemmas.Share
import Verif.Lemmas.SpelledCheck
import Verif.Lemmas.Str
import Verif.Lemmas.Threads
import Verif.Lemmas.Trailing
import Verif.Lemmas.Units
import Verif.Lemmas.Update
import Verif.Lemmas.User
import Verif.Lemmas.Valid
import Verif.Lemmas.Within
import Verif.Lemmas.Writable
import Verif.Lemmas.WritableRead
import Verif.Lemmas.WriteErrors
import Verif.Lemmas.WritePrefix
import Verif.Lemmas.WriteRt
import Verif.Lemmas.XmlBind
import Verif.Lemmas.XmlFrom
import Verif.Lemmas.XmlNum
import Verif.Lemmas.XmlOrder
import Verif.Lemmas.XmlRead
import Verif.Lemmas.XmlTexts
import Verif.Lemmas.XmlThreads
import Verif.Props.Absent
import Verif.Props.Additive
import Verif.Props.AemWritable
import Verif.Props.Attitude
import Verif.Props.Blocks
import Verif.Props.Change
import Verif.Props.Chars
import Verif.Props.CharsXml
import Verif.Props.Combined
import Verif.Props.Conform
import Verif.Props.Cut
import Verif.Props.Detect
import Verif.Props.Edit
import Verif.Props.Ephemeris
import Verif.Props.Errors
import Verif.Props.Files
import Verif.Props.Filled
import Verif.Props.FromPath
import Verif.Props.History
import Verif.Props.Kept
import Verif.Props.Lines
import Verif.Props.Malformed
import Verif.Props.Missing
import Verif.Props.MissingKvn
import Verif.Props.Numbers
import Verif.Props.Order
import Verif.Props.Provenance
import Verif.Props.Reading
import Verif.Props.Refuted
import Verif.Props.Rewriting
import Verif.Props.RoundTrip
import Verif.Props.Schema
import Verif.Props.Segments
import Verif.Props.Share
import Verif.Props.Stated
import Verif.Props.Threads
import Verif.Props.ToFile
import Verif.Props.ToKvn
import Verif.Props.Total
import Verif.Props.Tracking
import Verif.Props.Unknown
import Verif.Props.Valid
import Verif.Props.Writable
import Verif.Props.WriteErrors
import Verif.Props.Writer
import Verif.Props.XmlErrors
import Verif.Props.XmlFrom
import Verif.Props.XmlHistory
import Verif.Props.XmlOrder
import Verif.Props.XmlRead
import Verif.Props.XmlRoundTrip
import Verif.Props.XmlSaid
import Verif.Props.XmlStable
import Verif.Props.XmlThreads
