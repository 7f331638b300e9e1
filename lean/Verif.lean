import Verif.Props.Filters
import Verif.Props.Buffer
import Verif.Props.Parser
import Verif.Props.Content
import Verif.Props.Document
import Verif.Props.Locate
import Verif.Props.CMap
import Verif.Props.Codecs
import Verif.Props.Fonts
import Verif.Props.Security
import Verif.Props.Encrypted
import Verif.Props.Objects
import Verif.Props.Lazy
import Verif.Props.StreamData
import Verif.Props.Viewer
import Verif.Props.Navigate
import Verif.Props.Fax
import Verif.Props.Image
import Verif.Props.Metadata
import Verif.Props.File
import Verif.Props.Compressed
import Verif.Props.View
import Verif.Props.TextFile
import Verif.Props.Sealed
import Verif.Props.SecretFile
import Verif.Props.Hidden
import Verif.Props.Termination
import Verif.Props.Behind
import Verif.Props.Eager
import Verif.Props.Told
import Verif.Props.Parts
import Verif.Props.Ignored
import Verif.Props.ImageFile
import Verif.Props.Walk
import Verif.Props.InlineText
import Verif.Props.State
import Verif.Props.Failing
import Verif.Props.Literal
import Verif.Props.Shared
import Verif.Props.Iter
import Verif.Props.ViewPages
import Verif.Props.Amend
import Verif.Props.FaxFile
import Verif.Props.Damaged
import Verif.Props.Kept
import Verif.Props.ProcSets
import Verif.Props.OnlyPages
import Verif.Props.Inline
import Verif.Props.DocInfo
import Verif.Props.Layout
import Verif.Props.CMapRows
import Verif.Props.Crash
import Verif.Props.Custom
import Verif.Props.Handed
import Verif.Props.Spoiled
import Verif.Props.UnicodeFile
import Verif.Props.UnicodePacked
import Verif.Props.UnicodeSealed
import Verif.Props.Mixed
import Verif.Props.Classes
import Verif.Props.Annots
import Verif.Props.Hybrid
import Verif.Props.Mode
import Verif.Props.Cut
import Verif.Props.Equality
import Verif.Props.SealedStream
import Verif.Props.Chain
import Verif.Props.StreamObject
import Verif.Props.HexString
import Verif.Props.EncryptDefaults
