import Verif.Props.Binary
import Verif.Props.ModelerWrite
import Verif.Props.Attributes
import Verif.Props.ModelerRead
import Verif.Props.ModelerReadSafe
import Verif.Props.BinaryRead
import Verif.Props.Math
import Verif.Props.Bounds
import Verif.Props.Concurrent
import Verif.Props.Base64
import Verif.Lemmas.JsonText
import Verif.Lemmas.JsonDoc
import Verif.Lemmas.JsonFloat
import Verif.Model.Encode
import Verif.Lemmas.JsonStable
import Verif.Lemmas.Uri
import Verif.Props.Enum
import Verif.Props.Uri
import Verif.Props.Decode
import Verif.Props.RoundTrip
import Verif.Props.Stability
import Verif.Props.Buffers
import Verif.Props.Save
import Verif.Props.Camera
import Verif.Props.Defaults
import Verif.Props.Extensions
import Verif.Props.TextureTransform
import Verif.Props.Specular
import Verif.Props.Lights
import Verif.Props.Unlit
import Verif.Props.Survive
import Verif.Lemmas.JsonSound
import Verif.Lemmas.DocSound
import Verif.Lemmas.ParseSound
import Verif.Lemmas.Decoded
import Verif.Props.Reencode
import Verif.Spec.Describe
import Verif.Props.Describe
import Verif.Spec.Schema
import Verif.Lemmas.Schema
import Verif.Lemmas.SchemaDoc
import Verif.Props.Schema
import Verif.Props.Accept
import Verif.Props.Scratch
import Verif.Props.BinaryExact
import Verif.Props.WriterExact
import Verif.Props.ColorExact
import Verif.Props.Truncate
import Verif.Props.SplitExact
import Verif.Props.Resave
import Verif.Props.Placed
import Verif.Props.Aligned
import Verif.Props.AttributesPlaced
import Verif.Props.Resolve
import Verif.Props.Number
import Verif.Props.Kinds
import Verif.Props.ExtKinds
import Verif.Props.RegConc
import Verif.Props.ReadExact
import Verif.Props.Heap
import Verif.Props.Shared
import Verif.Props.Encodable
import Verif.Props.BoundsAll
import Verif.Props.Data
import Verif.Props.Build
import Verif.Props.ReadAll
import Verif.Props.Mesh
import Verif.Props.Edit
import Verif.Props.Append
import Verif.Props.Recycle
import Verif.Props.ReaderError
import Verif.Props.FileError
import Verif.Props.Duplicate
import Verif.Props.Successive
import Verif.Props.Lost
import Verif.Props.ScratchIff
import Verif.Props.ColorSame
import Verif.Props.Panics
import Verif.Props.ReadEmpty
import Verif.Props.Reuse
import Verif.Props.JsonText
import Verif.Props.NoPanic
import Verif.Model.Color
import Verif.Spec.Color
import Verif.Lemmas.Color
import Verif.Lemmas.ColorCurve
import Verif.Lemmas.ColorRound
import Verif.Lemmas.ColorAlpha
import Verif.Lemmas.ColorWhite
import Verif.Lemmas.ColorPow
import Verif.Props.Color
import Verif.Props.Files
import Verif.Spec.Nearest
import Verif.Lemmas.Nearest
import Verif.Props.Nearest
import Verif.Spec.Srgb
import Verif.Lemmas.Srgb
import Verif.Model.ColorRead
import Verif.Props.Srgb
import Verif.Props.Appends
import Verif.Props.Standard
import Verif.Props.EnumUnknown
import Verif.Props.LastWins
import Verif.Props.AccessorExact
import Verif.Props.AnyName
import Verif.Props.ByteSlices
import Verif.Props.Skipped
import Verif.Props.Order
import Verif.Props.AlignedExact
import Verif.Props.WriterErrors
import Verif.Props.SchemeOpened
import Verif.Props.AfterData
import Verif.Props.StableDecoded
import Verif.Props.ByteAttributes
import Verif.Props.UpKept
import Verif.Props.BytesFrame
import Verif.Props.SizeExact
import Verif.Props.Settles
import Verif.Props.DecodedUris
import Verif.Props.ImageUris
import Verif.Props.ReuseNames
import Verif.Props.Wrapped
import Verif.Props.SchemeCreated
import Verif.Props.LostUris
