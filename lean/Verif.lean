import Verif.Model.AnyText
import Verif.Model.Array
import Verif.Model.ArrayText
import Verif.Model.Assign
import Verif.Model.Cls
import Verif.Model.Complex
import Verif.Model.ComplexNumber
import Verif.Model.Construct
import Verif.Model.Data
import Verif.Model.Dock
import Verif.Model.Entry
import Verif.Model.EntryName
import Verif.Model.Extract
import Verif.Model.Files
import Verif.Model.FixedText
import Verif.Model.Flags
import Verif.Model.Flash
import Verif.Model.FlashFile
import Verif.Model.Float
import Verif.Model.Fraction
import Verif.Model.Gdb
import Verif.Model.GdbDefault
import Verif.Model.GdbDict
import Verif.Model.GdbSchema
import Verif.Model.GdbText
import Verif.Model.Graphed
import Verif.Model.Group
import Verif.Model.Header
import Verif.Model.HeaderFile
import Verif.Model.Hex
import Verif.Model.Init
import Verif.Model.Iterate
import Verif.Model.Join
import Verif.Model.Json
import Verif.Model.JsonNumber
import Verif.Model.Negate
import Verif.Model.NewNamed
import Verif.Model.Numeric
import Verif.Model.Ordering
import Verif.Model.Picture
import Verif.Model.Pil
import Verif.Model.Program
import Verif.Model.Radical
import Verif.Model.RadicalValue
import Verif.Model.Real
import Verif.Model.RealText
import Verif.Model.Registry
import Verif.Model.Settings
import Verif.Model.Support
import Verif.Model.TokBox
import Verif.Model.Token
import Verif.Model.TokenFormat
import Verif.Model.Tokenized
import Verif.Model.Typeable
import Verif.Model.Var
import Verif.Model.Version
import Verif.Proofs.AnyText
import Verif.Proofs.Array
import Verif.Proofs.ArrayElems
import Verif.Proofs.ArrayReload
import Verif.Proofs.ArrayText
import Verif.Proofs.Assign
import Verif.Proofs.Bytes
import Verif.Proofs.Complex
import Verif.Proofs.ComplexHolds
import Verif.Proofs.ComplexLoad
import Verif.Proofs.ComplexNumber
import Verif.Proofs.ComplexOther
import Verif.Proofs.ComplexPart
import Verif.Proofs.ComplexPrint
import Verif.Proofs.ComplexReload
import Verif.Proofs.ComplexText
import Verif.Proofs.Construct
import Verif.Proofs.Data
import Verif.Proofs.DecStr
import Verif.Proofs.Decimal
import Verif.Proofs.Decode
import Verif.Proofs.Dock
import Verif.Proofs.ElemLoad
import Verif.Proofs.ElemText
import Verif.Proofs.Encode
import Verif.Proofs.EncodeRun
import Verif.Proofs.Entry
import Verif.Proofs.EntryBytes
import Verif.Proofs.EntryLoad
import Verif.Proofs.EntryName
import Verif.Proofs.Escape
import Verif.Proofs.Extension
import Verif.Proofs.Files
import Verif.Proofs.FixedText
import Verif.Proofs.Flags
import Verif.Proofs.Flash
import Verif.Proofs.FlashFault
import Verif.Proofs.FlashFile
import Verif.Proofs.FlashView
import Verif.Proofs.Float
import Verif.Proofs.FloatRead
import Verif.Proofs.FloatText
import Verif.Proofs.Fraction
import Verif.Proofs.FractionLoad
import Verif.Proofs.FractionText
import Verif.Proofs.Gdb
import Verif.Proofs.GdbBack
import Verif.Proofs.GdbColor
import Verif.Proofs.GdbConform
import Verif.Proofs.GdbDefault
import Verif.Proofs.GdbDict
import Verif.Proofs.GdbEq
import Verif.Proofs.GdbFull
import Verif.Proofs.GdbLoad
import Verif.Proofs.GdbOut
import Verif.Proofs.GdbSchema
import Verif.Proofs.GdbText
import Verif.Proofs.GdbUnknown
import Verif.Proofs.GdbWhole
import Verif.Proofs.GraphColors
import Verif.Proofs.Graphed
import Verif.Proofs.Group
import Verif.Proofs.Header
import Verif.Proofs.Hex
import Verif.Proofs.Init
import Verif.Proofs.Join
import Verif.Proofs.Json
import Verif.Proofs.JsonAscii
import Verif.Proofs.JsonError
import Verif.Proofs.JsonGdb
import Verif.Proofs.JsonNumber
import Verif.Proofs.Limit
import Verif.Proofs.LoadFault
import Verif.Proofs.MatrixText
import Verif.Proofs.NumberFile
import Verif.Proofs.Numeric
import Verif.Proofs.OpenAny
import Verif.Proofs.Ordering
import Verif.Proofs.Picture
import Verif.Proofs.Pil
import Verif.Proofs.Radical
import Verif.Proofs.RadicalPrint
import Verif.Proofs.RadicalText
import Verif.Proofs.RadicalValue
import Verif.Proofs.Real
import Verif.Proofs.RealString
import Verif.Proofs.RealText
import Verif.Proofs.RealValue
import Verif.Proofs.RealZeros
import Verif.Proofs.Reload
import Verif.Proofs.Respell
import Verif.Proofs.Schema
import Verif.Proofs.SchemaText
import Verif.Proofs.Settings
import Verif.Proofs.SettingsNumber
import Verif.Proofs.Sized
import Verif.Proofs.StoredNumber
import Verif.Proofs.Str
import Verif.Proofs.Support
import Verif.Proofs.TokBox
import Verif.Proofs.TokenFormat
import Verif.Proofs.Tokenized
import Verif.Proofs.Trie
import Verif.Proofs.Typeable
import Verif.Proofs.TypeableArray
import Verif.Proofs.TypeableComplex
import Verif.Proofs.TypeableList
import Verif.Proofs.Unique
import Verif.Proofs.Var
import Verif.Proofs.VarFault
import Verif.Proofs.VarReload
import Verif.Props.AnyText
import Verif.Props.Array
import Verif.Props.ArrayReload
import Verif.Props.ArrayText
import Verif.Props.Complex
import Verif.Props.ComplexNumber
import Verif.Props.ComplexText
import Verif.Props.Construct
import Verif.Props.Data
import Verif.Props.Dock
import Verif.Props.Entry
import Verif.Props.EntryName
import Verif.Props.Extract
import Verif.Props.Files
import Verif.Props.FixedText
import Verif.Props.Flags
import Verif.Props.Flash
import Verif.Props.FlashFile
import Verif.Props.FlashView
import Verif.Props.Float
import Verif.Props.Fraction
import Verif.Props.Gdb
import Verif.Props.GdbBack
import Verif.Props.GdbDefault
import Verif.Props.GdbDict
import Verif.Props.GdbFile
import Verif.Props.GdbSchema
import Verif.Props.GdbText
import Verif.Props.GdbUnknown
import Verif.Props.Graphed
import Verif.Props.Group
import Verif.Props.GroupFile
import Verif.Props.Header
import Verif.Props.HeaderFile
import Verif.Props.Hex
import Verif.Props.Init
import Verif.Props.Iterate
import Verif.Props.Join
import Verif.Props.JsonGdb
import Verif.Props.JsonNumber
import Verif.Props.Layout
import Verif.Props.LoadFault
import Verif.Props.Negate
import Verif.Props.NewNamed
import Verif.Props.NumberFile
import Verif.Props.Numeric
import Verif.Props.OpenFault
import Verif.Props.Opening
import Verif.Props.Ordering
import Verif.Props.Picture
import Verif.Props.Pil
import Verif.Props.Program
import Verif.Props.Radical
import Verif.Props.RadicalText
import Verif.Props.RadicalValue
import Verif.Props.Real
import Verif.Props.RealText
import Verif.Props.RealZeros
import Verif.Props.Registry
import Verif.Props.Reload
import Verif.Props.Respell
import Verif.Props.Settings
import Verif.Props.SettingsNumber
import Verif.Props.Support
import Verif.Props.TextFile
import Verif.Props.TokBox
import Verif.Props.Token
import Verif.Props.TokenFormat
import Verif.Props.Tokenized
import Verif.Props.Typeable
import Verif.Props.ValueFile
import Verif.Props.Var
import Verif.Props.VarReload
import Verif.Py.Core
import Verif.Py.Str
import Verif.Spec.Array
import Verif.Spec.ArrayReload
import Verif.Spec.ArrayText
import Verif.Spec.Complex
import Verif.Spec.ComplexNumber
import Verif.Spec.Construct
import Verif.Spec.Data
import Verif.Spec.Dock
import Verif.Spec.Entry
import Verif.Spec.EntryName
import Verif.Spec.Files
import Verif.Spec.Flash
import Verif.Spec.FlashFile
import Verif.Spec.Float
import Verif.Spec.Fraction
import Verif.Spec.Gdb
import Verif.Spec.GdbDefault
import Verif.Spec.GdbDict
import Verif.Spec.GdbSchema
import Verif.Spec.Group
import Verif.Spec.Hex
import Verif.Spec.Join
import Verif.Spec.Json
import Verif.Spec.JsonNumber
import Verif.Spec.JsonText
import Verif.Spec.Layout
import Verif.Spec.LoadFault
import Verif.Spec.Mono
import Verif.Spec.NewNamed
import Verif.Spec.Numeric
import Verif.Spec.Opening
import Verif.Spec.Ordering
import Verif.Spec.Picture
import Verif.Spec.Program
import Verif.Spec.RadicalText
import Verif.Spec.Real
import Verif.Spec.RealValue
import Verif.Spec.Reload
import Verif.Spec.Respell
import Verif.Spec.Sample
import Verif.Spec.Schema
import Verif.Spec.Settings
import Verif.Spec.Support
import Verif.Spec.TokBox
import Verif.Spec.Token
import Verif.Spec.TokenFormat
import Verif.Spec.Tokenized
import Verif.Spec.Typeable
import Verif.Spec.Var
