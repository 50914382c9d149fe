import Verif.Base.Basic
import Verif.Base.Chars
import Verif.Base.SMap
import Verif.Contents.Colors
import Verif.Contents.FormPage
import Verif.Contents.Operators
import Verif.Contents.PageContents
import Verif.Contents.PagePaint
import Verif.Contents.PageRes
import Verif.Contents.Painter
import Verif.Contents.PainterLayout
import Verif.Contents.PainterPaths
import Verif.Contents.PainterText
import Verif.Contents.ReaderEnds
import Verif.Contents.ReaderImages
import Verif.Contents.ReaderModel
import Verif.Contents.ReaderText
import Verif.Contents.ReadsAs
import Verif.Contents.ResourceDict
import Verif.Contents.TextEntries
import Verif.Contents.TextPatterns
import Verif.Contents.TextPositions
import Verif.Contents.TextWidths
import Verif.Crypt.Aes
import Verif.Crypt.Aes256
import Verif.Crypt.AesModel
import Verif.Crypt.AesProps
import Verif.Crypt.Password
import Verif.Crypt.PasswordModel
import Verif.Crypt.Rc4
import Verif.Crypt.Resave
import Verif.Document.Annots
import Verif.Document.Append
import Verif.Document.AppendModel
import Verif.Document.Calendar
import Verif.Document.Catalog
import Verif.Document.DateSyntax
import Verif.Document.Dates
import Verif.Document.Destinations
import Verif.Document.Extensions
import Verif.Document.FileSpec
import Verif.Document.GStates
import Verif.Document.Metadata
import Verif.Document.NameTree
import Verif.Document.NameTreeAdd
import Verif.Document.NameTreeModel
import Verif.Document.NameTreeProps
import Verif.Document.NameTreeRoot
import Verif.Document.NameTreeText
import Verif.Document.Outline
import Verif.Document.OutlineErase
import Verif.Document.OutlineModel
import Verif.Document.OutlineProps
import Verif.Document.Signature
import Verif.Document.Streamed
import Verif.Filters.AsciiLemmas
import Verif.Filters.AsciiLemmas2
import Verif.Filters.AsciiModel
import Verif.Filters.AsciiProps
import Verif.Filters.ChainModel
import Verif.Filters.ChainProps
import Verif.Filters.Codec
import Verif.Filters.LzwLemmas
import Verif.Filters.LzwLemmas2
import Verif.Filters.LzwModel
import Verif.Filters.LzwProps
import Verif.Filters.PredictorLemmas
import Verif.Filters.PredictorModel
import Verif.Filters.PredictorProps
import Verif.Filters.Spec
import Verif.Fonts.CMapEntries
import Verif.Fonts.CMapModel
import Verif.Fonts.CMapOneByte
import Verif.Fonts.CMapRoundTrip
import Verif.Fonts.CMapTerminates
import Verif.Fonts.CMapTokens
import Verif.Fonts.CharMap
import Verif.Fonts.CidCMap
import Verif.Fonts.CidWidths
import Verif.Fonts.CodeSpace
import Verif.Fonts.Differences
import Verif.Fonts.DynamicEncoding
import Verif.Fonts.FontFiles
import Verif.Fonts.FontLoad
import Verif.Fonts.FontManager
import Verif.Fonts.GidMap
import Verif.Fonts.GlyphNameTables
import Verif.Fonts.GlyphNames
import Verif.Fonts.PredefTables
import Verif.Fonts.SimpleWrite
import Verif.Fonts.Std14Data
import Verif.Fonts.StdFonts
import Verif.Fonts.TrueType
import Verif.Fonts.TrueTypeFile
import Verif.Fonts.TrueTypeGlyphs
import Verif.Fonts.TrueTypeLoad
import Verif.Fonts.TrueTypeMetrics
import Verif.Fonts.TrueTypeModel
import Verif.Fonts.TrueTypeOrder
import Verif.Fonts.TrueTypeTables
import Verif.Fonts.TrueTypeWitness
import Verif.Fonts.TrueTypeWrite
import Verif.Fonts.WholeFont
import Verif.Forms.ChoiceField
import Verif.Forms.Collections
import Verif.Forms.FieldCreate
import Verif.Forms.FieldFlags
import Verif.Forms.FieldNames
import Verif.Forms.FieldValue
import Verif.Forms.Inherit
import Verif.Forms.Widgets
import Verif.Images.ImageMore
import Verif.Images.ImageObj
import Verif.Images.ImageObjProps
import Verif.Images.Loading
import Verif.Images.Pixels
import Verif.Images.Png
import Verif.Images.XObject
import Verif.Objects.DirtyModel
import Verif.Objects.DirtyProps
import Verif.Objects.Equality
import Verif.Objects.Garbage
import Verif.Objects.Lazy
import Verif.Objects.ObjListModel
import Verif.Objects.ObjListProps
import Verif.Objects.Refs
import Verif.Pages.Boxes
import Verif.Pages.Extra
import Verif.Pages.History
import Verif.Pages.Insert
import Verif.Pages.InsertCore
import Verif.Pages.Model
import Verif.Pages.Props
import Verif.Pages.RemoveCore
import Verif.Pages.Spec
import Verif.Pages.Update
import Verif.Pages.Zipper
import Verif.Parser.Header
import Verif.Parser.ObjStm
import Verif.Parser.XChainModel
import Verif.Parser.XChainNewest
import Verif.Parser.XChainProps
import Verif.Save.Files
import Verif.Save.Save
import Verif.Save.SaveLoad
import Verif.Save.SaveModel
import Verif.Save.SaveObjs
import Verif.Save.SaveRead
import Verif.Save.SaveVersion
import Verif.Sign.Sign
import Verif.Sign.SignModel
import Verif.Streams.Canvas
import Verif.Streams.Device
import Verif.Streams.Handles
import Verif.Streams.ObjStreamData
import Verif.Streams.ObjStreamModel
import Verif.Streams.ObjStreamProps
import Verif.Streams.Unwrap
import Verif.Syntax.Foreign
import Verif.Syntax.LitSpec
import Verif.Syntax.Name
import Verif.Syntax.Numbers
import Verif.Syntax.ObjectProps
import Verif.Syntax.RealProps
import Verif.Syntax.RealText
import Verif.Syntax.Reals
import Verif.Syntax.RoundTrip
import Verif.Syntax.Strings
import Verif.Syntax.TokLex
import Verif.Syntax.TokModel
import Verif.Syntax.TokProgress
import Verif.Syntax.TokQueue
import Verif.Text.NameText
import Verif.Text.PdfDoc
import Verif.Text.TextString
import Verif.Text.Utf
import Verif.Util.Geometry
import Verif.Util.Numeric
import Verif.Util.Tables
import Verif.XRef.ForeignStream
import Verif.XRef.Model
import Verif.XRef.StreamProps
import Verif.XRef.TableLemmas
import Verif.XRef.TableProps
import Verif.XRef.TextProps
