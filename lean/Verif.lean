import Verif.Model.Basic
import Verif.Model.ExpectedType
import Verif.Model.Escape
import Verif.Model.Num
import Verif.Model.Hex
import Verif.Model.Encoding
import Verif.Model.TextCodec
import Verif.Model.BinCodec
import Verif.Props.Strings
import Verif.Props.Numbers
import Verif.Props.Codec
import Verif.Props.Small
import Verif.Props.ExtData
import Verif.Props.Tables
import Verif.Props.Header
import Verif.Props.Dates
import Verif.Props.Entities
import Verif.Props.Collect
import Verif.Props.Class
import Verif.Props.Block
import Verif.Props.Objects
import Verif.Props.Drawing
import Verif.Lemmas.LocalRead
import Verif.Props.File
import Verif.Props.Skip
import Verif.Props.Thumbnail
import Verif.Props.Brackets
import Verif.Props.Reload
import Verif.Props.Dxb
import Verif.Props.Typed
import Verif.Props.Bytes
import Verif.Props.DxbItems
import Verif.Props.Panics
import Verif.Props.Saving
import Verif.Props.Lookup
import Verif.Props.Refs
import Verif.Props.Interrupted
import Verif.Props.Io
import Verif.Props.Closed
import Verif.Props.Frame
import Verif.Props.Again
import Verif.Props.Layout
import Verif.Props.Built
import Verif.Props.Upgrade
import Verif.Props.Places
import Verif.Props.After
import Verif.Props.Order
import Verif.Props.Parts
import Verif.Props.Count
import Verif.Props.Twice
import Verif.Props.Drafts
import Verif.Props.Change
import Verif.Props.ItemMut
import Verif.Props.LineWeight
import Verif.Props.Undo
import Verif.Props.Handles
import Verif.Props.Shapes
import Verif.Props.ShapesFile
import Verif.Props.Placed
import Verif.Props.LayerLook
import Verif.Props.Corners
import Verif.Props.Styles
import Verif.Props.Settings
import Verif.Props.Splines
import Verif.Props.Look
