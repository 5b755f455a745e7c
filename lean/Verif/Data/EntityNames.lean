import Verif.Model.EKind

/-! Generated from spec/EntitiesSpec.xml by tools/gen_specs.py; do not edit. -/

namespace Dxf

/-- The kinds of entities.  `dimension` stands for the five kinds of dimensions. -/
inductive EName where
  | face3D
  | solid3D
  | proxyEntity
  | arc
  | arcAlignedText
  | attributeDefinition
  | attribute
  | body
  | circle
  | ellipse
  | helix
  | image
  | insert
  | leader
  | light
  | line
  | lwPolyline
  | mLine
  | mText
  | oleFrame
  | ole2Frame
  | modelPoint
  | polyline
  | ray
  | region
  | rText
  | section
  | seqend
  | shape
  | solid
  | spline
  | text
  | tolerance
  | trace
  | dgnUnderlay
  | dwfUnderlay
  | pdfUnderlay
  | vertex
  | wipeout
  | xLine
  | dimension
  deriving DecidableEq, Repr

namespace EName

/-- What is generated for a kind. -/
def kind : EName → EKind
  | .face3D => {
    typeString := str!"3DFACE"
    names := [str!"3DFACE"]
    min := none
    max := none
    spec := Ent.face3DSpec
    eof := false
    arms := fun _ => Ent.face3DArms
    cmds := fun _ => Ent.face3DCmds }
  | .solid3D => {
    typeString := str!"3DSOLID"
    names := [str!"3DSOLID"]
    min := (some .r13)
    max := none
    spec := Ent.solid3DSpec
    eof := false
    arms := fun _ => Ent.solid3DArms
    cmds := fun _ => Ent.solid3DCmds }
  | .proxyEntity => {
    typeString := str!"ACAD_PROXY_ENTITY"
    names := [str!"ACAD_PROXY_ENTITY"]
    min := (some .r14)
    max := none
    spec := Ent.proxyEntitySpec
    eof := false
    arms := fun _ => Ent.proxyEntityArms
    cmds := fun _ => Ent.proxyEntityCmds }
  | .arc => {
    typeString := str!"ARC"
    names := [str!"ARC"]
    min := none
    max := none
    spec := Ent.arcSpec
    eof := false
    arms := fun _ => Ent.arcArms
    cmds := fun _ => Ent.arcCmds }
  | .arcAlignedText => {
    typeString := str!"ARCALIGNEDTEXT"
    names := [str!"ARCALIGNEDTEXT"]
    min := (some .r2000)
    max := (some .r2000)
    spec := Ent.arcAlignedTextSpec
    eof := false
    arms := fun _ => Ent.arcAlignedTextArms
    cmds := fun _ => Ent.arcAlignedTextCmds }
  | .attributeDefinition => {
    typeString := str!"ATTDEF"
    names := [str!"ATTDEF"]
    min := none
    max := none
    spec := Ent.attributeDefinitionSpec
    eof := true
    arms := fun m => Ent.attributeDefinitionArms m.a m.b m.n
    next := Ent.attributeNext
    cmds := fun _ => Ent.attributeDefinitionCmds }
  | .attribute => {
    typeString := str!"ATTRIB"
    names := [str!"ATTRIB"]
    min := none
    max := none
    spec := Ent.attributeSpec
    eof := true
    arms := fun m => Ent.attributeArms m.a m.b m.n
    next := Ent.attributeNext
    cmds := fun _ => Ent.attributeCmds }
  | .body => {
    typeString := str!"BODY"
    names := [str!"BODY"]
    min := (some .r13)
    max := none
    spec := Ent.bodySpec
    eof := false
    arms := fun _ => Ent.bodyArms
    cmds := fun _ => Ent.bodyCmds }
  | .circle => {
    typeString := str!"CIRCLE"
    names := [str!"CIRCLE"]
    min := none
    max := none
    spec := Ent.circleSpec
    eof := false
    arms := fun _ => Ent.circleArms
    cmds := fun _ => Ent.circleCmds }
  | .ellipse => {
    typeString := str!"ELLIPSE"
    names := [str!"ELLIPSE"]
    min := (some .r13)
    max := none
    spec := Ent.ellipseSpec
    eof := false
    arms := fun _ => Ent.ellipseArms
    cmds := fun _ => Ent.ellipseCmds }
  | .helix => {
    typeString := str!"HELIX"
    names := [str!"HELIX"]
    min := (some .r2007)
    max := none
    spec := Ent.helixSpec
    eof := false
    arms := fun _ => Ent.helixArms
    cmds := fun _ => Ent.helixCmds }
  | .image => {
    typeString := str!"IMAGE"
    names := [str!"IMAGE"]
    min := (some .r14)
    max := none
    spec := Ent.imageSpec
    eof := false
    arms := fun _ => Ent.imageArms
    cmds := fun _ => Ent.imageCmds }
  | .insert => {
    typeString := str!"INSERT"
    names := [str!"INSERT"]
    min := none
    max := none
    spec := Ent.insertSpec
    eof := false
    arms := fun _ => Ent.insertArms
    cmds := Ent.insertCmds }
  | .leader => {
    typeString := str!"LEADER"
    names := [str!"LEADER"]
    min := (some .r13)
    max := none
    spec := Ent.leaderSpec
    eof := false
    arms := fun _ => Ent.leaderArms
    cmds := fun _ => Ent.leaderCmds }
  | .light => {
    typeString := str!"LIGHT"
    names := [str!"LIGHT"]
    min := (some .r2007)
    max := none
    spec := Ent.lightSpec
    eof := false
    arms := fun _ => Ent.lightArms
    cmds := fun _ => Ent.lightCmds }
  | .line => {
    typeString := str!"LINE"
    names := [str!"LINE", str!"3DLINE"]
    min := none
    max := none
    spec := Ent.lineSpec
    eof := false
    arms := fun _ => Ent.lineArms
    cmds := fun _ => Ent.lineCmds }
  | .lwPolyline => {
    typeString := str!"LWPOLYLINE"
    names := [str!"LWPOLYLINE"]
    min := (some .r14)
    max := none
    spec := Ent.lwPolylineSpec
    eof := true
    arms := fun _ => Ent.lwPolylineArms
    cmds := fun _ => Ent.lwPolylineCmds }
  | .mLine => {
    typeString := str!"MLINE"
    names := [str!"MLINE"]
    min := (some .r13)
    max := none
    spec := Ent.mLineSpec
    eof := false
    arms := fun _ => Ent.mLineArms
    cmds := fun _ => Ent.mLineCmds }
  | .mText => {
    typeString := str!"MTEXT"
    names := [str!"MTEXT"]
    min := (some .r13)
    max := none
    spec := Ent.mTextSpec
    eof := true
    arms := fun m => Ent.mTextArms m.a m.b
    next := Ent.mTextNext
    cmds := fun _ => Ent.mTextCmds }
  | .oleFrame => {
    typeString := str!"OLEFRAME"
    names := [str!"OLEFRAME"]
    min := (some .r13)
    max := none
    spec := Ent.oleFrameSpec
    eof := false
    arms := fun _ => Ent.oleFrameArms
    cmds := fun _ => Ent.oleFrameCmds }
  | .ole2Frame => {
    typeString := str!"OLE2FRAME"
    names := [str!"OLE2FRAME"]
    min := (some .r14)
    max := none
    spec := Ent.ole2FrameSpec
    eof := false
    arms := fun _ => Ent.ole2FrameArms
    cmds := fun _ => Ent.ole2FrameCmds }
  | .modelPoint => {
    typeString := str!"POINT"
    names := [str!"POINT"]
    min := none
    max := none
    spec := Ent.modelPointSpec
    eof := false
    arms := fun _ => Ent.modelPointArms
    cmds := fun _ => Ent.modelPointCmds }
  | .polyline => {
    typeString := str!"POLYLINE"
    names := [str!"POLYLINE"]
    min := none
    max := none
    spec := Ent.polylineSpec
    eof := false
    arms := fun _ => Ent.polylineArms
    cmds := fun _ => Ent.polylineCmds }
  | .ray => {
    typeString := str!"RAY"
    names := [str!"RAY"]
    min := (some .r13)
    max := none
    spec := Ent.raySpec
    eof := false
    arms := fun _ => Ent.rayArms
    cmds := fun _ => Ent.rayCmds }
  | .region => {
    typeString := str!"REGION"
    names := [str!"REGION"]
    min := (some .r13)
    max := none
    spec := Ent.regionSpec
    eof := false
    arms := fun _ => Ent.regionArms
    cmds := fun _ => Ent.regionCmds }
  | .rText => {
    typeString := str!"RTEXT"
    names := [str!"RTEXT"]
    min := (some .r2000)
    max := (some .r2000)
    spec := Ent.rTextSpec
    eof := false
    arms := fun _ => Ent.rTextArms
    cmds := fun _ => Ent.rTextCmds }
  | .section => {
    typeString := str!"SECTION"
    names := [str!"SECTION"]
    min := (some .r2007)
    max := none
    spec := Ent.sectionSpec
    eof := false
    arms := fun _ => Ent.sectionArms
    cmds := fun _ => Ent.sectionCmds }
  | .seqend => {
    typeString := str!"SEQEND"
    names := [str!"SEQEND"]
    min := none
    max := none
    spec := Ent.seqendSpec
    eof := false
    arms := fun _ => Ent.seqendArms
    cmds := fun _ => Ent.seqendCmds }
  | .shape => {
    typeString := str!"SHAPE"
    names := [str!"SHAPE"]
    min := none
    max := none
    spec := Ent.shapeSpec
    eof := false
    arms := fun _ => Ent.shapeArms
    cmds := fun _ => Ent.shapeCmds }
  | .solid => {
    typeString := str!"SOLID"
    names := [str!"SOLID"]
    min := none
    max := none
    spec := Ent.solidSpec
    eof := false
    arms := fun _ => Ent.solidArms
    cmds := fun _ => Ent.solidCmds }
  | .spline => {
    typeString := str!"SPLINE"
    names := [str!"SPLINE"]
    min := (some .r13)
    max := none
    spec := Ent.splineSpec
    eof := false
    arms := fun _ => Ent.splineArms
    cmds := fun _ => Ent.splineCmds }
  | .text => {
    typeString := str!"TEXT"
    names := [str!"TEXT"]
    min := none
    max := none
    spec := Ent.textSpec
    eof := false
    arms := fun _ => Ent.textArms
    cmds := fun _ => Ent.textCmds }
  | .tolerance => {
    typeString := str!"TOLERANCE"
    names := [str!"TOLERANCE"]
    min := (some .r13)
    max := none
    spec := Ent.toleranceSpec
    eof := false
    arms := fun _ => Ent.toleranceArms
    cmds := fun _ => Ent.toleranceCmds }
  | .trace => {
    typeString := str!"TRACE"
    names := [str!"TRACE"]
    min := none
    max := none
    spec := Ent.traceSpec
    eof := false
    arms := fun _ => Ent.traceArms
    cmds := fun _ => Ent.traceCmds }
  | .dgnUnderlay => {
    typeString := str!"DGNUNDERLAY"
    names := [str!"DGNUNDERLAY"]
    min := (some .r2007)
    max := none
    spec := Ent.dgnUnderlaySpec
    eof := false
    arms := fun _ => Ent.dgnUnderlayArms
    cmds := fun _ => Ent.dgnUnderlayCmds }
  | .dwfUnderlay => {
    typeString := str!"DWFUNDERLAY"
    names := [str!"DWFUNDERLAY"]
    min := (some .r2007)
    max := none
    spec := Ent.dwfUnderlaySpec
    eof := false
    arms := fun _ => Ent.dwfUnderlayArms
    cmds := fun _ => Ent.dwfUnderlayCmds }
  | .pdfUnderlay => {
    typeString := str!"PDFUNDERLAY"
    names := [str!"PDFUNDERLAY"]
    min := (some .r2007)
    max := none
    spec := Ent.pdfUnderlaySpec
    eof := false
    arms := fun _ => Ent.pdfUnderlayArms
    cmds := fun _ => Ent.pdfUnderlayCmds }
  | .vertex => {
    typeString := str!"VERTEX"
    names := [str!"VERTEX"]
    min := none
    max := none
    spec := Ent.vertexSpec
    eof := false
    arms := fun _ => Ent.vertexArms
    cmds := fun _ => Ent.vertexCmds }
  | .wipeout => {
    typeString := str!"WIPEOUT"
    names := [str!"WIPEOUT"]
    min := (some .r2000)
    max := none
    spec := Ent.wipeoutSpec
    eof := false
    arms := fun _ => Ent.wipeoutArms
    cmds := fun _ => Ent.wipeoutCmds }
  | .xLine => {
    typeString := str!"XLINE"
    names := [str!"XLINE"]
    min := (some .r13)
    max := none
    spec := Ent.xLineSpec
    eof := false
    arms := fun _ => Ent.xLineArms
    cmds := fun _ => Ent.xLineCmds }
  | .dimension => {
    typeString := str!"DIMENSION"
    names := [str!"DIMENSION"]
    min := none
    max := none
    spec := Ent.dimensionSpec
    eof := false
    arms := fun m => Ent.dimensionArms m.n
    next := Ent.dimensionNext
    sub := fun m => if m.n = 0 then none else some m.n
    cmds := Ent.dimensionCmds }

/-- All kinds. -/
def all : List EName :=
  [.face3D, .solid3D, .proxyEntity, .arc, .arcAlignedText, .attributeDefinition, .attribute,
    .body, .circle, .ellipse, .helix, .image, .insert, .leader, .light, .line, .lwPolyline,
    .mLine, .mText, .oleFrame, .ole2Frame, .modelPoint, .polyline, .ray, .region, .rText,
    .section, .seqend, .shape, .solid, .spline, .text, .tolerance, .trace, .dgnUnderlay,
    .dwfUnderlay, .pdfUnderlay, .vertex, .wipeout, .xLine, .dimension]

theorem mem_all (k : EName) : k ∈ all := by cases k <;> decide

end EName

end Dxf
