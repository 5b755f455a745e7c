/-! Discriminants of the enums of src/enums.rs used by the specifications.  Generated by
tools/gen_specs.py; do not edit. -/

namespace Dxf.E

/-- `AngleDirection`, src/enums.rs:131: CounterClockwise, Clockwise. -/
def angleDirection : List Int := [0, 1]
/-- `AngleFormat`, src/enums.rs:140: DecimalDegrees, DegreesMinutesSeconds, Gradians, Radians,
SurveyorsUnits. -/
def angleFormat : List Int := [0, 1, 2, 3, 4]
/-- `AttachmentPoint`, src/enums.rs:152: TopLeft, TopCenter, TopRight, MiddleLeft, MiddleCenter,
MiddleRight, BottomLeft, BottomCenter, BottomRight. -/
def attachmentPoint : List Int := [1, 2, 3, 4, 5, 6, 7, 8, 9]
/-- `AttributeVisibility`, src/enums.rs:168: None, Normal, All. -/
def attributeVisibility : List Int := [0, 1, 2]
/-- `BackgroundFillSetting`, src/enums.rs:178: Off, UseBackgroundFillColor, UseDrawingWindowColor.
-/
def backgroundFillSetting : List Int := [0, 1, 2]
/-- `BottomTextAttachmentDirection`, src/enums.rs:188: Center, UnderlineAndCenter. -/
def bottomTextAttachmentDirection : List Int := [9, 10]
/-- `CoordinateDisplay`, src/enums.rs:197: Static, ContinuousUpdate, DistanceAngleFormat. -/
def coordinateDisplay : List Int := [0, 1, 2]
/-- `DefaultLightingType`, src/enums.rs:207: OneDistantLight, TwoDistantLights. -/
def defaultLightingType : List Int := [0, 1]
/-- `DesignCoordinateType`, src/enums.rs:217: Unknown, LocalGrid, ProjectedGrid, Geographic. -/
def designCoordinateType : List Int := [0, 1, 2, 3]
/-- `DiagnosticBSPMode`, src/enums.rs:229: Depth, Size. -/
def diagnosticBSPMode : List Int := [0, 1]
/-- `DiagnosticPhotonMode`, src/enums.rs:239: Density, Irradiance. -/
def diagnosticPhotonMode : List Int := [0, 1]
/-- `DictionaryDuplicateRecordHandling`, src/enums.rs:249: NotApplicable, KeepExisting, UseClone,
UpdateXrefAndName, UpdateName, UnmangleName. -/
def dictionaryDuplicateRecordHandling : List Int := [0, 1, 2, 3, 4, 5]
/-- `DimensionArcSymbolDisplayMode`, src/enums.rs:263: SymbolBeforeText, SymbolAboveText,
Suppress. -/
def dimensionArcSymbolDisplayMode : List Int := [0, 1, 2]
/-- `DimensionAssociativity`, src/enums.rs:273: NoAssociationExploded, NonAssociativeObjects,
AssociativeObjects. -/
def dimensionAssociativity : List Int := [0, 1, 2]
/-- `DimensionFit`, src/enums.rs:283: TextAndArrowsOutsideLines, MoveArrowsFirst, MoveTextFirst,
MoveEitherForBestFit. -/
def dimensionFit : List Int := [0, 1, 2, 3]
/-- `DimensionFractionFormat`, src/enums.rs:294: HorizontalStacking, DiagonalStacking, NotStacked.
-/
def dimensionFractionFormat : List Int := [0, 1, 2]
/-- `DimensionTextBackgroundColorMode`, src/enums.rs:304: None, UseDrawingBackground, Custom. -/
def dimensionTextBackgroundColorMode : List Int := [0, 1, 2]
/-- `DimensionTextJustification`, src/enums.rs:314: AboveLineCenter,
AboveLineNextToFirstExtension, AboveLineNextToSecondExtension, AboveLineCenteredOnFirstExtension,
AboveLineCenteredOnSecondExtension. -/
def dimensionTextJustification : List Int := [0, 1, 2, 3, 4]
/-- `DimensionTextMovementRule`, src/enums.rs:326: MoveLineWithText, AddLeaderWhenTextIsMoved,
MoveTextFreely. -/
def dimensionTextMovementRule : List Int := [0, 1, 2]
/-- `DimensionType`, src/enums.rs:336: RotatedHorizontalOrVertical, Aligned, Angular, Diameter,
Radius, AngularThreePoint, Ordinate. -/
def dimensionType : List Int := [0, 1, 2, 3, 4, 5, 6]
/-- `DragMode`, src/enums.rs:350: Off, On, Auto. -/
def dragMode : List Int := [0, 1, 2]
/-- `DrawingDirection`, src/enums.rs:360: LeftToRight, TopToBottom, ByStyle. -/
def drawingDirection : List Int := [1, 3, 5]
/-- `DrawingTimeZone`, src/enums.rs:1159: InternationalDateLineWest, MidwayIsland_Samoa, Hawaii,
Alaska, PacificTime_US_Canada_SanFrancisco_Vancouver, Arizona, Mazatlan, CentralAmerica,
CentralTime_US_Canada, Guadalajara_MexicoCity_Monterrey, Saskatchewan, EasternTime_US_Canada_,
Indiana_East_, Bogota_Lima_Quito, AtlanticTime_Canada_, Caracas_LaPaz, Santiago, Newfoundland,
Brasilia, BuenosAires_Georgetown, Greenland, MidAtlantic, Azores, CapeVerdeIs,
UniversalCoordinatedTime, GreenwichMeanTime, Casablanca_Monrovia,
Amsterdam_Berlin_Bern_Rome_Stockholm, Brussels_Madrid_Copenhagen_Paris,
Belgrade_Bratislava_Budapest_Ljubljana_Prague, Sarajevo_Skopje_Warsaw_Zagreb, WestCentralAfrica,
Athens_Beirut_Istanbul_Minsk, Bucharest, Cairo, Harare_Pretoria,
Helsinki_Kyiv_Sofia_Talinn_Vilnius, Jerusalem, Moscow_StPetersburg_Volograd, Kuwait_Riyadh,
Baghdad, Nairobi, Tehran, AbuDhabi_Muscat, Baku_Tbilisi_Yerevan, Kabul, Ekaterinburg,
Islamabad_Karachi_Tashkent, Chennai_Kolkata_Mumbai_NewDelhi, Kathmandu, Almaty_Novosibirsk,
Astana_Dhaka, SriJayawardenepura, Rangoon, Bangkok_Hanoi_Jakarta, Krasnoyarsk,
Beijing_Chongqing_HongKong_Urumqi, KualaLumpur_Singapore, Taipei, Irkutsk_UlaanBataar, Perth,
Osaka_Sapporo_Tokyo, Seoul, Yakutsk, Adelaide, Darwin, Canberra_Melbourne_Sydney,
Guam_PortMoresby, Brisbane, Hobart, Vladivostok, Magadan_SolomonIs_NewCaledonia,
Auckland_Wellington, Fiji_Kamchatka_MarshallIs, Nukualofa_Tonga. -/
def drawingTimeZone : List Int := [-12000, -11000, -10000, -9000, -8000, -7000, -7002, -6000,
  -6001, -6002, -6003, -5000, -5001, -5002, -4000, -4001, -4002, -3300, -3000, -3001, -3002,
  -2000, -1000, -1001, 0, 1, 2, 1000, 1001, 1002, 1003, 1004, 2000, 2001, 2002, 2003, 2004, 2005,
  3000, 3001, 3002, 3003, 3300, 4000, 4001, 4300, 5000, 5001, 5300, 5450, 6000, 6001, 6002, 6300,
  7000, 7001, 8000, 8001, 8002, 8003, 8004, 9000, 9001, 9002, 9300, 9301, 10000, 10001, 10002,
  10003, 10004, 11000, 12000, 12001, 13000]
/-- `DrawingUnits`, src/enums.rs:370: English, Metric. -/
def drawingUnits : List Int := [0, 1]
/-- `Dwf3DPrecision`, src/enums.rs:8: Deviation_1, Deviation_0_5, Deviation_0_2, Deviation_0_1,
Deviation_0_01, Deviation_0_001. -/
def dwf3DPrecision : List Int := [1, 2, 3, 4, 5, 6]
/-- `EdgeStyleModel`, src/enums.rs:379: NoEdges, IsoLines, FacetEdges. -/
def edgeStyleModel : List Int := [0, 1, 2]
/-- `EndCapSetting`, src/enums.rs:390: None, Round, Angle, Square. -/
def endCapSetting : List Int := [0, 1, 2, 3]
/-- `FaceColorMode`, src/enums.rs:401: NoColor, ObjectColor, BackgroundColor, CustomColor,
MonoColor, Tinted, Desaturated. -/
def faceColorMode : List Int := [0, 1, 2, 3, 4, 5, 6]
/-- `FaceLightingModel`, src/enums.rs:416: Invisible, Visible, Phong, Gooch. -/
def faceLightingModel : List Int := [0, 1, 2, 3]
/-- `FaceLightingQuality`, src/enums.rs:428: None, PerFace, PerVertex. -/
def faceLightingQuality : List Int := [0, 1, 2]
/-- `FaceModifier`, src/enums.rs:439: None, Opacity, Specular. -/
def faceModifier : List Int := [0, 1, 2]
/-- `FlowDirection`, src/enums.rs:450: Down, Up. -/
def flowDirection : List Int := [0, 1]
/-- `FontType`, src/enums.rs:460: TTF, SHX. -/
def fontType : List Int := [0, 1]
/-- `GeoDataVersion`, src/enums.rs:469: R2009, R2010. -/
def geoDataVersion : List Int := [1, 2]
/-- `HelixConstraint`, src/enums.rs:479: ConstrainTurnHeight, ConstrainTurns, ConstrainHeight. -/
def helixConstraint : List Int := [0, 1, 2]
/-- `HorizontalTextJustification`, src/enums.rs:489: Left, Center, Right, Aligned, Middle, Fit. -/
def horizontalTextJustification : List Int := [0, 1, 2, 3, 4, 5]
/-- `ImageClippingBoundaryType`, src/enums.rs:502: Rectangular, Polygonal. -/
def imageClippingBoundaryType : List Int := [1, 2]
/-- `ImageResolutionUnits`, src/enums.rs:511: NoUnits, Centimeters, Inches. -/
def imageResolutionUnits : List Int := [0, 2, 5]
/-- `JoinStyle`, src/enums.rs:522: None, Round, Angle, Flat. -/
def joinStyle : List Int := [0, 1, 2, 3]
/-- `Justification`, src/enums.rs:533: Top, Middle, Bottom. -/
def justification : List Int := [0, 1, 2]
/-- `LayerAndSpatialIndexSaveMode`, src/enums.rs:543: None, LayerIndex, SpatialIndex,
LayerAndSpatialIndex. -/
def layerAndSpatialIndexSaveMode : List Int := [0, 1, 2, 3]
/-- `LeaderCreationAnnotationType`, src/enums.rs:554: WithTextAnnotation, WithToleranceAnnotation,
WithBlockReferenceAnnotation, NoAnnotation. -/
def leaderCreationAnnotationType : List Int := [0, 1, 2, 3]
/-- `LeaderHooklineDirection`, src/enums.rs:565: OppositeFromHorizontalVector,
SameAsHorizontalVector. -/
def leaderHooklineDirection : List Int := [0, 1]
/-- `LeaderPathType`, src/enums.rs:574: StraightLineSegments, Spline. -/
def leaderPathType : List Int := [0, 1]
/-- `LightAttenuationType`, src/enums.rs:583: None, InverseLinear, InverseSquare. -/
def lightAttenuationType : List Int := [0, 1, 2]
/-- `LightType`, src/enums.rs:593: Distant, Point, Spot. -/
def lightType : List Int := [1, 2, 3]
/-- `LineTypeStyle`, src/enums.rs:603: Off, Solid, Dashed, Dotted, ShortDash, MediumDash,
LongDash, DoubleShortDash, DoubleMediumDash, DoubleLongDash, MediumLongDash, SparseDot. -/
def lineTypeStyle : List Int := [0, 1, 2, 3, 4, 5, 6, 7, 8, 9, 10, 11]
/-- `LoftedObjectNormalMode`, src/enums.rs:622: Ruled, SmoothFit, StartCrossSection,
EndCrossSection, StartAndEndCrossSections, AllCrossSections, UseDraftAngleAndMagnitude. -/
def loftedObjectNormalMode : List Int := [0, 1, 2, 3, 4, 5, 6]
/-- `MTextFlag`, src/enums.rs:670: MultilineAttribute, ConstantMultilineAttributeDefinition. -/
def mTextFlag : List Int := [2, 4]
/-- `MTextLineSpacingStyle`, src/enums.rs:679: AtLeast, Exact. -/
def mTextLineSpacingStyle : List Int := [1, 2]
/-- `MapAutoTransformMethod`, src/enums.rs:636: NoAutoTransform, ScaleToCurrentEntity,
IncludeCurrentBlockTransform. -/
def mapAutoTransformMethod : List Int := [1, 2, 4]
/-- `MapProjectionMethod`, src/enums.rs:647: Planar, Box, Cylinder, Sphere. -/
def mapProjectionMethod : List Int := [1, 2, 3, 4]
/-- `MapTilingMethod`, src/enums.rs:659: Tile, Crop, Clamp. -/
def mapTilingMethod : List Int := [1, 2, 3]
/-- `NonAngularUnits`, src/enums.rs:688: Scientific, Decimal, Engineering, Architectural,
Fractional, WindowsDesktop. -/
def nonAngularUnits : List Int := [1, 2, 3, 4, 5, 6]
/-- `ObjectOsnapType`, src/enums.rs:701: None, Endpoint, Midpoint, Center, Node, Quadrant,
Intersection, Insertion, Perpendicular, Tangent, Nearest, ApparentIntersection, Parallel,
StartPoint. -/
def objectOsnapType : List Int := [0, 1, 2, 3, 4, 5, 6, 7, 8, 9, 10, 11, 12, 13]
/-- `OleObjectType`, src/enums.rs:723: Link, Embedded, Static. -/
def oleObjectType : List Int := [1, 2, 3]
/-- `OrthographicViewType`, src/enums.rs:733: None, Top, Bottom, Front, Back, Left, Right. -/
def orthographicViewType : List Int := [0, 1, 2, 3, 4, 5, 6]
/-- `PickStyle`, src/enums.rs:747: None, Group, AssociativeHatch, GroupAndAssociativeHatch. -/
def pickStyle : List Int := [0, 1, 2, 3]
/-- `PlotPaperUnits`, src/enums.rs:758: Inches, Millimeters, Pixels. -/
def plotPaperUnits : List Int := [0, 1, 2]
/-- `PlotRotation`, src/enums.rs:769: NoRotation, CounterClockwise90Degrees, UpsideDown,
Clockwise90Degrees. -/
def plotRotation : List Int := [0, 1, 2, 3]
/-- `PlotStyle`, src/enums.rs:781: ByLayer, ByBlock, ByDictionaryDefault, ByObjectId. -/
def plotStyle : List Int := [0, 1, 2, 3]
/-- `PlotType`, src/enums.rs:792: LastScreenDisplay, DrawingExtents, DrawingLimits, SpecificView,
SpecificWindow, LayoutInformation. -/
def plotType : List Int := [0, 1, 2, 3, 4, 5]
/-- `PolySketchMode`, src/enums.rs:817: SketchLines, SketchPolylines. -/
def polySketchMode : List Int := [0, 1]
/-- `PolylineCurvedAndSmoothSurfaceType`, src/enums.rs:806: None, QuadraticBSpline, CubicBSpline,
Bezier. -/
def polylineCurvedAndSmoothSurfaceType : List Int := [0, 5, 6, 8]
/-- `RasterImageUnits`, src/enums.rs:826: None, Millimeter, Centimeter, Meter, Kilometer, Inch,
Foot, Yard, Mile. -/
def rasterImageUnits : List Int := [0, 1, 2, 3, 4, 5, 6, 7, 8]
/-- `RenderAccuracy`, src/enums.rs:843: Low, Draft, High. -/
def renderAccuracy : List Int := [0, 1, 2]
/-- `RenderDestination`, src/enums.rs:854: RenderWindow, Viewport. -/
def renderDestination : List Int := [0, 1]
/-- `RenderDiagnosticGridMode`, src/enums.rs:864: Object, World, Camera. -/
def renderDiagnosticGridMode : List Int := [0, 1, 2]
/-- `RenderDiagnosticMode`, src/enums.rs:875: Off, Grid, Photon, BSP. -/
def renderDiagnosticMode : List Int := [0, 1, 2, 4]
/-- `RenderDuration`, src/enums.rs:887: ByTime, ByLevel, UntilSatisfactory. -/
def renderDuration : List Int := [0, 1, 2]
/-- `RenderProcedure`, src/enums.rs:898: View, Crop, Selection. -/
def renderProcedure : List Int := [0, 1, 2]
/-- `RenderShadowMode`, src/enums.rs:909: Simple, Sort, Segment. -/
def renderShadowMode : List Int := [0, 1, 2]
/-- `RotatedDimensionType`, src/enums.rs:920: Parallel, Perpendicular. -/
def rotatedDimensionType : List Int := [0, 1]
/-- `SamplingFilterType`, src/enums.rs:930: Box, Triangle, Gauss, Mitchell, Lanczos. -/
def samplingFilterType : List Int := [0, 1, 2, 3, 4]
/-- `ScaleEstimationMethod`, src/enums.rs:943: None, UserSpecified, GridAtReferencePoint,
Prismoidal. -/
def scaleEstimationMethod : List Int := [1, 2, 3, 4]
/-- `ShadeEdgeMode`, src/enums.rs:955: FacesShadedEdgeNotHighlighted,
FacesShadedEdgesHighlightedInBlack, FacesNotFilledEdgesInEntityColor,
FacesInEntityColorEdgesInBlack. -/
def shadeEdgeMode : List Int := [0, 1, 2, 3]
/-- `ShadePlotMode`, src/enums.rs:966: AsDisplayed, Wireframe, Hidden, Rendered. -/
def shadePlotMode : List Int := [0, 1, 2, 3]
/-- `ShadePlotResolutionLevel`, src/enums.rs:978: Draft, Preview, Normal, Presentation, Maximum,
Custom. -/
def shadePlotResolutionLevel : List Int := [0, 1, 2, 3, 4, 5]
/-- `ShadowMode`, src/enums.rs:992: CastsAndReceivesShadows, CastsShadows, ReceivesShadows,
IgnoresShadows. -/
def shadowMode : List Int := [0, 1, 2, 3]
/-- `ShadowType`, src/enums.rs:1003: RayTraced, ShadowMaps. -/
def shadowType : List Int := [0, 1]
/-- `SnapIsometricPlane`, src/enums.rs:1012: Left, Top, Right. -/
def snapIsometricPlane : List Int := [0, 1, 2]
/-- `SnapStyle`, src/enums.rs:1022: Standard, Isometric. -/
def snapStyle : List Int := [0, 1]
/-- `SolidHistoryMode`, src/enums.rs:1031: None, DoesNotOverride, Override. -/
def solidHistoryMode : List Int := [0, 1, 2]
/-- `StandardScale`, src/enums.rs:1042: ScaledToFit, Scale_1_128_inch_to_1_foot,
Scale_1_64_inch_to_1_foot, Scale_1_32_inch_to_1_foot, Scale_1_16_inch_to_1_foot,
Scale_3_32_inch_to_1_foot, Scale_1_8_inch_to_1_foot, Scale_3_16_inch_to_1_foot,
Scale_1_4_inch_to_1_foot, Scale_3_8_inch_to_1_foot, Scale_1_2_inch_to_1_foot,
Scale_3_4_inch_to_1_foot, Scale_1_inch_to_1_foot, Scale_3_inches_to_1_foot,
Scale_6_inches_to_1_foot, Scale_1_foot_to_1_foot, Scale_1_to_1, Scale_1_to_2, Scale_1_to_4,
Scale_1_to_8, Scale_1_to_10, Scale_1_to_16, Scale_1_to_20, Scale_1_to_30, Scale_1_to_40,
Scale_1_to_50, Scale_1_to_100, Scale_2_to_1, Scale_4_to_1, Scale_8_to_1, Scale_10_to_1,
Scale_100_to_1, Scale_1000_to_1. -/
def standardScale : List Int := [0, 1, 2, 3, 4, 5, 6, 7, 8, 9, 10, 11, 12, 13, 14, 15, 16, 17, 18,
  19, 20, 21, 22, 23, 24, 25, 26, 27, 28, 29, 30, 31, 32]
/-- `SubentityType`, src/enums.rs:1083: Edge, Face. -/
def subentityType : List Int := [1, 2]
/-- `TextAttachmentDirection`, src/enums.rs:1093: Horizontal, Vertical. -/
def textAttachmentDirection : List Int := [0, 1]
/-- `TextDirection`, src/enums.rs:1102: LeftToRight, RightToLeft. -/
def textDirection : List Int := [0, 1]
/-- `TextLineSpacingStyle`, src/enums.rs:1111: AtLeast, Exact. -/
def textLineSpacingStyle : List Int := [1, 2]
/-- `TileModeDescriptor`, src/enums.rs:1120: InTiledViewport, InNonTiledViewport. -/
def tileModeDescriptor : List Int := [0, 1]
/-- `TileOrder`, src/enums.rs:1129: Hilbert, Spiral, LeftToRight, RightToLeft, TopToBottom,
BottomToTop. -/
def tileOrder : List Int := [0, 1, 2, 3, 4, 5]
/-- `TopTextAttachmentDirection`, src/enums.rs:1243: Center, OverlineAndCenter. -/
def topTextAttachmentDirection : List Int := [9, 10]
/-- `UcsOrthographicType`, src/enums.rs:1143: NotOrthographic, Top, Bottom, Front, Back, Left,
Right. -/
def ucsOrthographicType : List Int := [0, 1, 2, 3, 4, 5, 6]
/-- `UnderlayFrameMode`, src/enums.rs:1252: None, DisplayAndPlot, DisplayNoPlot. -/
def underlayFrameMode : List Int := [0, 1, 2]
/-- `UnitFormat`, src/enums.rs:1262: Scientific, Decimal, Engineering, ArchitecturalStacked,
FractionalStacked, Architectural, Fractional. -/
def unitFormat : List Int := [1, 2, 3, 4, 5, 6, 7]
/-- `UnitZeroSuppression`, src/enums.rs:1409: SuppressZeroFeetAndZeroInches,
IncludeZeroFeetAndZeroInches, IncludeZeroFeetAndSuppressZeroInches,
IncludeZeroInchesAndSuppressZeroFeet. -/
def unitZeroSuppression : List Int := [0, 1, 2, 3]
/-- `Units`, src/enums.rs:1276: Unitless, Inches, Feet, Miles, Millimeters, Centimeters, Meters,
Kilometers, Microinches, Mils, Yards, Angstroms, Nanometers, Microns, Decimeters, Decameters,
Hectometers, Gigameters, AstronomicalUnits, LightYears, Parsecs, USSurveyFeet, USSurveyInch,
USSurveyYard, USSurveyMile. -/
def units : List Int := [0, 1, 2, 3, 4, 5, 6, 7, 8, 9, 10, 11, 12, 13, 14, 15, 16, 17, 18, 19, 20,
  21, 22, 23, 24]
/-- `Version`, src/enums.rs:1380: R2010. -/
def version : List Int := [0]
/-- `VerticalTextJustification`, src/enums.rs:1388: Baseline, Bottom, Middle, Top. -/
def verticalTextJustification : List Int := [0, 1, 2, 3]
/-- `ViewRenderMode`, src/enums.rs:1365: Classic2D, Wireframe, HiddenLine, FlatShaded,
GouraudShaded, FlatShadedWithWireframe, GouraudShadedWithWireframe. -/
def viewRenderMode : List Int := [0, 1, 2, 3, 4, 5, 6]
/-- `XrefClippingBoundaryVisibility`, src/enums.rs:1399: NotDisplayedNotPlotted,
DisplayedAndPlotted, DisplayedNotPlotted. -/
def xrefClippingBoundaryVisibility : List Int := [0, 1, 2]

end Dxf.E
