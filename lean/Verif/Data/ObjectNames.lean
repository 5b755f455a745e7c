import Verif.Model.OKind

/-! Generated from spec/ObjectsSpec.xml by tools/gen_specs.py; do not edit. -/

namespace Dxf

/-- The kinds of objects. -/
inductive OName where
  | acadProxyObject
  | dictionaryWithDefault
  | placeHolder
  | navisWorksModelDefinition
  | dataTable
  | dictionary
  | dictionaryVariable
  | dimensionAssoc
  | field
  | geoData
  | group
  | idBuffer
  | imageDefinition
  | imageDefinitionReactor
  | layerFilter
  | layerIndex
  | layout
  | lightList
  | material
  | mLeaderStyle
  | mLineStyle
  | objectPointer
  | plotSettings
  | rapidRTRenderEnvironment
  | rapidRenderSettings
  | rasterVariables
  | mentalRayRenderSettings
  | renderEnvironment
  | renderGlobal
  | sectionManager
  | sectionSettings
  | sortentsTable
  | spatialFilter
  | spatialIndex
  | sunStudy
  | tableStyle
  | underlayDefinition
  | vbaProject
  | visualStyle
  | wipeoutVariables
  | xRecordObject
  deriving DecidableEq, Repr

namespace OName

/-- What is generated for a kind. -/
def kind : OName → OKind
  | .acadProxyObject => {
    typeString := str!"ACAD_PROXY_OBJECT"
    names := [str!"ACAD_PROXY_OBJECT"]
    min := (some .r2000)
    max := none
    spec := Obj.acadProxyObjectSpec
    eof := false
    arms := fun _ => Obj.acadProxyObjectArms
    cmds := Obj.acadProxyObjectCmds }
  | .dictionaryWithDefault => {
    typeString := str!"ACDBDICTIONARYWDFLT"
    names := [str!"ACDBDICTIONARYWDFLT"]
    min := (some .r2000)
    max := none
    spec := Obj.dictionaryWithDefaultSpec
    eof := true
    arms := fun _ => Obj.dictionaryWithDefaultArms
    cmds := Obj.dictionaryWithDefaultCmds }
  | .placeHolder => {
    typeString := str!"ACDBPLACEHOLDER"
    names := [str!"ACDBPLACEHOLDER"]
    min := (some .r2000)
    max := none
    spec := Obj.placeHolderSpec
    eof := false
    arms := fun _ => Obj.placeHolderArms
    cmds := Obj.placeHolderCmds }
  | .navisWorksModelDefinition => {
    typeString := str!"AcDbNavisworksModelDef"
    names := [str!"AcDbNavisworksModelDef"]
    min := (some .r2018)
    max := none
    spec := Obj.navisWorksModelDefinitionSpec
    eof := false
    arms := fun _ => Obj.navisWorksModelDefinitionArms
    cmds := Obj.navisWorksModelDefinitionCmds }
  | .dataTable => {
    typeString := str!"DATATABLE"
    names := [str!"DATATABLE"]
    min := (some .r2007)
    max := none
    spec := Obj.dataTableSpec
    eof := true
    arms := fun _ => Obj.dataTableArms
    cmds := Obj.dataTableCmds }
  | .dictionary => {
    typeString := str!"DICTIONARY"
    names := [str!"DICTIONARY"]
    min := none
    max := none
    spec := Obj.dictionarySpec
    eof := true
    arms := fun _ => Obj.dictionaryArms
    cmds := Obj.dictionaryCmds }
  | .dictionaryVariable => {
    typeString := str!"DICTIONARYVAR"
    names := [str!"DICTIONARYVAR"]
    min := none
    max := none
    spec := Obj.dictionaryVariableSpec
    eof := false
    arms := fun _ => Obj.dictionaryVariableArms
    cmds := Obj.dictionaryVariableCmds }
  | .dimensionAssoc => {
    typeString := str!"DIMASSOC"
    names := [str!"DIMASSOC"]
    min := (some .r2004)
    max := none
    spec := Obj.dimensionAssocSpec
    eof := false
    arms := fun _ => Obj.dimensionAssocArms
    cmds := Obj.dimensionAssocCmds }
  | .field => {
    typeString := str!"FIELD"
    names := [str!"FIELD"]
    min := (some .r2004)
    max := none
    spec := Obj.fieldSpec
    eof := false
    arms := fun _ => Obj.fieldArms
    cmds := Obj.fieldCmds }
  | .geoData => {
    typeString := str!"GEODATA"
    names := [str!"GEODATA"]
    min := (some .r2010)
    max := none
    spec := Obj.geoDataSpec
    eof := false
    arms := fun _ => Obj.geoDataArms
    cmds := Obj.geoDataCmds }
  | .group => {
    typeString := str!"GROUP"
    names := [str!"GROUP"]
    min := none
    max := none
    spec := Obj.groupSpec
    eof := false
    arms := fun _ => Obj.groupArms
    cmds := Obj.groupCmds }
  | .idBuffer => {
    typeString := str!"IDBUFFER"
    names := [str!"IDBUFFER"]
    min := (some .r14)
    max := none
    spec := Obj.idBufferSpec
    eof := false
    arms := fun _ => Obj.idBufferArms
    cmds := Obj.idBufferCmds }
  | .imageDefinition => {
    typeString := str!"IMAGEDEF"
    names := [str!"IMAGEDEF"]
    min := (some .r14)
    max := none
    spec := Obj.imageDefinitionSpec
    eof := false
    arms := fun _ => Obj.imageDefinitionArms
    cmds := Obj.imageDefinitionCmds }
  | .imageDefinitionReactor => {
    typeString := str!"IMAGEDEF_REACTOR"
    names := [str!"IMAGEDEF_REACTOR"]
    min := (some .r14)
    max := none
    spec := Obj.imageDefinitionReactorSpec
    eof := false
    arms := fun _ => Obj.imageDefinitionReactorArms
    cmds := Obj.imageDefinitionReactorCmds }
  | .layerFilter => {
    typeString := str!"LAYER_FILTER"
    names := [str!"LAYER_FILTER"]
    min := (some .r2004)
    max := none
    spec := Obj.layerFilterSpec
    eof := false
    arms := fun _ => Obj.layerFilterArms
    cmds := Obj.layerFilterCmds }
  | .layerIndex => {
    typeString := str!"LAYER_INDEX"
    names := [str!"LAYER_INDEX"]
    min := (some .r14)
    max := none
    spec := Obj.layerIndexSpec
    eof := false
    arms := fun _ => Obj.layerIndexArms
    cmds := Obj.layerIndexCmds }
  | .layout => {
    typeString := str!"LAYOUT"
    names := [str!"LAYOUT"]
    min := (some .r2000)
    max := none
    spec := Obj.layoutSpec
    eof := true
    arms := Obj.layoutArms
    next := Obj.layoutNext
    cmds := Obj.layoutCmds }
  | .lightList => {
    typeString := str!"LIGHTLIST"
    names := [str!"LIGHTLIST"]
    min := (some .r2007)
    max := none
    spec := Obj.lightListSpec
    eof := true
    arms := fun _ => Obj.lightListArms
    cmds := Obj.lightListCmds }
  | .material => {
    typeString := str!"MATERIAL"
    names := [str!"MATERIAL"]
    min := (some .r2004)
    max := none
    spec := Obj.materialSpec
    eof := true
    arms := Obj.materialArms
    next := Obj.materialNext
    cmds := Obj.materialCmds }
  | .mLeaderStyle => {
    typeString := str!"MLEADERSTYLE"
    names := [str!"MLEADERSTYLE"]
    min := (some .r2007)
    max := none
    spec := Obj.mLeaderStyleSpec
    eof := false
    arms := fun _ => Obj.mLeaderStyleArms
    cmds := Obj.mLeaderStyleCmds }
  | .mLineStyle => {
    typeString := str!"MLINESTYLE"
    names := [str!"MLINESTYLE"]
    min := none
    max := none
    spec := Obj.mLineStyleSpec
    eof := true
    arms := Obj.mLineStyleArms
    next := Obj.mLineStyleNext
    cmds := Obj.mLineStyleCmds }
  | .objectPointer => {
    typeString := str!"OBJECT_PTR"
    names := [str!"OBJECT_PTR"]
    min := (some .r14)
    max := none
    spec := Obj.objectPointerSpec
    eof := false
    arms := fun _ => Obj.objectPointerArms
    cmds := Obj.objectPointerCmds }
  | .plotSettings => {
    typeString := str!"PLOTSETTINGS"
    names := [str!"PLOTSETTINGS"]
    min := (some .r2000)
    max := none
    spec := Obj.plotSettingsSpec
    eof := false
    arms := fun _ => Obj.plotSettingsArms
    cmds := Obj.plotSettingsCmds }
  | .rapidRTRenderEnvironment => {
    typeString := str!"RAPIDRTRENDERENVIRONMENT"
    names := [str!"RAPIDRTRENDERENVIRONMENT"]
    min := (some .r2018)
    max := none
    spec := Obj.rapidRTRenderEnvironmentSpec
    eof := false
    arms := fun _ => Obj.rapidRTRenderEnvironmentArms
    cmds := Obj.rapidRTRenderEnvironmentCmds }
  | .rapidRenderSettings => {
    typeString := str!"RAPIDRTRENDERSETTINGS"
    names := [str!"RAPIDRTRENDERSETTINGS"]
    min := (some .r2018)
    max := none
    spec := Obj.rapidRenderSettingsSpec
    eof := false
    arms := fun _ => Obj.rapidRenderSettingsArms
    cmds := Obj.rapidRenderSettingsCmds }
  | .rasterVariables => {
    typeString := str!"RASTERVARIABLES"
    names := [str!"RASTERVARIABLES"]
    min := (some .r14)
    max := none
    spec := Obj.rasterVariablesSpec
    eof := false
    arms := fun _ => Obj.rasterVariablesArms
    cmds := Obj.rasterVariablesCmds }
  | .mentalRayRenderSettings => {
    typeString := str!"MENTALRAYRENDERSETTINGS"
    names := [str!"MENTALRAYRENDERSETTINGS"]
    min := (some .r2007)
    max := none
    spec := Obj.mentalRayRenderSettingsSpec
    eof := false
    arms := fun _ => Obj.mentalRayRenderSettingsArms
    cmds := Obj.mentalRayRenderSettingsCmds }
  | .renderEnvironment => {
    typeString := str!"RENDERENVIRONMENT"
    names := [str!"RENDERENVIRONMENT"]
    min := (some .r2007)
    max := none
    spec := Obj.renderEnvironmentSpec
    eof := false
    arms := fun _ => Obj.renderEnvironmentArms
    cmds := Obj.renderEnvironmentCmds }
  | .renderGlobal => {
    typeString := str!"RENDERGLOBAL"
    names := [str!"RENDERGLOBAL"]
    min := (some .r2007)
    max := none
    spec := Obj.renderGlobalSpec
    eof := false
    arms := fun _ => Obj.renderGlobalArms
    cmds := Obj.renderGlobalCmds }
  | .sectionManager => {
    typeString := str!"SECTIONMANAGER"
    names := [str!"SECTIONMANAGER"]
    min := (some .r2007)
    max := none
    spec := Obj.sectionManagerSpec
    eof := false
    arms := fun _ => Obj.sectionManagerArms
    cmds := Obj.sectionManagerCmds }
  | .sectionSettings => {
    typeString := str!"SECTIONSETTINGS"
    names := [str!"SECTIONSETTINGS"]
    min := (some .r2007)
    max := none
    spec := Obj.sectionSettingsSpec
    eof := true
    arms := fun _ => Obj.sectionSettingsArms
    cmds := Obj.sectionSettingsCmds }
  | .sortentsTable => {
    typeString := str!"SORTENTSTABLE"
    names := [str!"SORTENTSTABLE"]
    min := (some .r14)
    max := none
    spec := Obj.sortentsTableSpec
    eof := true
    arms := Obj.sortentsTableArms
    next := Obj.sortentsNext
    cmds := Obj.sortentsTableCmds }
  | .spatialFilter => {
    typeString := str!"SPATIAL_FILTER"
    names := [str!"SPATIAL_FILTER"]
    min := (some .r14)
    max := none
    spec := Obj.spatialFilterSpec
    eof := true
    arms := fun _ => Obj.spatialFilterArms
    next := Obj.spatialNext
    cmds := Obj.spatialFilterCmds
    cmds2 := Obj.spatialFilterCmds2 }
  | .spatialIndex => {
    typeString := str!"SPATIAL_INDEX"
    names := [str!"SPATIAL_INDEX"]
    min := (some .r2000)
    max := none
    spec := Obj.spatialIndexSpec
    eof := false
    arms := fun _ => Obj.spatialIndexArms
    cmds := Obj.spatialIndexCmds }
  | .sunStudy => {
    typeString := str!"SUNSTUDY"
    names := [str!"SUNSTUDY"]
    min := (some .r2013)
    max := none
    spec := Obj.sunStudySpec
    eof := true
    arms := fun _ => Obj.sunStudyArms
    next := Obj.sunStudyNext
    cmds := Obj.sunStudyCmds
    cmds2 := Obj.sunStudyCmds2
    cmds3 := Obj.sunStudyCmds3 }
  | .tableStyle => {
    typeString := str!"TABLESTYLE"
    names := [str!"TABLESTYLE"]
    min := (some .r2004)
    max := none
    spec := Obj.tableStyleSpec
    eof := true
    arms := Obj.tableStyleArms
    next := Obj.tableStyleNext
    cmds := Obj.tableStyleCmds }
  | .underlayDefinition => {
    typeString := str!"UNDERLAYDEFINITION"
    names := [str!"UNDERLAYDEFINITION"]
    min := (some .r2007)
    max := none
    spec := Obj.underlayDefinitionSpec
    eof := false
    arms := fun _ => Obj.underlayDefinitionArms
    cmds := Obj.underlayDefinitionCmds }
  | .vbaProject => {
    typeString := str!"VBA_PROJECT"
    names := [str!"VBA_PROJECT"]
    min := (some .r2000)
    max := none
    spec := Obj.vbaProjectSpec
    eof := false
    arms := fun _ => Obj.vbaProjectArms
    cmds := Obj.vbaProjectCmds }
  | .visualStyle => {
    typeString := str!"VISUALSTYLE"
    names := [str!"VISUALSTYLE"]
    min := (some .r2007)
    max := none
    spec := Obj.visualStyleSpec
    eof := false
    arms := fun _ => Obj.visualStyleArms
    cmds := Obj.visualStyleCmds }
  | .wipeoutVariables => {
    typeString := str!"WIPEOUTVARIABLES"
    names := [str!"WIPEOUTVARIABLES"]
    min := (some .r2004)
    max := none
    spec := Obj.wipeoutVariablesSpec
    eof := false
    arms := fun _ => Obj.wipeoutVariablesArms
    cmds := Obj.wipeoutVariablesCmds }
  | .xRecordObject => {
    typeString := str!"XRECORD"
    names := [str!"XRECORD"]
    min := (some .r14)
    max := none
    spec := Obj.xRecordObjectSpec
    eof := true
    arms := fun _ => Obj.xRecordObjectArms
    next := Obj.xRecordNext
    cmds := Obj.xRecordObjectCmds }

/-- All kinds. -/
def all : List OName :=
  [.acadProxyObject, .dictionaryWithDefault, .placeHolder, .navisWorksModelDefinition,
    .dataTable, .dictionary, .dictionaryVariable, .dimensionAssoc, .field, .geoData, .group,
    .idBuffer, .imageDefinition, .imageDefinitionReactor, .layerFilter, .layerIndex, .layout,
    .lightList, .material, .mLeaderStyle, .mLineStyle, .objectPointer, .plotSettings,
    .rapidRTRenderEnvironment, .rapidRenderSettings, .rasterVariables, .mentalRayRenderSettings,
    .renderEnvironment, .renderGlobal, .sectionManager, .sectionSettings, .sortentsTable,
    .spatialFilter, .spatialIndex, .sunStudy, .tableStyle, .underlayDefinition, .vbaProject,
    .visualStyle, .wipeoutVariables, .xRecordObject]

theorem mem_all (k : OName) : k ∈ all := by cases k <;> decide

end OName

end Dxf
