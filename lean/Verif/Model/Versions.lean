import Verif.Model.Cursor

/-!
# Version numbers: engine version, custom versions, save game version
-/

namespace Gvas

/-- `FEngineVersion` (`src/engine_version.rs` 9-23). -/
structure FEngineVersion where
  major : UInt16
  minor : UInt16
  patch : UInt16
  changeList : UInt32
  branch : String
deriving DecidableEq, Repr

/-- `FEngineVersion::read` (`src/engine_version.rs` 50-63). -/
def FEngineVersion.read : R FEngineVersion := do
  let major ← readU16
  let minor ← readU16
  let patch ← readU16
  let changeList ← readU32
  let branch ← readString
  return { major, minor, patch, changeList, branch }

/-- `FEngineVersion::write` (`src/engine_version.rs` 67-75). -/
def FEngineVersion.write (v : FEngineVersion) : Out :=
  ⟨u16B v.major ++ u16B v.minor ++ u16B v.patch ++ u32B v.changeList, 10⟩ ++ writeString v.branch

/-- `EngineVersion` (`src/engine_version.rs` 116-193). -/
inductive EngineVersion where
  | UNKNOWN
  | VER_UE4_OLDEST_LOADABLE_PACKAGE
  | VER_UE4_0
  | VER_UE4_1
  | VER_UE4_2
  | VER_UE4_3
  | VER_UE4_4
  | VER_UE4_5
  | VER_UE4_6
  | VER_UE4_7
  | VER_UE4_8
  | VER_UE4_9
  | VER_UE4_10
  | VER_UE4_11
  | VER_UE4_12
  | VER_UE4_13
  | VER_UE4_14
  | VER_UE4_15
  | VER_UE4_16
  | VER_UE4_17
  | VER_UE4_18
  | VER_UE4_19
  | VER_UE4_20
  | VER_UE4_21
  | VER_UE4_22
  | VER_UE4_23
  | VER_UE4_24
  | VER_UE4_25
  | VER_UE4_26
  | VER_UE4_27
  | VER_UE5_0
  | VER_UE5_1
  | VER_UE5_2
  | VER_UE4_AUTOMATIC_VERSION
  | VER_UE4_AUTOMATIC_VERSION_PLUS_ONE
deriving DecidableEq, Repr

/-- `FEngineVersion::get_version` (`src/engine_version.rs` 78-113). -/
def FEngineVersion.getVersion (v : FEngineVersion) : EngineVersion :=
  match v.major.toNat, v.minor.toNat with
  | 4, 0 => .VER_UE4_0
  | 4, 1 => .VER_UE4_1
  | 4, 2 => .VER_UE4_2
  | 4, 3 => .VER_UE4_3
  | 4, 4 => .VER_UE4_4
  | 4, 5 => .VER_UE4_5
  | 4, 6 => .VER_UE4_6
  | 4, 7 => .VER_UE4_7
  | 4, 8 => .VER_UE4_8
  | 4, 9 => .VER_UE4_9
  | 4, 10 => .VER_UE4_10
  | 4, 11 => .VER_UE4_11
  | 4, 12 => .VER_UE4_12
  | 4, 13 => .VER_UE4_13
  | 4, 14 => .VER_UE4_14
  | 4, 15 => .VER_UE4_15
  | 4, 16 => .VER_UE4_16
  | 4, 17 => .VER_UE4_17
  | 4, 18 => .VER_UE4_18
  | 4, 19 => .VER_UE4_19
  | 4, 20 => .VER_UE4_20
  | 4, 21 => .VER_UE4_21
  | 4, 22 => .VER_UE4_22
  | 4, 23 => .VER_UE4_23
  | 4, 24 => .VER_UE4_24
  | 4, 25 => .VER_UE4_25
  | 4, 26 => .VER_UE4_26
  | 4, 27 => .VER_UE4_27
  | 5, 0 => .VER_UE5_0
  | 5, 1 => .VER_UE5_1
  | 5, 2 => .VER_UE5_2
  | _, _ => .UNKNOWN

/-- `FEditorObjectVersion` (`src/custom_version.rs` 74-246); the discriminants
are the constructor positions (0, 1, 2, ...; `LatestVersion` is explicitly
`VersionPlusOne + 1`, i.e. also its position). -/
inductive FEditorObjectVersion where
  | beforeCustomVersionWasAdded
  | gatheredTextProcessVersionFlagging
  | gatheredTextPackageCacheFixesV1
  | rootMetaDataSupport
  | gatheredTextPackageCacheFixesV2
  | textFormatArgumentDataIsVariant
  | splineComponentCurvesInStruct
  | comboBoxControllerSupportUpdate
  | refactorMeshEditorMaterials
  | addedFontFaceAssets
  | uPropertryForMeshSection
  | widgetGraphSchema
  | addedBackgroundBlurContentSlot
  | stableUserDefinedEnumDisplayNames
  | addedInlineFontFaceAssets
  | uPropertryForMeshSectionSerialize
  | fastWidgetTemplates
  | materialThumbnailRenderingChanges
  | newSlateClippingSystem
  | movieSceneMetaDataSerialization
  | gatheredTextEditorOnlyPackageLocId
  | addedAlwaysSignNumberFormattingOption
  | addedMaterialSharedInputs
  | addedMorphTargetSectionIndices
  | serializeInstancedStaticMeshRenderData
  | meshDescriptionNewSerializationMovedToRelease
  | meshDescriptionNewAttributeFormat
  | changeSceneCaptureRootComponent
  | staticMeshDeprecatedRawMesh
  | meshDescriptionBulkDataGuid
  | meshDescriptionRemovedHoles
  | changedWidgetComponentWindowVisibilityDefault
  | cultureInvariantTextSerializationKeyStability
  | scrollBarThicknessChange
  | removeLandscapeHoleMaterial
  | meshDescriptionTriangles
  | computeWeightedNormals
  | skeletalMeshBuildRefactor
  | skeletalMeshMoveEditorSourceDataToPrivateAsset
  | numberParsingOptionsNumberLimitsAndClamping
  | skeletalMeshSourceDataSupport16bitOfMaterialNumber
  | versionPlusOne
  | latestVersion
deriving DecidableEq, Repr

/-- `FUE5ReleaseStreamObjectVersion` (`src/custom_version.rs` 271-430). -/
inductive FUE5ReleaseStreamObjectVersion where
  | beforeCustomVersionWasAdded
  | reflectionMethodEnum
  | worldPartitionActorDescSerializeHLODInfo
  | removingTessellation
  | levelInstanceSerializeRuntimeBehavior
  | poseAssetRuntimeRefactor
  | worldPartitionActorDescSerializeActorFolderPath
  | hairStrandsVertexFormatChange
  | addChaosMaxLinearAngularSpeed
  | packedLevelInstanceVersion
  | packedLevelInstanceBoundsFix
  | customPropertyAnimGraphNodesUseOptionalPinManager
  | textFormatArgumentData64bitSupport
  | materialLayerStacksAreNotParameters
  | materialInterfaceSavedCachedData
  | addClothMappingLODBias
  | addLevelActorPackagingScheme
  | worldPartitionActorDescSerializeAttachParent
  | convertedActorGridPlacementToSpatiallyLoadedFlag
  | actorGridPlacementDeprecateDefaultValueFixup
  | packedLevelActorUseWorldPartitionActorDesc
  | addLevelActorFolders
  | removeSkeletalMeshLODModelBulkDatas
  | excludeBrightnessFromEncodedHDRCubemap
  | volumetricCloudSampleCountUnification
  | poseAssetRawDataGUID
  | convolutionBloomIntensity
  | worldPartitionHLODActorDescSerializeHLODSubActors
  | largeWorldCoordinates
  | blueprintPinsUseRealNumbers
  | updatedDirectionalLightShadowDefaults
  | geometryCollectionConvexDefaults
  | chaosClothFasterDamping
  | worldPartitionLandscapeActorDescSerializeLandscapeActorGuid
  | addedInertiaTensorAndRotationOfMassAddedToConvex
  | chaosInertiaConvertedToVec3
  | serializeFloatPinDefaultValuesAsSinglePrecision
  | animLayeredBoneBlendMasks
  | storeReflectionCaptureEncodedHDRDataInRG11B10Format
  | rawAnimSequenceTrackSerializer
  | removeDuplicatedStyleInfo
  | linkedAnimGraphMemberReference
  | dynamicMeshComponentsDefaultUseExternalTangents
  | mediaCaptureNewResizeMethods
  | rigVMSaveDebugMapInGraphFunctionData
  | localExposureDefaultChangeFrom1
  | worldPartitionActorDescSerializeActorIsListedInSceneOutliner
  | openColorIODisabledDisplayConfigurationDefault
  | worldPartitionExternalDataLayers
  | chaosClothFictitiousAngularVelocitySubframeFix
  | singlePrecisonParticleDataPT
  | orthographicAutoNearFarPlane
deriving DecidableEq, Repr

/-- `Guid::from_u32` (`src/types.rs` 21-23, 57-65): the little-endian bytes of
the four words, on any host. -/
def Guid.fromU32 (a b c d : UInt32) : Guid :=
  ⟨u32B a ++ u32B b ++ u32B c ++ u32B d, by simp [u32B, leBytes]⟩

/-- `FEditorObjectVersion::GUID` (`src/custom_version.rs` 251). -/
def editorGuid : Guid := Guid.fromU32 0xE4B068ED 0xF49442E9 0xA231DA0B 0x2E46BB41

/-- `FUE5ReleaseStreamObjectVersion::GUID` (`src/custom_version.rs` 435). -/
def ue5ReleaseGuid : Guid := Guid.fromU32 0xD89B5E42 0x24BD4D46 0x8412ACA8 0xDF641779

/-- `PropertyOptions::get_custom_version` (`src/properties/mod.rs` 449-456). -/
def getCustomVersion (cv : List (Guid × UInt32)) (key : Guid) : UInt32 :=
  (cv.lookup key).getD 0

/-- `PropertyOptions::supports_version` (`src/properties/mod.rs` 460-465). -/
def supportsVersion (cv : List (Guid × UInt32)) (key : Guid) (required : Nat) : Bool :=
  decide (required ≤ (getCustomVersion cv key).toNat)

/-- `supports_version(FEditorObjectVersion::CultureInvariantTextSerializationKeyStability)`
(`src/properties/text_property.rs` 304-306, 512-514). -/
def cultureInvariant (cv : List (Guid × UInt32)) : Bool :=
  supportsVersion cv editorGuid
    FEditorObjectVersion.cultureInvariantTextSerializationKeyStability.ctorIdx

/-- `supports_version(FUE5ReleaseStreamObjectVersion::TextFormatArgumentData64bitSupport)`
(`src/properties/text_property.rs` 763-768, 790-793). -/
def text64 (cv : List (Guid × UInt32)) : Bool :=
  supportsVersion cv ue5ReleaseGuid
    FUE5ReleaseStreamObjectVersion.textFormatArgumentData64bitSupport.ctorIdx

/-- `supports_version(FUE5ReleaseStreamObjectVersion::LargeWorldCoordinates)`
(`src/properties/struct_property.rs` 242-318, 438-492). -/
def lwc (cv : List (Guid × UInt32)) : Bool :=
  supportsVersion cv ue5ReleaseGuid
    FUE5ReleaseStreamObjectVersion.largeWorldCoordinates.ctorIdx

/-- `FCustomVersion::read` (`src/custom_version.rs` 30-35). -/
def FCustomVersion.read : R (Guid × UInt32) := do
  let key ← readGuid
  let version ← readU32
  return (key, version)

/-- `FCustomVersion::write` (`src/custom_version.rs` 39-43). -/
def FCustomVersion.write (v : Guid × UInt32) : Out := ⟨guidB v.1 ++ u32B v.2, 20⟩

end Gvas
