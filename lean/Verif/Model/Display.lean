import Verif.Model.Versions

/-!
# Texts for people: messages of errors, engine versions; and the table of engine versions
-/

namespace Gvas

/-- `{}` of an unsigned number (`core::fmt`): decimal digits. -/
def dec (n : Nat) : String := String.ofList (Nat.toDigits 10 n)

/-- `{}` of a signed number (`core::fmt`): a minus sign for negative ones, decimal digits. -/
def decInt (v : Int) : String := if v < 0 then "-" ++ dec v.natAbs else dec v.natAbs

/-- `{:#x}` (`core::fmt`): hexadecimal digits in lower case after `0x`. -/
def hex (n : Nat) : String := "0x" ++ String.ofList (Nat.toDigits 16 n)

/-- `Display` of the errors (`src/error.rs` 8-50 for those of reading, 87-95 for the one of writing,
116-129: the wrapper is transparent).  An end of input is the `std` error of `read_exact`; for other
I/O errors the text is that of the operating system, not modelled. -/
def Err.display : Err → Option String
  | .invalidHeader msg => some ("Invalid header: " ++ msg)
  | .invalidValueSize expected actual pos =>
    some ("Invalid value size, expected " ++ dec expected ++ " got " ++ dec actual ++
      " at position " ++ hex pos)
  | .invalidString len pos =>
    some ("Invalid string size " ++ decInt len.toInt ++ " at position " ++ hex pos)
  | .invalidStringTerminator t pos =>
    some ("Invalid string terminator " ++ dec t.toNat ++ " at position " ++ hex pos)
  | .invalidBoolean v pos =>
    some ("Invalid boolean value " ++ dec v.toNat ++ " at position " ++ hex pos)
  | .missingHint struct path pos =>
    some ("Missing hint for struct " ++ struct ++ " at path " ++ path ++ " at position " ++ hex pos)
  | .missingArgument name pos =>
    some ("Missing argument: " ++ name ++ " at position " ++ hex pos)
  | .invalidProperty reason pos =>
    some ("Invalid property " ++ reason ++ " at position " ++ hex pos)
  | .invalidEnumValue name v pos =>
    some ("No discriminant in enum `" ++ name ++ "` matches the value `" ++ decInt v.toInt ++
      "` at position " ++ hex pos)
  | .invalidArrayIndex v pos =>
    some ("Unexpected array_index value " ++ dec v.toNat ++ " at position " ++ hex pos)
  | .invalidTerminator v pos =>
    some ("Unexpected terminator value " ++ dec v.toNat ++ " at position " ++ hex pos)
  | .fromUtf16 pos => some ("Invalid UTF-16 string at position " ++ hex pos)
  | .fromUtf8 pos => some ("Invalid UTF-8 string at position " ++ hex pos)
  | .serializeInvalidValue msg => some ("Invalid value " ++ msg)
  | .eof => some "failed to fill whole buffer"
  | .io => none

/-- `Display` of `FEngineVersion` (`src/engine_version.rs` 25-33). -/
def FEngineVersion.display (v : FEngineVersion) : String :=
  dec v.major.toNat ++ "." ++ dec v.minor.toNat ++ "." ++ dec v.patch.toNat ++ "-" ++
    dec v.changeList.toNat ++ "+++" ++ v.branch

/-- `FEditorObjectVersion::VERSION_MAPPINGS` (`src/custom_version.rs` 59-72, 248-269). -/
def FEditorObjectVersion.versionMappings : List (EngineVersion × Nat) :=
  [(.VER_UE4_AUTOMATIC_VERSION, FEditorObjectVersion.latestVersion.ctorIdx),
   (.VER_UE4_AUTOMATIC_VERSION_PLUS_ONE, FEditorObjectVersion.versionPlusOne.ctorIdx),
   (.VER_UE4_26,
    FEditorObjectVersion.skeletalMeshSourceDataSupport16bitOfMaterialNumber.ctorIdx),
   (.VER_UE4_25, FEditorObjectVersion.skeletalMeshMoveEditorSourceDataToPrivateAsset.ctorIdx),
   (.VER_UE4_24, FEditorObjectVersion.skeletalMeshBuildRefactor.ctorIdx),
   (.VER_UE4_23, FEditorObjectVersion.removeLandscapeHoleMaterial.ctorIdx),
   (.VER_UE4_22, FEditorObjectVersion.meshDescriptionRemovedHoles.ctorIdx),
   (.VER_UE4_21, FEditorObjectVersion.meshDescriptionNewAttributeFormat.ctorIdx),
   (.VER_UE4_20, FEditorObjectVersion.serializeInstancedStaticMeshRenderData.ctorIdx),
   (.VER_UE4_19, FEditorObjectVersion.addedMorphTargetSectionIndices.ctorIdx),
   (.VER_UE4_17, FEditorObjectVersion.gatheredTextEditorOnlyPackageLocId.ctorIdx),
   (.VER_UE4_16, FEditorObjectVersion.materialThumbnailRenderingChanges.ctorIdx),
   (.VER_UE4_15, FEditorObjectVersion.addedInlineFontFaceAssets.ctorIdx),
   (.VER_UE4_14, FEditorObjectVersion.addedFontFaceAssets.ctorIdx),
   (.VER_UE4_13, FEditorObjectVersion.splineComponentCurvesInStruct.ctorIdx),
   (.VER_UE4_12, FEditorObjectVersion.gatheredTextPackageCacheFixesV1.ctorIdx),
   (.VER_UE4_OLDEST_LOADABLE_PACKAGE,
    FEditorObjectVersion.beforeCustomVersionWasAdded.ctorIdx)]

/-- `FUE5ReleaseStreamObjectVersion::VERSION_MAPPINGS` (`src/custom_version.rs` 432-436). -/
def FUE5ReleaseStreamObjectVersion.versionMappings : List (EngineVersion × Nat) := []

end Gvas
