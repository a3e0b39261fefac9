import Verif.Check.Basic

/-!
# Strings, GUIDs and errors (`tests/gvas_tests/`)
-/

namespace Gvas.Check

/-! ## `test_cursor.rs` -/

/-- `test_write_string` (8-27). -/
example : (writeString "test").bytes = [5, 0, 0, 0, 0x74, 0x65, 0x73, 0x74, 0] ∧
    (writeString "§").bytes = [0xfe, 0xff, 0xff, 0xff, 0xa7, 0, 0, 0] := by decide +kernel

/-- `test_write_fstring` (29-53). -/
example : (writeFString (some "test")).bytes = [5, 0, 0, 0, 0x74, 0x65, 0x73, 0x74, 0] ∧
    (writeFString (some "§")).bytes = [0xfe, 0xff, 0xff, 0xff, 0xa7, 0, 0, 0] ∧
    (writeFString none).bytes = [0, 0, 0, 0] := by decide +kernel

/-- `test_read_string` (55-83). -/
example : reads readString [5, 0, 0, 0, 0x74, 0x65, 0x73, 0x74, 0] "test" ∧
    reads readString [0xfe, 0xff, 0xff, 0xff, 0xa7, 0, 0, 0] "§" ∧
    failsWith readString [0, 0, 0, 0] "Invalid string size 0 at position 0x0" ∧
    failsWith readString [1, 0, 0, 0, 0x74] "Invalid string terminator 116 at position 0x5" ∧
    failsWith readString [0xff, 0xff, 0xff, 0xff, 0x74, 0x65]
      "Invalid string terminator 25972 at position 0x6" := by decide +kernel

/-- `test_read_fstring` (85-113). -/
example : reads readFString [5, 0, 0, 0, 0x74, 0x65, 0x73, 0x74, 0] (some "test") ∧
    reads readFString [0xfe, 0xff, 0xff, 0xff, 0xa7, 0, 0, 0] (some "§") ∧
    reads readFString [0, 0, 0, 0] none ∧
    failsWith readFString [1, 0, 0, 0, 0x74] "Invalid string terminator 116 at position 0x5" ∧
    failsWith readFString [0xff, 0xff, 0xff, 0xff, 0x74, 0x65]
      "Invalid string terminator 25972 at position 0x6" := by decide +kernel

/-! ## `test_file.rs` and the first tests of `errors.rs` -/

/-- `GvasFile::read` of a plain file without hints. -/
def readPlainFile : R (GvasHeader × List (String × Property)) :=
  readContents true (fun _ => none) 100

/-- `test_file_err` (test_file.rs 8-29). -/
example : failsWith readPlainFile [0, 0, 0, 0] "Invalid header: File type 0 not recognized" ∧
    failsWith GvasHeader.read [0, 0, 0, 0] "Invalid header: File type 0 not recognized" := by
  decide +kernel

/-- `test_version_err` (test_file.rs 31-58). -/
example :
    let buf := u32B fileTypeGvas ++ u32B 0x7DC2293F
    failsWith readPlainFile buf "Invalid header: GVAS version 2109876543 not supported" ∧
      failsWith GvasHeader.read buf "Invalid header: GVAS version 2109876543 not supported" := by
  decide +kernel

/-- `test_unexpected_eof` (errors.rs 15-25). -/
example : failsWith readPlainFile [] "failed to fill whole buffer" := by decide +kernel

/-- `test_invalid_header` (errors.rs 29-39). -/
example : failsAs readPlainFile [0x47, 0x56, 0x41, 0x5a]
    (.invalidHeader "File type 1514231367 not recognized") := by decide +kernel

/-! ## `errors.rs`: headers of properties -/

/-- `X::read_header` of a property type. -/
def readAs (ty : String) : R Property := Property.read (plainEnv true) 100 ty true none

/-- `test_invalid_array_index` (46-104). -/
example : ["StrProperty", "EnumProperty", "ArrayProperty", "SetProperty", "MapProperty"].all
    fun ty => failsAs (readAs ty) [0, 0, 0, 0, 1, 0, 0, 0] (.invalidArrayIndex 1 4) := by
  decide +kernel

/-- `INVALID_TERMINATOR_ENUM` (112-117). -/
def invalidTerminatorEnum : Bytes := [0, 0, 0, 0, 0, 0, 0, 0, 1, 0, 0, 0, 0, 1]

/-- `test_invalid_terminator` (127-188). -/
example : failsAs (readAs "StrProperty") [0, 0, 0, 0, 0, 0, 0, 0, 1] (.invalidTerminator 1 8) ∧
    (["EnumProperty", "ArrayProperty", "SetProperty"].all fun ty =>
      failsAs (readAs ty) invalidTerminatorEnum (.invalidTerminator 1 13)) ∧
    failsAs (readAs "MapProperty") [0, 0, 0, 0, 0, 0, 0, 0, 1, 0, 0, 0, 0, 1, 0, 0, 0, 0, 1]
      (.invalidTerminator 1 18) := by decide +kernel

/-- `test_invalid_length` (229-304). -/
example :
    failsAs (readAs "StrProperty") [0, 0, 0, 0, 0, 0, 0, 0, 0, 0, 0, 0, 0]
      (.invalidValueSize 0 4 9) ∧
    failsAs (readAs "EnumProperty") [0, 0, 0, 0, 0, 0, 0, 0, 1, 0, 0, 0, 0, 0, 1, 0, 0, 0, 0]
      (.invalidValueSize 0 5 14) ∧
    failsAs (readAs "ArrayProperty") [0, 0, 0, 0, 0, 0, 0, 0, 1, 0, 0, 0, 0, 0, 0, 0, 0, 0]
      (.invalidValueSize 0 4 14) ∧
    failsAs (readAs "SetProperty")
      [0, 0, 0, 0, 0, 0, 0, 0, 1, 0, 0, 0, 0, 0, 0, 0, 0, 0, 0, 0, 0, 0]
      (.invalidValueSize 0 8 14) ∧
    failsAs (readAs "MapProperty")
      [0, 0, 0, 0, 0, 0, 0, 0, 1, 0, 0, 0, 0, 1, 0, 0, 0, 0, 0, 0, 0, 0, 0, 0, 0, 0, 0]
      (.invalidValueSize 0 8 19) := by decide +kernel

/-! ## `name_arrayindex.rs` -/

/-- The data of `name_property_with_array_index` (9-14), behind the type name. -/
def nameData : Bytes :=
  [0x1d, 0x00, 0x00, 0x00, 0x01, 0x00, 0x00, 0x00, 0x00, 0x19, 0x00, 0x00, 0x00,
   0x51, 0x55, 0x39, 0x31, 0x5f, 0x49, 0x6e, 0x76, 0x65, 0x73, 0x74, 0x69, 0x67, 0x61, 0x74,
   0x65, 0x54, 0x6f, 0x77, 0x65, 0x72, 0x5f, 0x42, 0x32, 0x00]

/-- `name_property_with_array_index` (8-43). -/
example : (match (readAs "NameProperty" (RS.init nameData)).1 with
      | .ok p => p.eqv (.name 1 (some "QU91_InvestigateTower_B2")) &&
          match p.write [] true with
          | .ok o => o.bytes == (writeString "NameProperty").bytes ++ nameData
          | _ => false
      | _ => false) = true := by decide +kernel

/-! ## `test_guid.rs` -/

/-- `GUID_2_BYTES` (7-9). -/
def guid2 : Guid := ⟨[0, 1, 2, 3, 4, 5, 6, 7, 8, 9, 10, 11, 12, 13, 14, 15], rfl⟩
/-- `GUID_3_BYTES` (10-12). -/
def guid3 : Guid := ⟨[0x38, 0x05, 0xEC, 0x1D, 0xD2, 0x5F, 0x45, 0xA9, 0xEC, 0x42, 0xAA, 0x65,
  0x80, 0x41, 0x6A, 0xC5], rfl⟩
/-- `GUID_1_BYTES` (6). -/
def guid1 : Guid := ⟨[1, 0, 0, 0, 0, 0, 0, 0, 0, 0, 0, 0, 0, 0, 0, 0], rfl⟩

/-- `test_guid_constructor` (14-24). -/
example : String.ofList zeroGuid.display = "0" ∧
    String.ofList guid1.display = "01000000-0000-0000-0000-000000000000" ∧
    String.ofList guid2.display = "00010203-0405-0607-0809-0A0B0C0D0E0F" ∧
    String.ofList guid3.display = "3805EC1D-D25F-45A9-EC42-AA6580416AC5" := by decide +kernel

/-- `test_guid_from_u128` (26-38). -/
example : zeroGuid.toU128 = 0 ∧ guid1.toU128 = 1 ∧
    guid2.toU128 = 0x0f0e0d0c0b0a09080706050403020100 ∧
    guid3.toU128 = 0xc56a418065aa42eca9455fd21dec0538 ∧
    ∀ g ∈ [zeroGuid, guid1, guid2, guid3], Guid.fromU128 g.toU128 = g := by decide +kernel

/-- `test_guid_from_u32` (40-52). -/
example : zeroGuid.toU32 = (0, 0, 0, 0) ∧ guid1.toU32 = (1, 0, 0, 0) ∧
    guid2.toU32 = (0x03020100, 0x07060504, 0x0b0a0908, 0x0f0e0d0c) ∧
    guid3.toU32 = (0x1dec0538, 0xa9455fd2, 0x65aa42ec, 0xc56a4180) ∧
    Guid.fromU32 0x1dec0538 0xa9455fd2 0x65aa42ec 0xc56a4180 = guid3 := by decide +kernel

/-- `test_guid_from_str` (54-67). -/
example : ["3805EC1D-D25F-45A9-EC42-AA6580416AC5", "{3805EC1D-D25F-45A9-EC42-AA6580416AC5}",
      "3805ec1d-d25f-45a9-ec42-aa6580416ac5", "{3805ec1d-d25f-45a9-ec42-aa6580416ac5}",
      "3805ec1dd25f45a9ec42aa6580416ac5", "{3805ec1dd25f45a9ec42aa6580416ac5}"].all
    fun s => Guid.parse s.toList == .ok (some guid3) := by decide +kernel

/-- `test_guid_from_str_invalid` (69-77). -/
example : ["3805ec1d-d25f-45a9-ec42-aa658041", "x805ec1d-h25f-45a9-ec42-aa6580416ac5"].all
    fun s => Guid.parse s.toList == .ok none := by decide +kernel

end Gvas.Check
