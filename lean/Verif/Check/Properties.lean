import Verif.Check.Basic

/-!
# Round trips of properties (`tests/gvas_tests/test_property.rs`)
-/

namespace Gvas.Check

set_option maxRecDepth 100000

/-- `test_int8`. -/
example : roundTrip "Int8Property"
    (.int8 127) = true := by decide +kernel

/-- `test_byte`. -/
example : roundTrip "ByteProperty"
    (.byte (some "Test ByteProperty") (.byte 2)) = true := by decide +kernel

/-- `test_byte_namespaced`. -/
example : roundTrip "ByteProperty"
    (.byte (some "Test NamespacedByteproperty") (.namespaced "TestEnum::Value0")) = true := by decide +kernel

/-- `test_int16`. -/
example : roundTrip "Int16Property"
    (.int16 32767) = true := by decide +kernel

/-- `test_uint16`. -/
example : roundTrip "UInt16Property"
    (.uint16 65535) = true := by decide +kernel

/-- `test_int`. -/
example : roundTrip "IntProperty"
    (.int 2147483647) = true := by decide +kernel

/-- `test_uint32`. -/
example : roundTrip "UInt32Property"
    (.uint32 4294967295) = true := by decide +kernel

/-- `test_int64`. -/
example : roundTrip "Int64Property"
    (.int64 9223372036854775807) = true := by decide +kernel

/-- `test_uint64`. -/
example : roundTrip "UInt64Property"
    (.uint64 18446744073709551615) = true := by decide +kernel

/-- `test_float`. -/
example : roundTrip "FloatProperty"
    (.float ⟨0x449a4000⟩) = true := by decide +kernel

/-- `test_double`. -/
example : roundTrip "DoubleProperty"
    (.double ⟨0x4093480000000000⟩) = true := by decide +kernel

/-- `test_bool`. -/
example : roundTrip "BoolProperty"
    (.bool true) = true := by decide +kernel

/-- `test_str`. -/
example : roundTrip "StrProperty"
    (.str (some "test string")) = true := by decide +kernel

/-- `test_enum`. -/
example : roundTrip "EnumProperty"
    (.enum (some "type") "value") = true := by decide +kernel

/-- `test_struct`. -/
example : roundTrip "StructProperty"
    (.struct zeroGuid "Vector" (.vectorF ⟨0x00000000⟩ ⟨0x3f800000⟩ ⟨0x40000000⟩)) = true := by decide +kernel

/-- `test_array_empty`. -/
example : roundTrip "ArrayProperty"
    (newArray "FloatProperty" none []) = true := by decide +kernel

/-- `test_array_float`. -/
example : roundTrip "ArrayProperty"
    (newArray "FloatProperty" none [(.float ⟨0x00000000⟩), (.float ⟨0x3f800000⟩)]) = true := by decide +kernel

/-- `test_array_vector`. -/
example : roundTrip "ArrayProperty"
    (newArray "StructProperty" (some ("FieldName", "Vector", (guid
    0x00000000000000000000000000000000))) [(.structValue (.vectorF ⟨0x00000000⟩ ⟨0x3f800000⟩
    ⟨0x40000000⟩)), (.structValue (.vectorF ⟨0x40400000⟩ ⟨0x40800000⟩ ⟨0x40a00000⟩))]) = true := by decide +kernel

/-- `test_array_text`. -/
example : roundTrip "ArrayProperty"
    (newArray "TextProperty" none [(.text (FText.newNone 0 none)), (.text (FText.newBase 0 (some
    "identifier") (some "{0}<br>{1}") (some "test<br>test")))]) = true := by decide +kernel

/-- `test_set`. -/
example : roundTrip "SetProperty"
    (.set "FloatProperty" 0 [(.float ⟨0x45870800⟩)]) = true := by decide +kernel

/-- `test_map`. -/
example : roundTrip "MapProperty"
    (newMap "StrProperty" "FloatProperty" 0 [((.str (some "key1")), (.float ⟨0xbf800000⟩)), ((.str
    (some "key2")), (.float ⟨0x3f000000⟩))]) = true := by decide +kernel

end Gvas.Check
