import Verif.Check.Basic

/-!
# The JSON of properties (`tests/serde_tests/serde_json_template.rs`)
-/

namespace Gvas.Check

set_option maxRecDepth 100000

/-- `array_int8` (116). -/
example : template
    (newArray "Int8Property" none [(.int8 0), (.int8 1)])
    (.obj [("type", .str "ArrayProperty"), ("property_type", .str "Int8Property"), ("properties",
    .arr [.obj [("type", .str "Int8Property"), ("value", .int 0)], .obj [("type", .str
    "Int8Property"), ("value", .int 1)]])]) = true := by decide +kernel

/-- `array_int16` (147). -/
example : template
    (newArray "Int16Property" none [(.int16 0), (.int16 1)])
    (.obj [("type", .str "ArrayProperty"), ("property_type", .str "Int16Property"), ("properties",
    .arr [.obj [("type", .str "Int16Property"), ("value", .int 0)], .obj [("type", .str
    "Int16Property"), ("value", .int 1)]])]) = true := by decide +kernel

/-- `array_int32` (178). -/
example : template
    (newArray "IntProperty" none [(.int 0), (.int 1)])
    (.obj [("type", .str "ArrayProperty"), ("ints", .arr [.int 0, .int 1])]) = true := by decide +kernel

/-- `array_int64` (202). -/
example : template
    (newArray "Int64Property" none [(.int64 0), (.int64 1)])
    (.obj [("type", .str "ArrayProperty"), ("property_type", .str "Int64Property"), ("properties",
    .arr [.obj [("type", .str "Int64Property"), ("value", .int 0)], .obj [("type", .str
    "Int64Property"), ("value", .int 1)]])]) = true := by decide +kernel

/-- `array_uint8` (233). -/
example : template
    (newArray "ByteProperty" none [(.byte none (.byte 0)), (.byte none (.byte 1)), (.byte none
    (.byte 171))])
    (.obj [("type", .str "ArrayProperty"), ("bytes", .str "0001ab")]) = true := by decide +kernel

/-- `array_uint16` (255). -/
example : template
    (newArray "UInt16Property" none [(.uint16 0), (.uint16 1)])
    (.obj [("type", .str "ArrayProperty"), ("property_type", .str "UInt16Property"),
    ("properties", .arr [.obj [("type", .str "UInt16Property"), ("value", .int 0)], .obj [("type",
    .str "UInt16Property"), ("value", .int 1)]])]) = true := by decide +kernel

/-- `array_uint32` (286). -/
example : template
    (newArray "UInt32Property" none [(.uint32 0), (.uint32 1)])
    (.obj [("type", .str "ArrayProperty"), ("property_type", .str "UInt32Property"),
    ("properties", .arr [.obj [("type", .str "UInt32Property"), ("value", .int 0)], .obj [("type",
    .str "UInt32Property"), ("value", .int 1)]])]) = true := by decide +kernel

/-- `array_uint64` (317). -/
example : template
    (newArray "UInt64Property" none [(.uint64 0), (.uint64 1)])
    (.obj [("type", .str "ArrayProperty"), ("property_type", .str "UInt64Property"),
    ("properties", .arr [.obj [("type", .str "UInt64Property"), ("value", .int 0)], .obj [("type",
    .str "UInt64Property"), ("value", .int 1)]])]) = true := by decide +kernel

/-- `array_bool` (348). -/
example : template
    (newArray "BoolProperty" none [(.bool false), (.bool true)])
    (.obj [("type", .str "ArrayProperty"), ("bools", .arr [.bool false, .bool true])]) = true := by decide +kernel

/-- `array_double` (372). -/
example : template
    (newArray "DoubleProperty" none [(.double ⟨0x3ff0000000000000⟩), (.double
    ⟨0x4000000000000000⟩)])
    (.obj [("type", .str "ArrayProperty"), ("property_type", .str "DoubleProperty"),
    ("properties", .arr [.obj [("type", .str "DoubleProperty"), ("value", .float
    ⟨0x3ff0000000000000⟩)], .obj [("type", .str "DoubleProperty"), ("value", .float
    ⟨0x4000000000000000⟩)]])]) = true := by decide +kernel

/-- `array_float` (403). -/
example : template
    (newArray "FloatProperty" none [(.float ⟨0x3f800000⟩), (.float ⟨0x40000000⟩)])
    (.obj [("type", .str "ArrayProperty"), ("floats", .arr [.float ⟨0x3ff0000000000000⟩, .float
    ⟨0x4000000000000000⟩])]) = true := by decide +kernel

/-- `array_enum` (427). -/
example : template
    (newArray "EnumProperty" none [(.enum none "a"), (.enum none "b")])
    (.obj [("type", .str "ArrayProperty"), ("enums", .arr [.str "a", .str "b"])]) = true := by decide +kernel

/-- `array_enum_ns` (451). -/
example : template
    (newArray "EnumProperty" none [(.enum none "a"), (.enum (some "ns") "b")])
    (.obj [("type", .str "ArrayProperty"), ("property_type", .str "EnumProperty"), ("properties",
    .arr [.obj [("type", .str "EnumProperty"), ("value", .str "a")], .obj [("type", .str
    "EnumProperty"), ("enum_type", .str "ns"), ("value", .str "b")]])]) = true := by decide +kernel

/-- `array_name` (486). -/
example : template
    (newArray "NameProperty" none [(.name 0 none), (.name 0 (some "b"))])
    (.obj [("type", .str "ArrayProperty"), ("names", .arr [.null, .str "b"])]) = true := by decide +kernel

/-- `array_object` (510). -/
example : template
    (newArray "ObjectProperty" none [(.object "a"), (.object "b")])
    (.obj [("type", .str "ArrayProperty"), ("property_type", .str "ObjectProperty"),
    ("properties", .arr [.obj [("type", .str "ObjectProperty"), ("value", .str "a")], .obj
    [("type", .str "ObjectProperty"), ("value", .str "b")]])]) = true := by decide +kernel

/-- `array_str` (541). -/
example : template
    (newArray "StrProperty" none [(.str none), (.str (some "b"))])
    (.obj [("type", .str "ArrayProperty"), ("strings", .arr [.null, .str "b"])]) = true := by decide +kernel

/-- `array_map` (565). -/
example : template
    (newArray "MapProperty" none [(newMap "kta" "vta" 0 []), (newMap "ktb" "vtb" 1 [])])
    (.obj [("type", .str "ArrayProperty"), ("property_type", .str "MapProperty"), ("properties",
    .arr [.obj [("type", .str "MapProperty"), ("key_type", .str "kta"), ("value_type", .str
    "vta"), ("allocation_flags", .int 0), ("value", .arr [])], .obj [("type", .str "MapProperty"),
    ("key_type", .str "ktb"), ("value_type", .str "vtb"), ("allocation_flags", .int 1), ("value",
    .arr [])]])]) = true := by decide +kernel

/-- `array_struct` (612). -/
example : template
    (newArray "StructProperty" (some ("fn", "tn", (guid 0x11111111111111111111111111111111)))
    [(.structValue (.dateTime 0)), (.structValue (.dateTime 1))])
    (.obj [("type", .str "ArrayProperty"), ("field_name", .str "fn"), ("type_name", .str "tn"),
    ("guid", .str "11111111-1111-1111-1111-111111111111"), ("structs", .arr [.obj [("DateTime",
    .obj [("ticks", .int 0)])], .obj [("DateTime", .obj [("ticks", .int 1)])]])]) = true := by decide +kernel

/-- `delegate` (647). -/
example : template
    (.delegate ⟨"o", "fn"⟩)
    (.obj [("type", .str "DelegateProperty"), ("value", .obj [("object", .str "o"),
    ("function_name", .str "fn")])]) = true := by decide +kernel

/-- `enum_property` (664). -/
example : template
    (.enum (some "a") "b")
    (.obj [("type", .str "EnumProperty"), ("enum_type", .str "a"), ("value", .str "b")]) = true := by decide +kernel

/-- `enum_property` (664). -/
example : template
    (.enum none "a")
    (.obj [("type", .str "EnumProperty"), ("value", .str "a")]) = true := by decide +kernel

/-- `field_path` (686). -/
example : template
    (.fieldPath ⟨["a", "b"], "owner"⟩)
    (.obj [("type", .str "FieldPathProperty"), ("value", .obj [("path", .arr [.str "a", .str
    "b"]), ("resolved_owner", .str "owner")])]) = true := by decide +kernel

/-- `map_enum_bool` (706). -/
example : template
    (newMap "EnumProperty" "BoolProperty" 0 [((.enum none "a"), (.bool false)), ((.enum none "b"),
    (.bool true))])
    (.obj [("type", .str "MapProperty"), ("enum_bools", .obj [("a", .bool false), ("b", .bool
    true)])]) = true := by decide +kernel

/-- `map_enum_int` (734). -/
example : template
    (newMap "EnumProperty" "IntProperty" 0 [((.enum none "a"), (.int 0)), ((.enum none "b"), (.int
    1))])
    (.obj [("type", .str "MapProperty"), ("enum_ints", .obj [("a", .int 0), ("b", .int 1)])]) =
    true := by decide +kernel

/-- `map_enum_unknown` (762). -/
example : template
    (newMap "EnumProperty" "UnknownProperty" 0 [((.enum none "a"), (.unknown "n" [])), ((.enum
    none "b"), (.unknown "m" [1]))])
    (.obj [("type", .str "MapProperty"), ("value_type", .str "UnknownProperty"), ("enum_props",
    .obj [("a", .obj [("type", .str "UnknownProperty"), ("property_name", .str "n"), ("raw", .arr
    [])]), ("b", .obj [("type", .str "UnknownProperty"), ("property_name", .str "m"), ("raw", .arr
    [.int 1])])])]) = true := by decide +kernel

/-- `map_int_bool` (801). -/
example : template
    (newMap "IntProperty" "BoolProperty" 0 [((.int 0), (.bool false)), ((.int 1), (.bool true)),
    ((.int 2), (.bool false))])
    (.obj [("type", .str "MapProperty"), ("key_type", .str "IntProperty"), ("value_type", .str
    "BoolProperty"), ("allocation_flags", .int 0), ("value", .arr [.arr [.obj [("type", .str
    "IntProperty"), ("value", .int 0)], .obj [("type", .str "BoolProperty"), ("value", .bool
    false)]], .arr [.obj [("type", .str "IntProperty"), ("value", .int 1)], .obj [("type", .str
    "BoolProperty"), ("value", .bool true)]], .arr [.obj [("type", .str "IntProperty"), ("value",
    .int 2)], .obj [("type", .str "BoolProperty"), ("value", .bool false)]]])]) = true := by decide +kernel

/-- `map_name_bool` (864). -/
example : template
    (newMap "NameProperty" "BoolProperty" 0 [((.name 0 (some "a")), (.bool false)), ((.name 0
    (some "b")), (.bool true))])
    (.obj [("type", .str "MapProperty"), ("name_bools", .obj [("a", .bool false), ("b", .bool
    true)])]) = true := by decide +kernel

/-- `map_name_int` (892). -/
example : template
    (newMap "NameProperty" "IntProperty" 0 [((.name 0 (some "a")), (.int 0)), ((.name 0 (some
    "b")), (.int 1))])
    (.obj [("type", .str "MapProperty"), ("name_ints", .obj [("a", .int 0), ("b", .int 1)])]) =
    true := by decide +kernel

/-- `map_name_property` (920). -/
example : template
    (newMap "NameProperty" "UnknownProperty" 0 [((.name 0 (some "a")), (.unknown "b" [])), ((.name
    0 (some "c")), (.unknown "d" [1]))])
    (.obj [("type", .str "MapProperty"), ("value_type", .str "UnknownProperty"), ("name_props",
    .obj [("a", .obj [("type", .str "UnknownProperty"), ("property_name", .str "b"), ("raw", .arr
    [])]), ("c", .obj [("type", .str "UnknownProperty"), ("property_name", .str "d"), ("raw", .arr
    [.int 1])])])]) = true := by decide +kernel

/-- `map_str_bool` (959). -/
example : template
    (newMap "StrProperty" "BoolProperty" 0 [((.str (some "a")), (.bool false)), ((.str (some
    "b")), (.bool true))])
    (.obj [("type", .str "MapProperty"), ("str_bools", .obj [("a", .bool false), ("b", .bool
    true)])]) = true := by decide +kernel

/-- `map_str_int` (987). -/
example : template
    (newMap "StrProperty" "IntProperty" 0 [((.str (some "zero")), (.int 0)), ((.str (some "one")),
    (.int 1)), ((.str (some "two")), (.int 2))])
    (.obj [("type", .str "MapProperty"), ("str_ints", .obj [("zero", .int 0), ("one", .int 1),
    ("two", .int 2)])]) = true := by decide +kernel

/-- `map_str_property` (1020). -/
example : template
    (newMap "StrProperty" "UnknownProperty" 0 [((.str (some "a")), (.unknown "b" [])), ((.str
    (some "c")), (.unknown "d" [1]))])
    (.obj [("type", .str "MapProperty"), ("value_type", .str "UnknownProperty"), ("str_props",
    .obj [("a", .obj [("type", .str "UnknownProperty"), ("property_name", .str "b"), ("raw", .arr
    [])]), ("c", .obj [("type", .str "UnknownProperty"), ("property_name", .str "d"), ("raw", .arr
    [.int 1])])])]) = true := by decide +kernel

/-- `map_str_str` (1059). -/
example : template
    (newMap "StrProperty" "StrProperty" 0 [((.str (some "a")), (.str (some "b"))), ((.str (some
    "c")), (.str (some "d")))])
    (.obj [("type", .str "MapProperty"), ("str_strs", .obj [("a", .str "b"), ("c", .str "d")])]) =
    true := by decide +kernel

/-- `map_struct_float` (1087). -/
example : template
    (newMap "StructProperty" "FloatProperty" 0 [((.structValue (.vectorF ⟨0x00000000⟩ ⟨0x3f800000⟩
    ⟨0x40000000⟩)), (.float ⟨0x00000000⟩)), ((.structValue (.timespan 0)), (.float ⟨0x3f800000⟩)),
    ((.structValue (.dateTime 0)), (.float ⟨0x40000000⟩))])
    (.obj [("type", .str "MapProperty"), ("key_type", .str "StructProperty"), ("value_type", .str
    "FloatProperty"), ("allocation_flags", .int 0), ("value", .arr [.arr [.obj [("type", .str
    "StructPropertyValue"), ("VectorF", .obj [("x", .float ⟨0x0000000000000000⟩), ("y", .float
    ⟨0x3ff0000000000000⟩), ("z", .float ⟨0x4000000000000000⟩)])], .obj [("type", .str
    "FloatProperty"), ("value", .float ⟨0x0000000000000000⟩)]], .arr [.obj [("type", .str
    "StructPropertyValue"), ("Timespan", .obj [("ticks", .int 0)])], .obj [("type", .str
    "FloatProperty"), ("value", .float ⟨0x3ff0000000000000⟩)]], .arr [.obj [("type", .str
    "StructPropertyValue"), ("DateTime", .obj [("ticks", .int 0)])], .obj [("type", .str
    "FloatProperty"), ("value", .float ⟨0x4000000000000000⟩)]]])]) = true := by decide +kernel

/-- `name_array_index` (1158). -/
example : template
    (.name 1 none)
    (.obj [("type", .str "NameProperty"), ("array_index", .int 1)]) = true := by decide +kernel

/-- `name_none` (1172). -/
example : template
    (.name 0 none)
    (.obj [("type", .str "NameProperty")]) = true := by decide +kernel

/-- `name_some` (1185). -/
example : template
    (.name 0 (some "a"))
    (.obj [("type", .str "NameProperty"), ("value", .str "a")]) = true := by decide +kernel

/-- `float` (1196). -/
example : template
    (.float ⟨0x00000000⟩)
    (.obj [("type", .str "FloatProperty"), ("value", .float ⟨0x0000000000000000⟩)]) = true := by decide +kernel

/-- `double` (1207). -/
example : template
    (.double ⟨0x0000000000000000⟩)
    (.obj [("type", .str "DoubleProperty"), ("value", .float ⟨0x0000000000000000⟩)]) = true := by decide +kernel

/-- `byte_none_byte` (1218). -/
example : template
    (.byte none (.byte 0))
    (.obj [("type", .str "ByteProperty"), ("Byte", .int 0)]) = true := by decide +kernel

/-- `byte_some_ns` (1229). -/
example : template
    (.byte (some "test name") (.namespaced "ns"))
    (.obj [("type", .str "ByteProperty"), ("name", .str "test name"), ("Namespaced", .str "ns")])
    = true := by decide +kernel

/-- `int8` (1244). -/
example : template
    (.int8 0)
    (.obj [("type", .str "Int8Property"), ("value", .int 0)]) = true := by decide +kernel

/-- `int16` (1255). -/
example : template
    (.int16 0)
    (.obj [("type", .str "Int16Property"), ("value", .int 0)]) = true := by decide +kernel

/-- `uint16` (1266). -/
example : template
    (.uint16 0)
    (.obj [("type", .str "UInt16Property"), ("value", .int 0)]) = true := by decide +kernel

/-- `int` (1277). -/
example : template
    (.int 0)
    (.obj [("type", .str "IntProperty"), ("value", .int 0)]) = true := by decide +kernel

/-- `uint32` (1288). -/
example : template
    (.uint32 0)
    (.obj [("type", .str "UInt32Property"), ("value", .int 0)]) = true := by decide +kernel

/-- `int64` (1299). -/
example : template
    (.int64 0)
    (.obj [("type", .str "Int64Property"), ("value", .int 0)]) = true := by decide +kernel

/-- `uint64` (1310). -/
example : template
    (.uint64 0)
    (.obj [("type", .str "UInt64Property"), ("value", .int 0)]) = true := by decide +kernel

/-- `object` (1321). -/
example : template
    (.object "a")
    (.obj [("type", .str "ObjectProperty"), ("value", .str "a")]) = true := by decide +kernel

/-- `set_int` (1332). -/
example : template
    (.set "IntProperty" 0 [(.int 0), (.int 1)])
    (.obj [("type", .str "SetProperty"), ("property_type", .str "IntProperty"),
    ("allocation_flags", .int 0), ("properties", .arr [.obj [("type", .str "IntProperty"),
    ("value", .int 0)], .obj [("type", .str "IntProperty"), ("value", .int 1)]])]) = true := by decide +kernel

/-- `str_none` (1361). -/
example : template
    (.str none)
    (.obj [("type", .str "StrProperty")]) = true := by decide +kernel

/-- `str_some` (1371). -/
example : template
    (.str (some "a"))
    (.obj [("type", .str "StrProperty"), ("value", .str "a")]) = true := by decide +kernel

/-- `struct_vectorf` (1382). -/
example : template
    (.structValue (.vectorF ⟨0x00000000⟩ ⟨0x3f800000⟩ ⟨0x40000000⟩))
    (.obj [("type", .str "StructPropertyValue"), ("VectorF", .obj [("x", .float
    ⟨0x0000000000000000⟩), ("y", .float ⟨0x3ff0000000000000⟩), ("z", .float
    ⟨0x4000000000000000⟩)])]) = true := by decide +kernel

/-- `struct_vectord` (1397). -/
example : template
    (.structValue (.vectorD ⟨0x0000000000000000⟩ ⟨0x3ff0000000000000⟩ ⟨0x4000000000000000⟩))
    (.obj [("type", .str "StructPropertyValue"), ("VectorD", .obj [("x", .float
    ⟨0x0000000000000000⟩), ("y", .float ⟨0x3ff0000000000000⟩), ("z", .float
    ⟨0x4000000000000000⟩)])]) = true := by decide +kernel

/-- `struct_rotatorf` (1412). -/
example : template
    (.structValue (.rotatorF ⟨0x00000000⟩ ⟨0x3f800000⟩ ⟨0x40000000⟩))
    (.obj [("type", .str "StructPropertyValue"), ("RotatorF", .obj [("pitch", .float
    ⟨0x0000000000000000⟩), ("yaw", .float ⟨0x3ff0000000000000⟩), ("roll", .float
    ⟨0x4000000000000000⟩)])]) = true := by decide +kernel

/-- `struct_rotatord` (1427). -/
example : template
    (.structValue (.rotatorD ⟨0x0000000000000000⟩ ⟨0x3ff0000000000000⟩ ⟨0x4000000000000000⟩))
    (.obj [("type", .str "StructPropertyValue"), ("RotatorD", .obj [("pitch", .float
    ⟨0x0000000000000000⟩), ("yaw", .float ⟨0x3ff0000000000000⟩), ("roll", .float
    ⟨0x4000000000000000⟩)])]) = true := by decide +kernel

/-- `struct_quatf` (1442). -/
example : template
    (.structValue (.quatF ⟨0x00000000⟩ ⟨0x3f800000⟩ ⟨0x40000000⟩ ⟨0x40400000⟩))
    (.obj [("type", .str "StructPropertyValue"), ("QuatF", .obj [("x", .float
    ⟨0x0000000000000000⟩), ("y", .float ⟨0x3ff0000000000000⟩), ("z", .float ⟨0x4000000000000000⟩),
    ("w", .float ⟨0x4008000000000000⟩)])]) = true := by decide +kernel

/-- `struct_quatd` (1460). -/
example : template
    (.structValue (.quatD ⟨0x0000000000000000⟩ ⟨0x3ff0000000000000⟩ ⟨0x4000000000000000⟩
    ⟨0x4008000000000000⟩))
    (.obj [("type", .str "StructPropertyValue"), ("QuatD", .obj [("x", .float
    ⟨0x0000000000000000⟩), ("y", .float ⟨0x3ff0000000000000⟩), ("z", .float ⟨0x4000000000000000⟩),
    ("w", .float ⟨0x4008000000000000⟩)])]) = true := by decide +kernel

/-- `struct_datetime` (1478). -/
example : template
    (.structValue (.quatD ⟨0x0000000000000000⟩ ⟨0x3ff0000000000000⟩ ⟨0x4000000000000000⟩
    ⟨0x4008000000000000⟩))
    (.obj [("type", .str "StructPropertyValue"), ("QuatD", .obj [("x", .float
    ⟨0x0000000000000000⟩), ("y", .float ⟨0x3ff0000000000000⟩), ("z", .float ⟨0x4000000000000000⟩),
    ("w", .float ⟨0x4008000000000000⟩)])]) = true := by decide +kernel

/-- `struct_linearcolor` (1496). -/
example : template
    (.structValue (.linearColor ⟨0x00000000⟩ ⟨0x3f800000⟩ ⟨0x40000000⟩ ⟨0x40400000⟩))
    (.obj [("type", .str "StructPropertyValue"), ("LinearColor", .obj [("r", .float
    ⟨0x0000000000000000⟩), ("g", .float ⟨0x3ff0000000000000⟩), ("b", .float ⟨0x4000000000000000⟩),
    ("a", .float ⟨0x4008000000000000⟩)])]) = true := by decide +kernel

/-- `struct_intpoint` (1514). -/
example : template
    (.structValue (.intPoint 0 1))
    (.obj [("type", .str "StructPropertyValue"), ("IntPoint", .obj [("x", .int 0), ("y", .int
    1)])]) = true := by decide +kernel

/-- `struct_custom` (1528). -/
example : template
    (.structValue (.customStruct [("key", [(.str (some "value"))])]))
    (.obj [("type", .str "StructPropertyValue"), ("CustomStruct", .obj [("key", .arr [.obj
    [("type", .str "StrProperty"), ("value", .str "value")]])])]) = true := by decide +kernel

/-- `struct_array_index` (1551). -/
example : template
    (.structValue (.customStruct [("TrackedQuestsNames", [(.name 0 (some
    "QU91_InvestigateTower_B2")), (.name 1 (some "QU91_InvestigateTower_B2"))])]))
    (.obj [("type", .str "StructPropertyValue"), ("CustomStruct", .obj [("TrackedQuestsNames",
    .arr [.obj [("type", .str "NameProperty"), ("value", .str "QU91_InvestigateTower_B2")], .obj
    [("type", .str "NameProperty"), ("array_index", .int 1), ("value", .str
    "QU91_InvestigateTower_B2")]])])]) = true := by decide +kernel

/-- `struct_gameplaytag` (1588). -/
example : template
    (.structValue (.gameplayTagContainer ["Gameplaytag.One", "Gameplaytag.Two"]))
    (.obj [("type", .str "StructPropertyValue"), ("GameplayTagContainer", .arr [.str
    "Gameplaytag.One", .str "Gameplaytag.Two"])]) = true := by decide +kernel

/-- `text_empty` (1605). -/
example : template
    (.text (FText.newNone 0 none))
    (.obj [("type", .str "TextProperty"), ("history", .str "Empty")]) = true := by decide +kernel

/-- `text_none_some_none` (1616). -/
example : template
    (.text (FText.newNone 1 (some none)))
    (.obj [("type", .str "TextProperty"), ("flags", .int 1), ("history", .str "None")]) = true := by decide +kernel

/-- `text_none_some_some` (1628). -/
example : template
    (.text (FText.newNone 2 (some (some "a"))))
    (.obj [("type", .str "TextProperty"), ("flags", .int 2), ("history", .str "None"),
    ("culture_invariant_string", .str "a")]) = true := by decide +kernel

/-- `text_base_none` (1644). -/
example : template
    (.text (FText.newBase 0 none none none))
    (.obj [("type", .str "TextProperty"), ("history", .str "Base")]) = true := by decide +kernel

/-- `text_base_filled` (1655). -/
example : template
    (.text (FText.newBase 1 (some "ns") (some "k") (some "ss")))
    (.obj [("type", .str "TextProperty"), ("flags", .int 1), ("history", .str "Base"),
    ("namespace", .str "ns"), ("key", .str "k"), ("source_string", .str "ss")]) = true := by decide +kernel

/-- `text_namedformat` (1675). -/
example : template
    (.text (.mk 0 (.namedFormat (.mk 1 (.none none)) [("key", (.int 2))])))
    (.obj [("type", .str "TextProperty"), ("history", .str "NamedFormat"), ("source_format", .obj
    [("flags", .int 1), ("history", .str "None")]), ("arguments", .obj [("key", .obj [("Int", .int
    2)])])]) = true := by decide +kernel

/-- `text_orderedformat` (1709). -/
example : template
    (.text (.mk 0 (.orderedFormat (.mk 1 (.none none)) [(.uint 2)])))
    (.obj [("type", .str "TextProperty"), ("history", .str "OrderedFormat"), ("source_format",
    .obj [("flags", .int 1), ("history", .str "None")]), ("arguments", .arr [.obj [("UInt", .int
    2)]])]) = true := by decide +kernel

/-- `text_argumentformat` (1740). -/
example : template
    (.text (.mk 0 (.argumentFormat (.mk 1 (.none none)) [("key", (.uint 2))])))
    (.obj [("type", .str "TextProperty"), ("history", .str "ArgumentFormat"), ("source_format",
    .obj [("flags", .int 1), ("history", .str "None")]), ("arguments", .obj [("key", .obj
    [("UInt", .int 2)])])]) = true := by decide +kernel

/-- `text_asnumber` (1774). -/
example : template
    (.text (.mk 0 (.asNumber (.text (.mk 1 (.none none))) (some ⟨true, true, .toZero, 2, 3, 4, 5⟩)
    (some "culture"))))
    (.obj [("type", .str "TextProperty"), ("history", .str "AsNumber"), ("source_value", .obj
    [("Text", .obj [("flags", .int 1), ("history", .str "None")])]), ("format_options", .obj
    [("always_include_sign", .bool true), ("use_grouping", .bool true), ("rounding", .str
    "ToZero"), ("minimum_integral_digits", .int 2), ("maximum_integral_digits", .int 3),
    ("minimum_fractional_digits", .int 4), ("maximum_fractional_digits", .int 5)]),
    ("target_culture", .str "culture")]) = true := by decide +kernel

/-- `text_ascurrency` (1821). -/
example : template
    (.text (.mk 0 (.asNumber (.text (.mk 1 (.none none))) (some ⟨true, true, .toZero, 2, 3, 4, 5⟩)
    (some "culture"))))
    (.obj [("type", .str "TextProperty"), ("history", .str "AsNumber"), ("source_value", .obj
    [("Text", .obj [("flags", .int 1), ("history", .str "None")])]), ("format_options", .obj
    [("always_include_sign", .bool true), ("use_grouping", .bool true), ("rounding", .str
    "ToZero"), ("minimum_integral_digits", .int 2), ("maximum_integral_digits", .int 3),
    ("minimum_fractional_digits", .int 4), ("maximum_fractional_digits", .int 5)]),
    ("target_culture", .str "culture")]) = true := by decide +kernel

/-- `text_asdate` (1868). -/
example : template
    (.text (.mk 0 (.asDate 1 .default "culture")))
    (.obj [("type", .str "TextProperty"), ("history", .str "AsDate"), ("date_time", .obj
    [("ticks", .int 1)]), ("date_style", .str "Default"), ("target_culture", .str "culture")]) =
    true := by decide +kernel

/-- `text_astime` (1891). -/
example : template
    (.text (.mk 0 (.asTime 1 .default "zone" "culture")))
    (.obj [("type", .str "TextProperty"), ("history", .str "AsTime"), ("source_date_time", .obj
    [("ticks", .int 1)]), ("time_style", .str "Default"), ("time_zone", .str "zone"),
    ("target_culture", .str "culture")]) = true := by decide +kernel

/-- `text_asdatetime` (1916). -/
example : template
    (.text (.mk 0 (.asDateTime 1 .default .default "zone" "culture")))
    (.obj [("type", .str "TextProperty"), ("history", .str "AsDateTime"), ("source_date_time",
    .obj [("ticks", .int 1)]), ("date_style", .str "Default"), ("time_style", .str "Default"),
    ("time_zone", .str "zone"), ("target_culture", .str "culture")]) = true := by decide +kernel

/-- `text_transform` (1943). -/
example : template
    (.text (.mk 0 (.transform (.mk 1 (.none none)) .toLower)))
    (.obj [("type", .str "TextProperty"), ("history", .str "Transform"), ("source_text", .obj
    [("flags", .int 1), ("history", .str "None")]), ("transform", .str "ToLower")]) = true := by decide +kernel

/-- `unknown` (1970). -/
example : template
    (.unknown "name" [0, 1, 2])
    (.obj [("type", .str "UnknownProperty"), ("property_name", .str "name"), ("raw", .arr [.int 0,
    .int 1, .int 2])]) = true := by decide +kernel

end Gvas.Check
