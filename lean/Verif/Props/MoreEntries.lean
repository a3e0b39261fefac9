import Verif.Lemmas.MoreEntriesIn
import Verif.Props.Json
import Verif.Props.JsonText
import Verif.Props.JsonDirect

/-!
# C103: entries of JSON objects whose names mean nothing do not matter
-/

namespace Gvas

open Spec Spec.Rfc8259 Text Sd

/-! ## What is loaded -/

/-- **C103**: any number of entries whose names mean nothing where they are, at any depth: the same
is loaded, or nothing as before. -/
theorem C103_value (j j' : J) (h : More .file j j') : GvasFile.ofJson j' = GvasFile.ofJson j :=
  Extra.file_more h

/-- **C103**: the same where there is no `Value` in between, and names may be repeated. -/
theorem C103_direct (j j' : J) (h : More .file j j') : GvasFile.ofRaw j' = GvasFile.ofRaw j :=
  @Extra.file_more Once.U _ _ _ _ h

/-- **C103**: a property by itself. -/
theorem C103_property (j j' : J) (h : More .property j j') :
    Property.ofJson j'.depth j' = Property.ofJson j.depth j :=
  Extra.property_more h

/-- **C103**: a file is loaded as it was from its JSON with more entries, unless there are floats in
it that JSON does not have. -/
theorem C103_saved (f : GvasFile) (hm : FileMaps f) (j : J) (h : More .file f.toJson j) :
    GvasFile.ofJson j = some f ↔ fileFinite f = true := by
  rw [C103_value _ _ h, C53_json_roundtrip_partial f hm]
  split <;> simp_all

/-- **C103**: text with more entries, loaded directly and by way of a `Value`.  The limit for the
nesting holds for the additional entries, too. -/
theorem C103_text (s s' : String) (j j' : J) (hs : Document s.toList j)
    (hs' : Document s'.toList j') (h : More .file j j') (hd : j.depth ≤ 127) (hd' : j'.depth ≤ 127) :
    GvasFile.ofStr s' = GvasFile.ofStr s ∧
      (NamesOnce j → NamesOnce j' → GvasFile.ofText s' = GvasFile.ofText s) := by
  constructor
  · rw [C89_document s j hs, C89_document s' j' hs', C103_direct _ _ h,
      if_pos (Nat.le_trans (fieldsOnly_depth j) hd), if_pos (Nat.le_trans (fieldsOnly_depth j') hd')]
  · intro hn hn'
    rw [ofText_document hs, ofText_document hs', if_pos hd, if_pos hd', Once.merge_once j hn,
      Once.merge_once j' hn', C103_value _ _ h]

/-! ## Where every entry counts -/

/-- **C103**: a struct in an array, an argument of a text and the game version are objects with one
entry; with one more, whatever its name, nothing is read. -/
theorem C103_one_entry (a b : List (String × J)) (e : String × J) :
    (∀ rec, (StructPropertyValue.ofJ rec (.obj (a ++ b))).isSome →
      StructPropertyValue.ofJ rec (.obj (a ++ e :: b)) = none) ∧
    (∀ rec, (FormatArgumentValue.ofJ rec (.obj (a ++ b))).isSome →
      FormatArgumentValue.ofJ rec (.obj (a ++ e :: b)) = none) ∧
    ((J.getGameVersion (.obj (a ++ b))).isSome → J.getGameVersion (.obj (a ++ e :: b)) = none) := by
  match a, b with
  | [], [] =>
    exact ⟨fun _ h => by simp [StructPropertyValue.ofJ] at h,
      fun _ h => by simp [FormatArgumentValue.ofJ] at h, fun h => by simp [J.getGameVersion] at h⟩
  | [], _ :: _ => exact ⟨fun _ _ => rfl, fun _ _ => rfl, fun _ => by simp [J.getGameVersion]⟩
  | [_], _ => exact ⟨fun _ _ => rfl, fun _ _ => rfl, fun _ => by simp [J.getGameVersion]⟩
  | _ :: _ :: _, _ => exact ⟨fun _ _ => rfl, fun _ _ => rfl, fun _ => by simp [J.getGameVersion]⟩

/-- **C103**: so it is with a property of type `StructPropertyValue`, the kind that is in maps and
sets. -/
theorem C103_struct_value (n : Nat) (a b : List (String × J)) (k : String) (x : J)
    (ht : (a ++ b).lookup "type" = some (.str "StructPropertyValue")) (hk : k ≠ "type")
    (h : (Property.ofJ n (.obj (a ++ b))).isSome) :
    Property.ofJ n (.obj (a ++ (k, x) :: b)) = none := by
  cases n with
  | zero => rfl
  | succ n =>
    have ht' : (a ++ (k, x) :: b).lookup "type" = some (.str "StructPropertyValue") := by
      rw [Extra.lookup_skip hk.symm, ht]
    have hk' : (k != "type") = true := by simpa using hk
    simp only [Property.ofJ, Property.ofJStep, getTagged_obj, ht, ht', Option.bind_some, J.getTag,
      Option.map_some, Property.ofTag, reduceIte, String.reduceEq, List.filter_append,
      List.filter_cons, hk'] at h ⊢
    rw [(C103_one_entry _ _ (k, x)).1]
    · rfl
    · cases hs : StructPropertyValue.ofJ (Property.ofJ n) (.obj ((a.filter fun e => e.1 != "type") ++
        b.filter fun e => e.1 != "type")) with
      | none => rw [hs] at h; cases h
      | some v => rfl

/-! ## No name is listed in vain -/

/-- Types of properties other than texts and `StructPropertyValue`. -/
def plainTypes : List String :=
  ["ArrayProperty", "BoolProperty", "ByteProperty", "DoubleProperty", "EnumProperty",
   "FloatProperty", "Int16Property", "Int64Property", "Int8Property", "IntProperty", "MapProperty",
   "NameProperty", "ObjectProperty", "DelegateProperty", "MulticastInlineDelegateProperty",
   "MulticastSparseDelegateProperty", "FieldPathProperty", "SetProperty", "StrProperty",
   "StructProperty", "UInt16Property", "UInt32Property", "UInt64Property", "UnknownProperty"]

/-- The content of a struct of this variant. -/
def variantContent (v : String) : J :=
  if v = "Guid" then .str "0" else if v = "GameplayTagContainer" then .arr []
  else if v = "CustomStruct" then .obj []
  else .obj ((structWords v).map fun w => (w, .int 0))

/-- A small property of this type in which the name `w` is used, or may be. -/
def smallProperty (tag w : String) : List (String × J) :=
  if tag = "ArrayProperty" then
    if w ∈ ["field_name", "type_name", "guid", "structs"] then
      [("field_name", .str ""), ("type_name", .str ""), ("structs", .arr [])]
    else if w ∈ ["property_type", "properties"] then
      [("property_type", .str ""), ("properties", .arr [])]
    else if w = "bytes" then [(w, .str "")] else [(w, .arr [])]
  else if tag = "MapProperty" then
    if w ∈ ["enum_props", "name_props", "str_props"] then [("value_type", .str ""), (w, .obj [])]
    else if w ∈ ["key_type", "value_type", "allocation_flags", "value"] then
      [("key_type", .str ""), ("value_type", .str ""), ("allocation_flags", .int 0),
       ("value", .arr [])]
    else [(w, .obj [])]
  else if tag = "ByteProperty" then
    if w = "Namespaced" then [(w, .str "")] else [("Byte", .int 0)]
  else if tag = "StructProperty" then
    if w ∈ variantWords then [("type_name", .str ""), (w, variantContent w)]
    else [("type_name", .str ""), ("Guid", .str "0")]
  else if tag = "SetProperty" then
    [("property_type", .str ""), ("allocation_flags", .int 0), ("properties", .arr [])]
  else if tag = "UnknownProperty" then [("property_name", .str ""), ("raw", .arr [])]
  else if tag = "NameProperty" ∨ tag = "StrProperty" then []
  else if tag = "BoolProperty" then [("value", .bool true)]
  else if tag = "EnumProperty" ∨ tag = "ObjectProperty" then [("value", .str "")]
  else if tag = "DelegateProperty" then
    [("value", .obj [("object", .str ""), ("function_name", .str "")])]
  else if tag = "FieldPathProperty" then
    [("value", .obj [("path", .arr []), ("resolved_owner", .str "")])]
  else if tag = "MulticastInlineDelegateProperty" ∨ tag = "MulticastSparseDelegateProperty" then
    [("value", .obj [("delegates", .arr [])])]
  else [("value", .int 0)]

/-- A small text with this history. -/
def smallText (tag : String) : List (String × J) :=
  let empty : J := .obj [("history", .str "Empty")]
  let ticks : J := .obj [("ticks", .int 0)]
  if tag = "NamedFormat" ∨ tag = "ArgumentFormat" then
    [("source_format", empty), ("arguments", .obj [])]
  else if tag = "OrderedFormat" then [("source_format", empty), ("arguments", .arr [])]
  else if tag = "AsNumber" ∨ tag = "AsPercent" ∨ tag = "AsCurrency" then
    [("source_value", .obj [("Int", .int 0)])]
  else if tag = "AsDate" then
    [("date_time", ticks), ("date_style", .str "Default"), ("target_culture", .str "")]
  else if tag = "AsTime" then
    [("source_date_time", ticks), ("time_style", .str "Default"), ("time_zone", .str ""),
     ("target_culture", .str "")]
  else if tag = "AsDateTime" then
    [("source_date_time", ticks), ("date_style", .str "Default"), ("time_style", .str "Default"),
     ("time_zone", .str ""), ("target_culture", .str "")]
  else if tag = "Transform" then [("source_text", empty), ("transform", .str "ToLower")]
  else if tag = "StringTableEntry" then [("table_id", .str ""), ("key", .str "")]
  else []

/-- Whether a property is read from an object with these entries and the tag. -/
def readable (tag : String) (es : List (String × J)) : Bool :=
  let j : J := .obj (("type", .str tag) :: es)
  (Property.ofJson j.depth j).isSome

/-- The entry named `w`, or one that cannot be read. -/
def wanted (w : String) (es : List (String × J)) : J := (es.lookup w).getD (.bool true)

/-- The entries not named `w`. -/
def others (w : String) (es : List (String × J)) : List (String × J) :=
  es.filter fun e => e.1 != w

/-- **C103**: every name that is listed for a type means something there: there is a property that
is accepted with an entry of this name and not without it, or the other way around. -/
theorem C103_words_needed : ∀ tag ∈ plainTypes, ∀ w ∈ propertyWords tag, ∃ x es,
    readable tag (es ++ [(w, x)]) ≠ readable tag es := by
  have : ∀ tag ∈ plainTypes, ∀ w ∈ propertyWords tag,
      (let es := others w (smallProperty tag w)
       (readable tag (es ++ [(w, wanted w (smallProperty tag w))]) != readable tag es)) = true := by
    decide +kernel
  intro tag ht w hw
  exact ⟨_, _, by simpa using this tag ht w hw⟩

/-- **C103**: so it is with texts. -/
theorem C103_text_words_needed : ∀ tag ∈ historyTags, ∀ w ∈ "flags" :: "history" :: textWords tag,
    ∃ x es, readable "TextProperty" (es ++ [(w, x)]) ≠ readable "TextProperty" es := by
  have : ∀ tag ∈ historyTags, ∀ w ∈ "flags" :: "history" :: textWords tag,
      (let es := ("history", .str tag) :: smallText tag
       (readable "TextProperty" (others w es ++ [(w, wanted w es)]) !=
        readable "TextProperty" (others w es))) = true := by
    decide +kernel
  intro tag ht w hw
  exact ⟨_, _, by simpa using this tag ht w hw⟩

/-- A header. -/
def smallHeader (tag : String) : List (String × J) :=
  ("type", .str tag) :: [("package_file_version", .int 0), ("package_file_version_ue5", .int 0),
    ("engine_version", .obj [("major", .int 0), ("minor", .int 0), ("patch", .int 0),
      ("change_list", .int 0), ("branch", .str "")]),
    ("custom_version_format", .int 0), ("custom_versions", .obj []),
    ("save_game_class_name", .str "")]

/-- **C103**: and with headers. -/
theorem C103_header_words_needed : ∀ tag ∈ ["Version2", "Version3"],
    ∀ w ∈ "type" :: headerWords tag, ∃ x es,
      (GvasHeader.ofJ (.obj (es ++ [(w, x)]))).isSome ≠ (GvasHeader.ofJ (.obj es)).isSome := by
  have : ∀ tag ∈ ["Version2", "Version3"], ∀ w ∈ "type" :: headerWords tag,
      ((GvasHeader.ofJ (.obj (others w (smallHeader tag) ++
        [(w, wanted w (smallHeader tag))]))).isSome !=
        (GvasHeader.ofJ (.obj (others w (smallHeader tag)))).isSome) = true := by
    decide +kernel
  intro tag ht w hw
  exact ⟨_, _, by simpa using this tag ht w hw⟩

/-! ## Such JSON -/

/-- A file with an array in it, in JSON; the header, the elements of the array and the end of the
file are given. -/
def arrayJson (e : List (String × J)) (version : List (String × J)) (rest : List (String × J)) : J :=
  .obj ([("header", .obj [("type", .str "Version2"), ("package_file_version", .int 522),
      ("engine_version", .obj (version ++ [("minor", .int 27), ("patch", .int 2),
        ("change_list", .int 0), ("branch", .str "a")])),
      ("custom_version_format", .int 3), ("custom_versions", .obj []),
      ("save_game_class_name", .str "b")]),
    ("properties", .obj [("p", .obj [("type", .str "SetProperty"),
      ("property_type", .str "IntProperty"), ("allocation_flags", .int 0),
      ("properties", .arr [.obj ([("type", .str "IntProperty")] ++ e)])])])] ++ rest)

/-- Three more entries: in the engine version, in an element of the set, and at the end. -/
theorem arrayJson_more : More .file (arrayJson [("value", .int 5)] [("major", .int 4)] [])
    (arrayJson [("comment", .obj []), ("value", .int 5)] [("major", .int 4), ("x", .null)]
      [("checksum", .int 1)]) := by
  refine .one (j := arrayJson [("comment", .obj []), ("value", .int 5)]
    [("major", .int 4), ("x", .null)] []) (.one (j := arrayJson [("value", .int 5)]
    [("major", .int 4), ("x", .null)] []) (.one .none ?_) ?_) ?_
  · exact .inHeader (a := []) (.inEngine (a := [_, _]) (.plain (a := [_]) (by decide)))
  · exact .inFile (a := [_]) (b := []) (c := []) (d := []) (.inItem (a := [_, _, _]) (b := [])
      (l := []) (m := []) (.property (a := [_]) (b := [_]) (tag := "IntProperty") rfl (by decide)
        (by decide)))
  · exact .file (a := [_, _]) (b := []) (by decide)

/-- The file is loaded from both. -/
example : (GvasFile.ofJson (arrayJson [("comment", .obj []), ("value", .int 5)]
    [("major", .int 4), ("x", .null)] [("checksum", .int 1)])).isSome = true := by
  rw [C103_value _ _ arrayJson_more]
  decide +kernel

/-- A struct in a map is not read with a comment. -/
example : (Property.ofJ 4 (.obj ([("type", .str "StructPropertyValue"), ("Guid", .str "0")] ++
    []))).isSome = true ∧ Property.ofJ 4 (.obj ([("type", .str "StructPropertyValue"),
      ("Guid", .str "0")] ++ [("comment", .null)])) = none :=
  ⟨by decide +kernel, C103_struct_value 4 _ [] "comment" .null rfl (by decide) (by decide +kernel)⟩

/-- Texts, dates and arguments inside each other. -/
def textJson (source date : List (String × J)) : J :=
  .obj [("type", .str "TextProperty"), ("history", .str "NamedFormat"),
    ("source_format", .obj (("history", .str "Empty") :: source)),
    ("arguments", .obj [("n", .obj [("Text", .obj [("history", .str "AsDate"),
      ("date_time", .obj (("ticks", .int 1) :: date)), ("date_style", .str "Default"),
      ("target_culture", .str "")])])])]

example : More .property (textJson [] []) (textJson [("key", .int 0)] [("utc", .bool true)]) := by
  refine .one (j := textJson [("key", .int 0)] []) (.one .none ?_) ?_
  · exact .inText rfl rfl (.inSource (a := [_, _]) (b := [_]) (.inl rfl)
      (.text (a := [_]) (b := []) (tag := "Empty") rfl (by decide)))
  · exact .inText rfl rfl (.inNamed (a := [_, _, _]) (b := []) (c := []) (d := [])
      (.inDate (a := [_]) (b := [_, _]) (.inl rfl) (.plain (a := [_]) (b := []) (by decide))))

example : (Property.ofJson 9 (textJson [("key", .int 0)] [("utc", .bool true)])).isSome = true := by
  decide +kernel

end Gvas
