import Verif.Lemmas.Declared

/-!
# C104: the text of a file is one that the declarations of its types give
-/

namespace Gvas

open Spec

/-- **C104**: the text of a file, on one line or many, is what the declarations of the crate give for the type
`GvasFile`: every variant and field has its name in it, the fields are there in their order, and each has
a text of its type. -/
theorem C104_declared (t : Fmt) (pretty : Bool) (f : GvasFile) :
    Derived t pretty 0 (.named "GvasFile") (f.debug t pretty).toList := by
  rw [GvasFile.debug, String.toList_ofList]
  exact Declares.file f 0

/-- **C104**: likewise for a property. -/
theorem C104_property_declared (t : Fmt) (pretty : Bool) (p : Property) :
    Derived t pretty 0 (.named "Property") (p.debug t pretty).toList := by
  rw [Property.debug, String.toList_ofList]
  exact Declares.property p 0

private theorem delegateText (t : Fmt) (pretty : Bool) :
    Derived t pretty 0 (.named "Delegate") (block pretty 0 "Delegate {" " " "}"
      ["object: \"a\"".toList, "function_name: \"b\\n\"".toList]) := by
  have := Derived.fields (t := t) (pretty := pretty) (i := 0) (name := "Delegate") (v := "Delegate")
    (l := [(("object", .string), "\"a\"".toList), (("function_name", .string), "\"b\\n\"".toList)])
    (by decide) (by simp) (by
      simp only [List.mem_cons, List.not_mem_nil, or_false, forall_eq_or_imp, forall_eq]
      exact ⟨.string (x := ['a']) (.plain (by decide) (by decide) .nil),
        .string (x := ['b', '\\', 'n']) (.plain (by decide) (by decide) (.escaped (by decide) .nil))⟩)
  simpa using this

/-- The text of a delegate, by its declaration: strings in their quotes behind the names of the fields, on
one line or many. -/
example (t : Fmt) : Derived t false 0 (.named "Delegate")
    "Delegate { object: \"a\", function_name: \"b\\n\" }".toList ∧
    Derived t true 0 (.named "Delegate")
      "Delegate {\n    object: \"a\",\n    function_name: \"b\\n\",\n}".toList := by
  constructor
  · simpa [block, commas, List.intercalate] using delegateText t false
  · simpa [block, line] using delegateText t true

/-- A style that is not declared is not the text of a style. -/
example (t : Fmt) (pretty : Bool) : ¬ Derived t pretty 0 (.named "DateTimeStyle") "Tiny".toList := by
  intro h
  generalize he : "Tiny".toList = x at h
  cases h with
  | @unit _ _ v hv =>
    rw [String.toList_inj] at he
    subst he
    revert hv
    decide
  | tuple _ _ =>
    have := congrArg ('(' ∈ ·) he
    cases pretty <;> simp [block] at this
  | fields _ _ _ =>
    have := congrArg ('{' ∈ ·) he
    cases pretty <;> simp [block] at this

/-- The text of a property in full is one of its type. -/
example : Derived bitTexts false 0 (.named "Property")
    ("StructProperty(StructProperty { guid: Guid(0), type_name: \"T\", value: CustomStruct(" ++
    "HashableIndexMap({\"a\": [StrProperty(StrProperty { value: Some(\"\\\", b: [1i32]\") })], " ++
    "\"c\\n\": []})) })").toList := by
  have h : quoted.debug bitTexts false =
      "StructProperty(StructProperty { guid: Guid(0), type_name: \"T\", value: CustomStruct(" ++
      "HashableIndexMap({\"a\": [StrProperty(StrProperty { value: Some(\"\\\", b: [1i32]\") })], " ++
      "\"c\\n\": []})) })" := by decide +kernel
  rw [← h]
  exact C104_property_declared _ _ _

end Gvas
