import Verif.Spec.Grammar

/-!
# Specification vocabulary: where the properties inside a property stand

`Inside env st ty front st' ty'` says that the bytes `front` are the beginning of a property of type
`ty` below the path `st`, up to the header of a property of type `ty'` inside it, below the path
`st'`.  Only what is in front of that header is spoken of, so this makes sense of saves that are
damaged from there on.  Stored sizes are not compared with anything: what they count is not complete
yet.  As in `Spec/Grammar.lean` there is no reader here.
-/

namespace Gvas.Format

open Spec

/-- A named property: a name other than `None`, a type name, the property. -/
def Entry (env : Env) (st : List String) (b : Bytes) (e : String × Property) : Prop :=
  ∃ n t c ty, b = n ++ t ++ c ∧ Str n (some e.1) ∧ e.1 ≠ "None" ∧ Str t (some ty) ∧
    Full env (st ++ [e.1]) ty c e.2

/-- The beginning of the contents of a struct of type `sty` up to the header of one of its fields. -/
inductive FieldAt (env : Env) : List String → String → Bytes → List String → String → Prop
  | mk {st : List String} {sty : String} {b n t : Bytes} {es : List (String × Property)}
      {name ty : String} : sty ∉ builtinStructs → Seq (Entry env st) b es →
      (env.debug = true → IndicesMatch es) → Str n (some name) → name ≠ "None" →
      Str t (some ty) → FieldAt env st sty (b ++ n ++ t) (st ++ [name]) ty

/-- The beginning of a property of type `ty` up to the header of a field of a struct right inside
it. -/
inductive FieldIn (env : Env) : List String → String → Bytes → List String → String → Prop
  | struct {st st' : List String} {t b : Bytes} {sty ty' : String} (len : UInt32) (g : Guid) :
      Str t (some sty) → FieldAt env (st ++ ["StructProperty"]) sty b st' ty' →
      FieldIn env st "StructProperty" (u32B len ++ u32B 0 ++ t ++ guidB g ++ [0] ++ b) st' ty'
  | structs {st st' : List String} {t f t' s b c : Bytes} {field sty ty' : String}
      {vs : List StructPropertyValue} (len count : UInt32) (size : UInt64) (g : Guid) :
      Str t (some "StructProperty") → Str f (some field) → Str t' (some "StructProperty") →
      Str s (some sty) → StructBodies env (st ++ ["ArrayProperty"]) sty b vs →
      vs.length < count.toNat → FieldAt env (st ++ ["ArrayProperty"]) sty c st' ty' →
      FieldIn env st "ArrayProperty"
        (u32B len ++ u32B 0 ++ t ++ [0] ++ u32B count ++ f ++ t' ++ u64B size ++ s ++ guidB g ++
          [0] ++ b ++ c) st' ty'
  | set {st st' : List String} {t b c : Bytes} {sty ty' : String} {sug : Option UInt32}
      {ps : List Property} (len fl count : UInt32) :
      Str t (some "StructProperty") → (env.debug = true → 8 ≤ len.toNat) →
      Bares env (st ++ ["SetProperty"]) "StructProperty" sug b ps → ps.length < count.toNat →
      env.hints (joinDots (st ++ ["SetProperty"] ++ ["StructProperty"])) = some sty →
      FieldAt env (st ++ ["SetProperty"] ++ ["StructProperty"]) sty c st' ty' →
      FieldIn env st "SetProperty"
        (u32B len ++ u32B 0 ++ t ++ [0] ++ u32B fl ++ u32B count ++ b ++ c) st' ty'
  | mapKey {st st' : List String} {k v b c : Bytes} {vt sty ty' : String}
      {es : List (Property × Property)} (len fl count : UInt32) :
      Str k (some "StructProperty") → Str v (some vt) →
      Entries env (st ++ ["MapProperty"]) "StructProperty" vt b es → es.length < count.toNat →
      env.hints (joinDots (st ++ ["MapProperty"] ++ ["Key"] ++ ["StructProperty"])) = some sty →
      FieldAt env (st ++ ["MapProperty"] ++ ["Key"] ++ ["StructProperty"]) sty c st' ty' →
      FieldIn env st "MapProperty"
        (u32B len ++ u32B 0 ++ k ++ v ++ [0] ++ u32B fl ++ u32B count ++ b ++ c) st' ty'
  | mapValue {st st' : List String} {k v b d c : Bytes} {kt sty ty' : String}
      {es : List (Property × Property)} {key : Property} (len fl count : UInt32) :
      Str k (some kt) → Str v (some "StructProperty") →
      Entries env (st ++ ["MapProperty"]) kt "StructProperty" b es → es.length < count.toNat →
      Bare env (st ++ ["MapProperty"] ++ ["Key"]) kt none d key →
      env.hints (joinDots (st ++ ["MapProperty"] ++ ["Value"] ++ ["StructProperty"])) = some sty →
      FieldAt env (st ++ ["MapProperty"] ++ ["Value"] ++ ["StructProperty"]) sty c st' ty' →
      FieldIn env st "MapProperty"
        (u32B len ++ u32B 0 ++ k ++ v ++ [0] ++ u32B fl ++ u32B count ++ b ++ d ++ c) st' ty'

/-- The beginning of a property of type `ty` up to the header of a property of type `ty'` in it, at
any depth, which may be that of the property itself. -/
inductive Inside (env : Env) : List String → String → Bytes → List String → String → Prop
  | here {st : List String} {ty : String} : Inside env st ty [] st ty
  | within {st st1 st' : List String} {ty ty1 ty' : String} {a b : Bytes} :
      FieldIn env st ty a st1 ty1 → Inside env st1 ty1 b st' ty' →
      Inside env st ty (a ++ b) st' ty'

end Gvas.Format
