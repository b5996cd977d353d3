import Verif.Model.Utils
import Verif.Model.Text
import Verif.Py.Dict

/-
LnkParse3/extra/metadata.py
-/

namespace Verif

namespace Metadata

/-- The members of `PropertyType`.  Models extra/metadata.py:24-112. -/
def PROPERTY_TYPES : List (Nat × String) :=
  [ (0x0000, "VT_EMPTY"),
    (0x0001, "VT_NULL"),
    (0x0002, "VT_I2"),
    (0x0003, "VT_I4"),
    (0x0004, "VT_R4"),
    (0x0005, "VT_R8"),
    (0x0006, "VT_CY"),
    (0x0007, "VT_DATE"),
    (0x0008, "VT_BSTR"),
    (0x000A, "VT_ERROR"),
    (0x000B, "VT_BOOL"),
    (0x000E, "VT_DECIMAL"),
    (0x0010, "VT_I1"),
    (0x0011, "VT_UI1"),
    (0x0012, "VT_UI2"),
    (0x0013, "VT_UI4"),
    (0x0014, "VT_I8"),
    (0x0015, "VT_UI8"),
    (0x0016, "VT_INT"),
    (0x0017, "VT_UINT"),
    (0x001E, "VT_LPSTR"),
    (0x001F, "VT_LPWSTR"),
    (0x0040, "VT_FILETIME"),
    (0x0041, "VT_BLOB"),
    (0x0042, "VT_STREAM"),
    (0x0043, "VT_STORAGE"),
    (0x0044, "VT_STREAMED_Object"),
    (0x0045, "VT_STORED_Object"),
    (0x0046, "VT_BLOB_Object"),
    (0x0047, "VT_CF"),
    (0x0048, "VT_CLSID"),
    (0x0049, "VT_VERSIONED_STREAM"),
    (0x1002, "VT_VECTOR_I2"),
    (0x1003, "VT_VECTOR_I4"),
    (0x1004, "VT_VECTOR_R4"),
    (0x1005, "VT_VECTOR_R8"),
    (0x1006, "VT_VECTOR_CY"),
    (0x1007, "VT_VECTOR_DATE"),
    (0x1008, "VT_VECTOR_BSTR"),
    (0x100A, "VT_VECTOR_ERROR"),
    (0x100B, "VT_VECTOR_BOOL"),
    (0x100C, "VT_VECTOR_VARIANT"),
    (0x1010, "VT_VECTOR_I1"),
    (0x1011, "VT_VECTOR_UI1"),
    (0x1012, "VT_VECTOR_UI2"),
    (0x1013, "VT_VECTOR_UI4"),
    (0x1014, "VT_VECTOR_I8"),
    (0x1015, "VT_VECTOR_UI8"),
    (0x101E, "VT_VECTOR_LPSTR"),
    (0x101F, "VT_VECTOR_LPWSTR"),
    (0x1040, "VT_VECTOR_FILETIME"),
    (0x1047, "VT_VECTOR_CF"),
    (0x1048, "VT_VECTOR_CLSID"),
    (0x2002, "VT_ARRAY_I2"),
    (0x2003, "VT_ARRAY_I4"),
    (0x2004, "VT_ARRAY_R4"),
    (0x2005, "VT_ARRAY_R8"),
    (0x2006, "VT_ARRAY_CY"),
    (0x2007, "VT_ARRAY_DATE"),
    (0x2008, "VT_ARRAY_BSTR"),
    (0x200A, "VT_ARRAY_ERROR"),
    (0x200B, "VT_ARRAY_BOOL"),
    (0x200C, "VT_ARRAY_VARIANT"),
    (0x200E, "VT_ARRAY_DECIMAL"),
    (0x2010, "VT_ARRAY_I1"),
    (0x2011, "VT_ARRAY_UI1"),
    (0x2012, "VT_ARRAY_UI2"),
    (0x2013, "VT_ARRAY_UI4"),
    (0x2016, "VT_ARRAY_INT"),
    (0x2017, "VT_ARRAY_UINT") ]

/-- `PropertyType(n).name`: `ValueError` for a value that is not a member. -/
def propertyTypeName (n : Nat) : Py String :=
  match PROPERTY_TYPES.lookup n with
  | some s => pure s
  | none => Py.raise .valueError

/-- `TypedPropertyValue.value_type`.  Models extra/metadata.py:131-133. -/
def valueType (raw : Bytes) : Py Nat := unpackU 2 (slice raw 0 2)

/-- `TypedPropertyValue.value_padding`.  Models extra/metadata.py:135-137. -/
def valuePadding (raw : Bytes) : Py Nat := unpackU 2 (slice raw 2 4)

/-- `TypedPropertyValue.value`: `VT_I2` unpacks a 4-byte format from a 2-byte slice (sic), `VT_LPWSTR` is a counted
UTF-16 string, every other type gives `None`.  Models extra/metadata.py:139-151. -/
def typedValue (raw : Bytes) : Py PyVal := do
  let pad ← valuePadding raw
  if pad ≠ 0 then pure .none
  else do
    let t ← valueType raw
    if t = 0x0002 then do
      let v ← unpackI 4 (slice raw 4 6)
      pure (.int v)
    else if t = 0x001F then do
      let n ← unpackU 4 (slice raw 4 8)
      let text ← TextProc.readUnicodeString (slice raw 8 (8 + n * 2))
      pure (.str text)
    else pure .none

/-- `SerializedPropertyValueIntegerName.as_dict`.  Models extra/metadata.py:172-189. -/
def integerNameAsDict (raw : Bytes) : Py Dict := do
  let value_size ← unpackU 4 (slice raw 0 4)
  let id ← unpackU 4 (slice raw 4 8)
  let value ← typedValue (raw.drop 9)
  let t ← valueType (raw.drop 9)
  let value_type ← propertyTypeName t
  pure [("value_size", .nat value_size), ("id", .nat id), ("value", value),
    ("value_type", .lit value_type)]

/-- `SerializedPropertyValueStringName.as_dict`.  Models extra/metadata.py:213-239. -/
def stringNameAsDict (raw : Bytes) : Py Dict := do
  let value_size ← unpackU 4 (slice raw 0 4)
  let name_size ← unpackU 4 (slice raw 4 8)
  let name ← TextProc.readUnicodeString (slice raw 9 (9 + name_size))
  let value ← typedValue (raw.drop (9 + name_size))
  let t ← valueType (raw.drop (9 + name_size))
  let value_type ← propertyTypeName t
  pure [("value_size", .nat value_size), ("name_size", .nat name_size), ("name", .str name),
    ("value", value), ("value_type", .lit value_type)]

/-- The two `while True` loops over size-prefixed records: collect `raw[start:]` and advance by its size field
until that is zero.  The model carries the suffix `raw[start:]` instead of `start`.
Models extra/metadata.py:285-293 and 316-324. -/
def sizeChain (rest : Bytes) : Py (List Bytes) := do
  let n ← unpackU 4 (slice rest 0 4)
  if n = 0 then pure []
  else if _h : (rest.drop n).length < rest.length then do
    let more ← sizeChain (rest.drop n)
    pure (rest :: more)
  else Py.raise .diverge
termination_by rest.length

/-- A list comprehension `[f(v) for v in l]`. -/
def collect (f : Bytes → Py Dict) : List Bytes → Py (List PyVal)
  | [] => pure []
  | x :: xs => do
    let d ← f x
    let ds ← collect f xs
    pure (.dict d :: ds)

/-- The FormatID of string-named property storages.  Models extra/metadata.py:282. -/
def stringNameFormat : Str := "D5CDD505-2E9C-101B-9397-08002B2CF9AE".toList

/-- `SerializedPropertyStorage.format_id`.  Models extra/metadata.py:272-275. -/
def formatId (raw : Bytes) : Py Str := parseUuid (slice raw 8 24)

/-- `SerializedPropertyStorage.as_dict`; first all values are located, then all are decoded.
Models extra/metadata.py:263-301. -/
def storageAsDict (raw : Bytes) : Py Dict := do
  let storage_size ← unpackU 4 (slice raw 0 4)
  let version ← unpackU 4 (slice raw 4 8)
  let format_id ← formatId raw
  let f ← formatId raw
  let values ← sizeChain (raw.drop 24)
  let items ← collect (if f = stringNameFormat then stringNameAsDict else integerNameAsDict) values
  pure [("storage_size", .nat storage_size), ("version", .str (pyHex version)),
    ("format_id", .str format_id), ("serialized_property_values", .list items)]

/-- `Metadata.property_store()` followed by the list comprehension of `as_dict`.
Models extra/metadata.py:312-329. -/
def propertyStore (raw : Bytes) : Py (List PyVal) := do
  let storages ← sizeChain (raw.drop 8)
  collect storageAsDict storages

end Metadata

end Verif
