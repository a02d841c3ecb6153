import Verif.SpecSilvair
/-!
# Wire formats with selected contents: second debug model, composition data
-/
namespace BM
namespace F

/-- A wire float of `w` bytes, little-endian; reported is the number with that bit pattern. -/
def float [Platform] (w : Nat) : Fmt UInt8 := fun u b v => Platform.packF w u = .ok b ∧ v = .fbits w (leNat b)

/-- Two fields: the number of elements of a list, in `n` bytes, and the list.  The number is never taken from the object. -/
def counted (n : Nat) (kn ks : String) (G : Fmt UInt8) : RI UInt8 :=
  ⟨[kn, ks], fun du b dv => ∃ uv us vs p, dget du ks = some uv ∧ iter uv = .ok us ∧ us.length < 256 ^ n ∧ manyRel G us p vs ∧
    b = leBytes n us.length ++ p ∧ dv = [(kn, .int us.length), (ks, .list vs)]⟩

/-- Four fields: the numbers of elements of two lists, in a byte each, and the lists. -/
def counted2 (kn kn' ks ks' : String) (G G' : Fmt UInt8) : RI UInt8 :=
  ⟨[kn, kn', ks, ks'], fun du b dv => ∃ uv us vs p uv' us' vs' p', dget du ks = some uv ∧ iter uv = .ok us ∧ us.length < 256 ∧ manyRel G us p vs ∧
    dget du ks' = some uv' ∧ iter uv' = .ok us' ∧ us'.length < 256 ∧ manyRel G' us' p' vs' ∧
    b = UInt8.ofNat us.length :: UInt8.ofNat us'.length :: (p ++ p') ∧
    dv = [(kn, .int us.length), (kn', .int us'.length), (ks, .list vs), (ks', .list vs')]⟩

end F

namespace Spec
open F

/-! ### Second debug model -/

/-- The kinds of values of the second debug model. -/
abbrev debugV2Values [Platform] : List Tagged := [
  ⟨0x00, "uint8", uint 1⟩, ⟨0x01, "uint16", uint 2⟩, ⟨0x02, "uint32", uint 4⟩, ⟨0x03, "uint64", uint 8⟩,
  ⟨0x04, "int8", sint 1⟩, ⟨0x05, "int16", sint 2⟩, ⟨0x06, "int32", sint 4⟩, ⟨0x07, "int64", sint 8⟩,
  ⟨0x08, "float", float 4⟩, ⟨0x09, "double", float 8⟩, ⟨0x0A, "enum", uint 1⟩, ⟨0x0B, "string", pascalText⟩,
  ⟨0x0C, "array", withCount 1 (uint 1)⟩, ⟨0xFF, "invalid", record []⟩]

def debugV2Plain [Platform] : List MsgSpec := [
  msg 0xEB3601 "silvair_debug_v2" (record [fld "subopcode" (enumOf (uint 1) E.DebugV2SubOpcode), u8 "parameter_type", u8 "page_number",
    fld "payload" (listOf (tagged "DebugV2DataTypes" "data_type" "parameter" debugV2Values))])]

/-! ### Composition data -/

/-- An element in composition data page 0. -/
abbrev page0Element : Fmt UInt8 := record [
  fld "location" (enumOf (uint 2) E.GATTNamespaceDescriptor),
  counted2 "sig_number" "vendor_number" "sig_models" "vendor_models" (record sigModel) (record vendorModel)]

/-- Composition data page 0. -/
abbrev page0 : Fmt UInt8 := record [u16 "cid", u16 "pid", u16 "vid", u16 "crpl", u16 "features", fld "elements" (listOf page0Element)]

/-- Extended model items: in the short format, five bits of item index and three bits of signed element offset. -/
abbrev shortItem : Fmt UInt8 := packed 1 (record [fld "model_item_index" (bitsU 5), fld "element_offset" (bitsS 3)])
/-- In the long format, a byte each. -/
abbrev longItem : Fmt UInt8 := record [u8 "model_item_index", fld "element_offset" (sint 1)]

/-- One model in composition data page 1.  The first byte holds the number of extended model items (six bits), their format and
whether there is a corresponding group identifier; then follow that identifier, if there is one, and the items.  The items
are given, and reported, in a dictionary under the name of their format; if the dictionary has further entries, its first
one must have as many elements. -/
def relationItem : Fmt UInt8 := fun u b v =>
  ∃ du uf up ui di v0 ul us vs p q, ∃ f present id : Nat, ∃ key : String, ∃ G : Fmt UInt8,
    u = .dict du ∧
    dget du "format" = some uf ∧ hashInt uf = some (f : Int) ∧ (f = 0 ∧ key = "short" ∧ G = shortItem ∨ f = 1 ∧ key = "long" ∧ G = longItem) ∧
    dget du "corresponding_present" = some up ∧ asInt up = some (present : Int) ∧ present < 2 ∧
    dget du "corresponding_id" = some ui ∧
    (present = 0 ∧ q = [] ∧ id = 0 ∨ present = 1 ∧ asInt ui = some (id : Int) ∧ id < 256 ∧ q = [UInt8.ofNat id]) ∧
    dget du "extended_models_items" = some (.dict di) ∧ dget di key = some ul ∧ iter ul = .ok us ∧
    (di.head?.map Prod.snd = some v0 ∧ ∃ us0, iter v0 = .ok us0 ∧ us0.length = us.length) ∧
    us.length < 64 ∧ manyRel G us p vs ∧
    b = UInt8.ofNat (us.length * 4 + f * 2 + present) :: (q ++ p) ∧
    v = .dict [("extended_items_count", .int us.length), ("format", .enum "ExtendedModelsItemFormat" f), ("corresponding_present", .int present),
      ("corresponding_id", .int id), ("extended_models_items", .dict [(key, .list vs)])]

/-- Composition data page 1. -/
abbrev page1 : Fmt UInt8 := record [fld "element" (listOf (record [counted2 "number_s" "number_v" "sig_models" "vendor_models" relationItem relationItem]))]

/-- Composition data page 2: the supported mesh profiles. -/
abbrev page2 : Fmt UInt8 := record [fld "record_list" (listOf (record [
  u16 "mesh_profile_identifier", fld "version" (record [u8 "version_x", u8 "version_y", u8 "version_z"]),
  counted 1 "num_element_offsets" "element_offset_list" (uint 1), counted 2 "additional_data_len" "additional_data" (uint 1)]))]

def compositionLossless : List MsgSpec := [
  msg 0x02 "config_composition_data_status" (tagged "CompositionDataPage" "page" "data" [
    ⟨0, "zero", page0⟩, ⟨1, "first", page1⟩, ⟨2, "second", page2⟩, ⟨255, "two_hundred_and_fifty_fifth", rest⟩])]

end Spec
end BM
